import Verif.Proofs.Crates
import Verif.Props.Reference
import Verif.Props.Soft
/-
C66: what the reference device computes.

`StdServes` (Spec/Crates) says for every command what the reference device answers, which state it is
left in, and what becomes of its random number generator and its exported CDI, in terms of SHA-2, HKDF,
ECDSA, ML-DSA and the generator alone.
-/
namespace Dpe
section
variable {cfg : Cfg} {L : Lib} {a : Artifact} {loc : U32} {c : Cmd cfg} {n : Nat}
  {s s' : Sys cfg (Soft (L.crypto cfg.profile) × Unit)}

/-- C66: a command on the reference device succeeds exactly if it is not refused, `StdServes` has a reply
for it, and the reply fits into the caller's buffer; and then the reply, the state and the crypto state
are those of `StdServes`. -/
theorem C66_exact (hL : L.Total) (ha : a.Fit) (hb : Built cfg a) (hst : InService s.st) :
    exec ((device L a cfg.profile).env cfg) c loc s = (.ok n, s') ↔ NoRefusal (rules s.st loc c) ∧
      ∃ reply st' w', StdServes L a s.st loc s.w.1 c reply st' w' ∧ reply.length ≤ s.out.length ∧
        n = reply.length ∧ s' = ⟨st', (w', ()), reply ++ s.out.drop reply.length⟩ := by
  obtain ⟨hfit, hser, _⟩ := C58_meets (cfg := cfg) (L := L) hL ha 0
  rw [C57_exact hst (fun _ => ⟨hfit, hser⟩)]
  refine and_congr_right fun hno => exists_congr fun reply => exists_congr fun st' => ?_
  have h := std_iff ha hb hL hno (st := s.st) (a := a)
  constructor
  · rintro ⟨w', h1, h2⟩
    exact ⟨w'.1, (h s.w reply st' w').1 h1, h2⟩
  · rintro ⟨w', h1, h2⟩
    exact ⟨(w', ()), (h s.w reply st' (w', ())).2 h1, h2⟩

/-- C66: `StdServes` leaves nothing open. -/
theorem C66_unique (hL : L.Total) (ha : a.Fit) (hb : Built cfg a) {st st1 st2 : State cfg}
    {w w1 w2 : Soft (L.crypto cfg.profile)} {r1 r2 : Bytes} (hst : InService st)
    (hno : NoRefusal (rules st loc c))
    (h1 : StdServes L a st loc w c r1 st1 w1) (h2 : StdServes L a st loc w c r2 st2 w2) :
    r1 = r2 ∧ st1 = st2 ∧ w1 = w2 := by
  obtain ⟨hfit, hser, _⟩ := C58_meets (cfg := cfg) (L := L) hL ha 0
  have h := std_iff ha hb hL hno (st := st) (a := a)
  obtain ⟨e1, e2, e3⟩ := C57_unique hst hno (fun _ => ⟨hfit, hser⟩)
    ((h (w, ()) r1 st1 (w1, ())).2 h1) ((h (w, ()) r2 st2 (w2, ())).2 h2)
  exact ⟨e1, e2, (Prod.mk.inj e3).1⟩

/-- C66, Sign: the signature in the reply is the crate's signature, with the private key that HKDF makes of
the ancestry's measurements and the label, on what the caller asks to be signed. -/
theorem C66_sign {k : SignCmd} (hL : L.Total) (ha : a.Fit) (hb : Built cfg a) (hst : InService s.st)
    (h : exec ((device L a cfg.profile).env cfg) (.sign k) loc s = (.ok n, s')) :
    ∃ i path cdi priv sig, Resolves s.st k.handle loc i ∧ Path s.st i path ∧
      StdLeafKey L a s.st path k.label cdi priv ∧ StdSigned L cfg.profile priv k.message sig ∧
      sigIn s'.out n = sigFields sig := by
  obtain ⟨_, reply, st', w', hs, _, rfl, rfl⟩ := (C66_exact hL ha hb hst).1 h
  obtain ⟨i, path, cdi, priv, sig, hd, r, h1, h2, h3, h4, _, _, _, rfl⟩ := hs
  refine ⟨i, path, cdi, priv, sig, h1, h2, h3, h4, ?_⟩
  show ((signReply cfg.profile hd sig ++ _).take _).drop 28 = _
  rw [List.take_left]
  have h1 : (successBytes cfg.profile ++ hd.toList).length = 28 := by
    have : (successBytes cfg.profile).length = 12 := by cases cfg.profile <;> rfl
    simp [this]
  unfold signReply
  rw [← h1, List.drop_left]

/-- C66, CertifyKey: the public key in the reply belongs to the private key that Sign uses with the same
label. -/
theorem C66_certify {k : CertifyCmd} (hL : L.Total) (ha : a.Fit) (hb : Built cfg a) (hst : InService s.st)
    (h : exec ((device L a cfg.profile).env cfg) (.certify k) loc s = (.ok n, s')) :
    ∃ i path cdi priv pk, Resolves s.st k.handle loc i ∧ Path s.st i path ∧
      StdLeafKey L a s.st path k.label cdi priv ∧ StdPublic L cfg.profile priv pk ∧
      keyIn k s'.out = keyFields pk := by
  obtain ⟨_, _, hd, hg, _⟩ := C58_meets (cfg := cfg) (L := L) hL ha 0
  obtain ⟨_, reply, st', w', hs, _, rfl, rfl⟩ := (C66_exact hL ha hb hst).1 h
  obtain ⟨i, path, cdi, priv, pk, D, cert, hd, r, h1, h2, h3, h4, h5, h6, h7, _, _, _, rfl⟩ := hs
  refine ⟨i, path, cdi, priv, pk, h1, h2, h3, h4, ?_⟩
  have hw : k.wants pk := (wants_iff ((hL.sound cfg.profile).pubOf (std_public.2 h4))).2 h6
  have h1 : (successBytes cfg.profile ++ hd.toList).length = 28 := by
    have : (successBytes cfg.profile).length = 12 := by cases cfg.profile <;> rfl
    simp [this]
  show ((certifyReply cfg.profile hd pk cert ++ _).drop 28).take k.keyBytes = _
  unfold certifyReply
  rw [← h1, List.append_assoc, List.append_assoc, List.append_assoc, List.drop_left,
    ← keyFields_length hw, List.take_left]

/-- C66, the registers: a command that measures `m` into a context extends its register by hashing the
old value and `m`; C19 and C24 apply to the reference device with this hash function. -/
theorem C66_hashes (p : Profile) : HashesWith (stdHash L p) (device L a p) := by
  rw [← std_hash]
  exact C48_hashes

/-- C66, valid keys: with ML-DSA-87, every derived private key is valid; with ECDSA it is valid exactly if
the crate takes its octets for a scalar in range. -/
theorem C66_valid (p : Profile) (salt secret info priv : Bytes)
    (h : StdKdf L p salt secret info priv) : ValidKey (L.crypto p) priv ↔
      match p with
      | .p256 => ∃ k, L.key256 priv = some k
      | .p384 => ∃ k, L.key384 priv = some k
      | .mldsa87 => True := by
  unfold ValidKey
  simp only [std_public]
  cases p with
  | p256 => exact ⟨fun ⟨_, k, h, _⟩ => ⟨k, h⟩, fun ⟨k, h⟩ => ⟨_, k, h, rfl⟩⟩
  | p384 => exact ⟨fun ⟨_, k, h, _⟩ => ⟨k, h⟩, fun ⟨k, h⟩ => ⟨_, k, h, rfl⟩⟩
  | mldsa87 =>
    obtain ⟨v, _, rfl⟩ := h
    exact ⟨fun _ => trivial, fun _ => ⟨_, v, rfl, rfl⟩⟩

end

namespace Ref

/-- With these crates, and with a label that does not begin with 0xFF, the booted device answers to Sign
with the private key and the digest, each as the crate pads it; the state stays as it is, and so does the
generator. -/
example (label : BArr 32) (hl : label[0] ≠ 0xFF) (w : Soft (lib.crypto cfg.profile)) :
    ∃ cdi reply, exec ((device lib cert cfg.profile).env cfg) (.sign (signCmd label)) 3 (sys w) =
        (.ok 92, ⟨booted, ({ w with hasher := none, cdi := cdi, priv := leafPriv label }, ()),
          reply ++ fresh.out.drop 92⟩) ∧
      reply = successBytes .p256 ++ List.replicate 16 0 ++
        ((pad 32 (leafPriv label)).toList ++ (pad 32 (List.replicate 32 9)).toList) := by
  obtain ⟨cdi, hk⟩ := leafKey label
  have hv : lib.key256 (leafPriv label) = some (leafPriv label) := by
    refine if_neg ?_
    rw [leafPriv_head]
    intro h
    exact hl (Option.some.inj h)
  have hs : StdServes lib cert booted 3 w (.sign (signCmd label))
      (signReply .p256 Handle.default (.p256 (pad 32 (leafPriv label)) (pad 32 (List.replicate 32 9))))
      booted { w with hasher := none, cdi := cdi, priv := leafPriv label } := by
    refine ⟨0, [0], cdi, leafPriv label, _, Handle.default, w.rng, booted_resolves, booted_path,
      std_leafKey.1 hk, ?_, .inl ⟨booted_at.2.1, rfl, rfl⟩, ⟨?_, fun _ _ => rfl, ?_⟩, rfl, rfl⟩
    · exact ⟨_, _, _, hv, rfl, rfl⟩
    · rw [← booted_at.2.1]
    · simp [SameMeta, SameConfig]
  have hlen : ∀ r s : BArr 32, (signReply .p256 Handle.default (.p256 r s)).length = 92 := by
    intro r s
    simp [signReply, sigFields, show (successBytes .p256).length = 12 from rfl]
  refine ⟨cdi, signReply .p256 Handle.default (.p256 (pad 32 (leafPriv label)) (pad 32 (List.replicate 32 9))),
    (C66_exact (s := sys w) lib_total cert_fit built (.reached booted_reach)).2
    ⟨sign_allowed label, _, _, _, hs, ?_, (hlen _ _).symm, ?_⟩, ?_⟩
  · rw [hlen]; exact Nat.le_trans (by decide) fresh_out
  · rw [hlen]; rfl
  · rfl

/-- The label that begins with 0xFF gets no signature: no reply satisfies `StdServes`. -/
example (label : BArr 32) (hl : label[0] = 0xFF) (w w' : Soft (lib.crypto cfg.profile)) (reply : Bytes)
    (st' : State cfg) : ¬ StdServes lib cert booted 3 w (.sign (signCmd label)) reply st' w' := by
  rintro ⟨i, path, cdi, priv, sig, _, _, hr, hp, hk, ⟨k, _, _, hkey, _⟩, _⟩
  obtain rfl := hr.unique booted_resolves
  obtain rfl := hp.unique booted_path
  obtain ⟨cdi', hk'⟩ := leafKey label
  have hk := std_leafKey.2 hk
  obtain rfl := Except.ok.inj (hk.cdiIs.symm.trans hk'.cdiIs)
  obtain rfl := Except.ok.inj (hk.privIs.symm.trans hk'.privIs)
  have : (if (leafPriv label).head? = some 0xFF then none else some (leafPriv label)) = some k := hkey
  rw [leafPriv_head, if_pos (by rw [hl])] at this
  exact nomatch this

end Ref
end Dpe
