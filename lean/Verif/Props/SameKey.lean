import Verif.Proofs.SignRun
import Verif.Proofs.SoftKey
import Verif.Props.Certificates
import Verif.Examples.SoftRuns
/-
C25: CertifyKey certifies the key that Sign signs with.

`SigningKey` (Spec/Sign) says how a key pair comes about: from the measurement digest over the
context's ancestry, the CDI label "DPE", the caller's label and the profile's purpose.  For an
arbitrary crypto implementation both commands go through the same derivation, and from the same state
they use the very same key.  For the software back end the key is the same even if the two commands
are issued at different times, as long as the ancestry's evidence is the same.
-/
namespace Dpe
variable {cfg : Cfg} {σ : Type} {ops : Ops σ} {loc : U32} {s s' : Sys cfg σ} {n : Nat}

theorem Drafted.signingKey {kind : CertKind} {handle : Handle} {label : Bytes} {st : State cfg}
    {w w' : σ} {D : Draft} (hk : kind ≠ .exportedX509)
    (h : Drafted ops kind (leafArgs st handle loc label) st w D w') :
    ∃ key w1 w2, SigningKey ops st D.path label w key w1 ∧ ops.publicKey key w1 = (.ok D.key, w2) := by
  obtain ⟨key, w1, w2, w3, _, _, _, _, _, _, _, h1, h2, h3, _⟩ := h
  cases kind with
  | exportedX509 => exact absurd rfl hk
  | leafX509 =>
    obtain ⟨cdi, w4, _, g1, g2⟩ := h2
    exact ⟨key, w2, w3, ⟨D.digest, cdi, w1, w4, h1, g1, g2⟩, h3⟩
  | leafCsr =>
    obtain ⟨cdi, w4, _, g1, g2⟩ := h2
    exact ⟨key, w2, w3, ⟨D.digest, cdi, w1, w4, h1, g1, g2⟩, h3⟩

/-- The key that CertifyKey returns, and that whoever reads the certificate or the request finds in
it, is the public key of the context's key pair for the label. -/
theorem C25_certify {c : CertifyCmd} (hst : InService s.st) (hd : Decent cfg ops)
    (h : exec (ops.env cfg) (.certify c) loc s = (.ok n, s')) :
    ∃ i path key pk w1 w2, Resolves s.st c.handle loc i ∧ Path s.st i path ∧
      SigningKey ops s.st path c.label s.w key w1 ∧ ops.publicKey key w1 = (.ok pk, w2) ∧
      keyIn c s'.out = keyFields pk ∧
      (∀ x, c.format = 0 → readCert (certIn c s'.out n) = some x →
        x.key = (keyInfo cfg.profile pk).der) ∧
      (∀ m x, c.format = 1 → readMessage (certIn c s'.out n) = some m →
        readRequest m.content = some x → x.key = (keyInfo cfg.profile pk).der) := by
  obtain ⟨kind, D, w1, t, w2, hdl, h1, h2, h3, h4, h5, h6, h7, h8, h9⟩ :=
    certify_issues hst hd.fits hd.serial h
  obtain ⟨key, v1, v2, k1, k2⟩ := h2.signingKey h1.leaf
  refine ⟨D.slot, D.path, key, D.key, v1, v2, h2.resolves, h2.path, k1, k2, ?_, ?_, ?_⟩
  · rw [h9, keyIn_reply h4]
  · intro x hf hx
    rw [h9, h7, certIn_reply h4] at hx
    have hk : kind = .leafX509 := by
      rcases h1 with h1 | ⟨h1, _⟩
      · exact h1.2
      · rw [hf] at h1; cases h1
    subst hk
    obtain ⟨issuer, sig, w4, _, _, _, _, _, f6⟩ :=
      cert_facts h3 (chain_le hst h2) (by decide) hd.issuer h5
    obtain ⟨rfl, _⟩ := f6 x hx
    rfl
  · intro m x hf hm hx
    rw [h9, h7, certIn_reply h4] at hm
    have hk : kind = .leafCsr := by
      rcases h1 with ⟨h1, _⟩ | h1
      · rw [hf] at h1; cases h1
      · exact h1.2
    subst hk
    obtain ⟨_, _, sig, sig', _, _, _, _, _, _, _, f1, f2, f3, f4, f5, f6⟩ :=
      request_facts h3 (chain_le hst h2) (hd.named h2) h5
    rw [f3] at hm
    injection hm with hm
    subst hm
    obtain ⟨rfl, _⟩ := f6 x hx
    rfl

/-- The signature that Sign returns is made by the context's key pair for the label over what the
caller gave.  This holds with any certificate generator. -/
theorem C25_sign {env : Env cfg σ} {c : SignCmd} (hst : InService s.st)
    (h : exec env (.sign c) loc s = (.ok n, s')) :
    ∃ i path key sig w1 w2, Resolves s.st c.handle loc i ∧ Path s.st i path ∧
      SigningKey env.toOps s.st path c.label s.w key w1 ∧
      env.sign key c.message w1 = (.ok sig, w2) ∧ sigIn s'.out n = sigFields sig := by
  obtain ⟨_, i, path, key, sig, w1, w2, hd, w3, h1, h2, h3, h4, h5, rfl, h7, rfl⟩ := (sign_iff hst).1 h
  exact ⟨i, path, key, sig, w1, w2, h1, h2, h3, h4, sigIn_reply⟩

theorem SigningKey.det {st : State cfg} {path : List Nat} {label : Bytes} {w w1 w2 : σ}
    {k1 k2 : ops.Key} (h : SigningKey ops st path label w k1 w1)
    (h' : SigningKey ops st path label w k2 w2) : k1 = k2 ∧ w1 = w2 := by
  obtain ⟨d, cdi, x1, x2, a1, a2, a3⟩ := h
  obtain ⟨d', cdi', y1, y2, b1, b2, b3⟩ := h'
  obtain ⟨rfl, rfl⟩ := a1.det b1
  obtain ⟨rfl, rfl⟩ := call_det a2 b2
  exact call_det a3 b3

/-- In one and the same situation, CertifyKey and Sign for the same context and label use one key:
the one returns its public half, the other signs with it. -/
theorem C25_same {c : CertifyCmd} {c' : SignCmd} {n' : Nat} {s'' : Sys cfg σ} (hst : InService s.st)
    (hd : Decent cfg ops) (hh : c'.handle = c.handle) (hl : c'.label = c.label)
    (h : exec (ops.env cfg) (.certify c) loc s = (.ok n, s'))
    (h' : exec (ops.env cfg) (.sign c') loc s = (.ok n', s'')) :
    ∃ (key : ops.Key) (w : σ) (pk : PubKey) (sig : Sig), (ops.publicKey key w).1 = .ok pk ∧
      keyIn c s'.out = keyFields pk ∧ (ops.sign key c'.message w).1 = .ok sig ∧
      sigIn s''.out n' = sigFields sig := by
  obtain ⟨i, path, key, pk, w1, w2, a1, a2, a3, a4, a5, _⟩ := C25_certify hst hd h
  obtain ⟨j, path', key', sig, v1, v2, b1, b2, b3, b4, b5⟩ := C25_sign hst h'
  rw [hh] at b1
  rw [hl] at b3
  obtain rfl := a1.unique b1
  obtain rfl := a2.unique b2
  obtain ⟨rfl, rfl⟩ := a3.det b3
  have b4 : ops.sign key c'.message w1 = (.ok sig, v2) := b4
  exact ⟨key, w1, pk, sig, by rw [a4], a5, by rw [b4], b5⟩

section Soft
variable {P : Prims} {w w' : σ} {τ : Type} {plat : Ops τ} {r r' r'' r''' : Sys cfg (Soft P × τ)}

/-- With the software back end and an unchanging platform: whenever two contexts, in whatever states,
have the same evidence along their ancestries, the key certified for the one is the key that signs for
the other, provided that the labels are the same. -/
theorem C25_soft {c : CertifyCmd} {c' : SignCmd} {n' : Nat} {loc' : U32} (hs : Steady plat)
    (hd : Decent cfg (softOps P plat)) (hr : InService r.st) (hr' : InService r''.st)
    (hl : c'.label = c.label)
    (he : ∀ i path j path', Resolves r.st c.handle loc i → Path r.st i path →
      Resolves r''.st c'.handle loc' j → Path r''.st j path' → SameEvidence r.st path r''.st path')
    (h : exec ((softOps P plat).env cfg) (.certify c) loc r = (.ok n, r'))
    (h' : exec ((softOps P plat).env cfg) (.sign c') loc' r'' = (.ok n', r''')) :
    ∃ priv pk sig, P.pub priv = .ok pk ∧ keyIn c r'.out = keyFields pk ∧
      signData P priv c'.message = .ok sig ∧ sigIn r'''.out n' = sigFields sig := by
  obtain ⟨i, path, key, pk, w1, w2, a1, a2, a3, a4, a5, _⟩ := C25_certify hr hd h
  obtain ⟨j, path', key', sig, v1, v2, b1, b2, b3, b4, b5⟩ := C25_sign hr' h'
  rw [hl] at b3
  have e := soft_key_same hs (he _ _ _ _ a1 a2 b1 b2) a3 b3
  refine ⟨w1.1.priv, pk, sig, (Prod.mk.inj a4).1, a5, ?_, b5⟩
  rw [e]
  exact (Prod.mk.inj b4).1

theorem GoodDraw.unused {st : State cfg} {k : Nat} {hd : Handle} (h : GoodDraw ops st k w hd w') :
    Unused st hd := by
  induction h with
  | hit _ h => exact h
  | miss _ _ _ ih => exact ih

theorem names_handle {st : State cfg} {h : Handle} {i : Nat} (hr : Names st h loc i) :
    (st.at i).handle = h := hr.2.1

/-- The handle returned by a command that replaces only the handle leads to the same context. -/
theorem resolves_rotated {st : State cfg} {h hd : Handle} {i j : Nat} (hr : Resolves st h loc i)
    (hn : Redrawn ops st (st.at i).handle w hd w')
    (hj : Resolves (st.setCtx i { st.at i with handle := hd }) hd loc j) : j = i := by
  have hi : i < cfg.maxHandles := hr.lt
  have hi' : Names (st.setCtx i { st.at i with handle := hd }) hd loc i := by
    unfold Names
    rw [at_setCtx_self hi]
    exact ⟨hr.1.1, rfl, hr.1.2.2⟩
  refine Decidable.byContradiction fun hne => ?_
  have hlt : j < i := Nat.lt_of_le_of_ne (Nat.le_of_not_lt fun hlt => hj.2 i hlt hi') hne
  have hj1 := hj.1
  unfold Names at hj1
  rw [at_setCtx_ne hi _ hne] at hj1
  rcases hn with ⟨h1, rfl, _⟩ | ⟨_, h1⟩
  · refine hr.2 j hlt ?_
    rw [← names_handle hr.1, h1]
    exact hj1
  · exact h1.unused.2 j hj.lt hj1.2.1

theorem rotated_evidence {st : State cfg} {i : Nat} {path : List Nat} {hd : Handle}
    (hi : i < cfg.maxHandles) :
    SameEvidence st path (st.setCtx i { st.at i with handle := hd }) path := by
  refine ⟨rfl, List.map_congr_left fun j _ => ?_⟩
  rw [at_setCtx hi]
  split
  · subst_vars; rfl
  · rfl

theorem rotated_path {st : State cfg} {i j : Nat} {path : List Nat} {hd : Handle}
    (hi : i < cfg.maxHandles) (hp : Path st j path) :
    Path (st.setCtx i { st.at i with handle := hd }) j path := by
  refine hp.transfer (P := fun _ => True) (fun k hk _ => ?_) trivial
  unfold Live at hk ⊢
  rw [at_setCtx hi]
  split
  · subst_vars; exact ⟨hk, rfl, fun _ => trivial⟩
  · exact ⟨hk, rfl, fun _ => trivial⟩

/-- With the software back end and an unchanging platform: what is signed with the handle that
CertifyKey returned, under the same label, is signed with the certified key. -/
theorem C25_then_sign {c : CertifyCmd} {c' : SignCmd} {n' : Nat} (hs : Steady plat)
    (hd : Decent cfg (softOps P plat)) (hr : InService r.st)
    (h : exec ((softOps P plat).env cfg) (.certify c) loc r = (.ok n, r'))
    (hst : r''.st = r'.st) (hh : c'.handle.toList = handleIn r'.out) (hl : c'.label = c.label)
    (h' : exec ((softOps P plat).env cfg) (.sign c') loc r'' = (.ok n', r''')) :
    ∃ priv pk sig, P.pub priv = .ok pk ∧ keyIn c r'.out = keyFields pk ∧
      signData P priv c'.message = .ok sig ∧ sigIn r'''.out n' = sigFields sig := by
  have hr' : InService r''.st := by
    have := InService.step ((softOps P plat).env cfg) (.certify c) loc r.st r.w r.out hr
    rw [show exec ((softOps P plat).env cfg) (.certify c) loc ⟨r.st, r.w, r.out⟩ = (.ok n, r')
      from h] at this
    rw [hst]; exact this
  refine C25_soft hs hd hr hr' hl ?_ h h'
  obtain ⟨_, kind, D, w1, t, w2, hdl, w3, h1, h2, h3, h4, h5, h6, h7, h8, rfl⟩ :=
    (certify_iff hr hd.fits hd.serial).1 h
  simp only at hst hh
  rw [handleIn_certify] at hh
  have hh : c'.handle = hdl := Vector.toList_inj.1 hh
  intro i path j path' a1 a2 b1 b2
  obtain rfl := a1.unique h2.resolves
  rw [hst] at b1 b2 ⊢
  rw [hh] at b1
  obtain rfl := resolves_rotated a1 h6 b1
  obtain rfl := (rotated_path a1.lt a2).unique b2
  exact rotated_evidence a1.lt

/-- With the software back end, whoever reads a certification request made by CertifyKey finds a
signature made with the private key that belongs to the public key in the request, over exactly the
octets that the signature has to cover: a proof of possession. -/
theorem C25_possession {c : CertifyCmd} (hd : Decent cfg (softOps P plat)) (hr : InService r.st)
    (hf : c.format = 1) (h : exec ((softOps P plat).env cfg) (.certify c) loc r = (.ok n, r'))
    {m : Message} {x : Request} (hm : readMessage (certIn c r'.out n) = some m)
    (hx : readRequest m.content = some x) :
    ∃ priv pk sig, P.pub priv = .ok pk ∧ x.key = (keyInfo cfg.profile pk).der ∧
      P.signRaw priv x.info = .ok sig ∧ x.signature = sigContents sig := by
  obtain ⟨D, w1, t, w2, h1, h2, h3, h4⟩ := leaf_csr hr hd hf h
  obtain ⟨_, _, sig, sig', v1, v2, v3, g1, g2, g3, g4, f1, f2, f3, f4, f5, f6⟩ :=
    request_facts h2 (chain_le hr h1) (hd.named h1) h3
  rw [h4, f3] at hm
  injection hm with hm
  subst hm
  obtain ⟨key, u1, u2, u3, _, _, _, _, _, _, _, a1, a2, a3, _⟩ := h1
  obtain ⟨cdi, u4, _, b1, b2⟩ := a2
  have hk : u2.1.priv = v2.1.priv := soft_derived_same b1 b2 g1 g2
  have hs : P.signRaw v2.1.priv _ = .ok sig := (Prod.mk.inj g3).1
  have hp : P.pub u2.1.priv = .ok D.key := (Prod.mk.inj a3).1
  obtain ⟨rfl, e, _⟩ := f6 x hx
  rw [e, ← hk] at hs
  exact ⟨_, _, _, hp, rfl, hs, rfl⟩

end Soft

/-! ## Concrete cases -/

/-- Sign succeeds for the grandchild of `s4`, like CertifyKey, and `C25_same` applies. -/
example : ∃ n s' n' s'', exec (Toy.certOps.env Toy.cfg) (Toy.certifyCmd 4 0) 0
      { Toy.s4.sys with out := Toy.bigBuf } = (.ok n, s') ∧
    exec (Toy.certOps.env Toy.cfg) (.sign (.p256 (Toy.hd 4) Toy.label 0 (Vector.replicate 32 7))) 0
      { Toy.s4.sys with out := Toy.bigBuf } = (.ok n', s'') ∧
    sigIn s''.out n' = sigFields Toy.keySig := by
  obtain ⟨n, s', h⟩ := Toy.s4_certificate
  have hx : (exec (Toy.certOps.env Toy.cfg)
      (.sign (.p256 (Toy.hd 4) Toy.label 0 (Vector.replicate 32 7))) 0
      { Toy.s4.sys with out := Toy.bigBuf }).1 = .ok 92 := by decide +kernel
  rcases h' : exec (Toy.certOps.env Toy.cfg)
      (.sign (.p256 (Toy.hd 4) Toy.label 0 (Vector.replicate 32 7))) 0
      { Toy.s4.sys with out := Toy.bigBuf } with ⟨r, s''⟩
  rw [h'] at hx
  simp only at hx
  subst hx
  obtain ⟨key, w, pk, sig, _, _, h3, h4⟩ := C25_same (c := .p256 (Toy.hd 4) 0 0 Toy.label)
    (s := { Toy.s4.sys with out := Toy.bigBuf }) (.reached Toy.s4.reach) Toy.decent_cert rfl rfl h h'
  have h3 : Except.ok (ε := CryptoErr) Toy.keySig = .ok sig := h3
  injection h3 with h3
  subst h3
  exact ⟨n, s', 92, s'', h, rfl, h4⟩

/-- A platform whose identity does not change. -/
theorem Toy.certOps_steady : Steady Toy.certOps where
  vendorId _ _ := rfl
  vendorSku _ _ := rfl
  certChain off size w w' := by
    simp only [Toy.certOps, Toy.ops]
    split <;> rfl

/-- With the software back end the grandchild of `s4` gets a certificate and a new handle, and with
that handle a signature; both show the same private key, which consists of label, purpose, measurement
digest and CDI label. -/
example : ∃ n r' n' r'' pk, exec (Toy.softKey.env Toy.cfg) (.certify (Toy.softCertify 0)) 0 Toy.softSys
      = (.ok n, r') ∧
    exec (Toy.softKey.env Toy.cfg) (.sign Toy.softSign) 0 { r' with out := Toy.bigBuf } = (.ok n', r'') ∧
    Toy.softSign.handle.toList = handleIn r'.out ∧
    ∃ priv, Toy.pubOf priv = pk ∧ keyIn (Toy.softCertify 0) r'.out = keyFields pk ∧
      sigIn r''.out n' = sigFields (Toy.sigOf priv (Vector.replicate 32 0x77).toList) := by
  obtain ⟨n, out, h, hh, _⟩ := Toy.soft_certify .leafX509 0 (.inl ⟨rfl, rfl⟩) (by decide +kernel)
  obtain ⟨n', r'', h'⟩ := Toy.soft_sign (o := none) (cdi := Toy.softCdi Toy.s4.st)
    (priv := Toy.softPriv Toy.s4.st Toy.label.toList)
  obtain ⟨priv, pk, sig, g1, g2, g3, g4⟩ := C25_then_sign (P := Toy.keyPrims) (plat := Toy.certOps)
    (c' := Toy.softSign) (r'' := ⟨Toy.softNext, _, Toy.bigBuf⟩)
    Toy.certOps_steady Toy.soft_decent (.reached Toy.s4.reach) h rfl hh.symm rfl h'
  have g1 : Except.ok (ε := CryptoErr) (Toy.pubOf priv) = .ok pk := g1
  have g3 : Except.ok (ε := CryptoErr) (Toy.sigOf priv (Vector.replicate 32 0x77).toList) = .ok sig := g3
  injection g1 with g1
  injection g3 with g3
  subst g3
  exact ⟨n, _, n', r'', pk, h, h', hh.symm, priv, g1, g2, g4⟩

/-- With the software back end the request for the grandchild of `s4` can be read, and its signature
shows the private key whose public key is in the request. -/
example : ∃ n r' m x priv, exec (Toy.softKey.env Toy.cfg) (.certify (Toy.softCertify 1)) 0 Toy.softSys
      = (.ok n, r') ∧ readMessage (certIn (Toy.softCertify 1) r'.out n) = some m ∧
    readRequest m.content = some x ∧ x.key = (keyInfo .p256 (Toy.pubOf priv)).der ∧
    x.signature = sigContents (Toy.sigOf priv x.info) := by
  obtain ⟨n, out, h, _⟩ := Toy.soft_certify .leafCsr 1 (.inr ⟨rfl, rfl⟩) (by decide +kernel)
  obtain ⟨i, p, m, h1, h2, h5, _, h3, _⟩ := C43_request_partial (c := Toy.softCertify 1)
      (ops := Toy.softKey) (s := Toy.softSys) (.reached Toy.s4.reach) Toy.soft_decent rfl h
  obtain rfl := h1.unique Toy.s4_resolves
  obtain rfl := h2.unique Toy.s4_path
  have hs : SvnsAlike (chainOf Toy.s4.st [2, 1, 0]) := by unfold SvnsAlike; decide +kernel
  obtain ⟨x, hx⟩ := Option.isSome_iff_exists.1 (h3 hs)
  obtain ⟨priv, pk, sig, g1, g2, g3, g4⟩ := C25_possession (P := Toy.keyPrims) (plat := Toy.certOps)
    Toy.soft_decent (.reached Toy.s4.reach) rfl h h5 hx
  have g1 : Except.ok (ε := CryptoErr) (Toy.pubOf priv) = .ok pk := g1
  have g3 : Except.ok (ε := CryptoErr) (Toy.sigOf priv x.info) = .ok sig := g3
  injection g1 with g1
  injection g3 with g3
  subst g1 g3
  exact ⟨n, _, m, x, priv, h, h5, hx, g2, g4⟩

end Dpe
