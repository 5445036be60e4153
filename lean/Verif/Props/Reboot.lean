import Verif.Spec.Reboot
import Verif.Props.Attest
import Verif.Props.History
/-
C81: the same software in the same order gives the same keys, signatures and certificates.
-/
namespace Dpe

section
variable {cfg : Cfg} {L : Lib} {a : Artifact} {loc loc' : U32} {n n' : Nat}
  {r r' u u' : Sys cfg (Soft (L.crypto cfg.profile) × Unit)} {log log' : Nat → List Bytes}
  {path path' : List Nat} {i i' : Nat}

/-- The measurements of equal logs are equal. -/
theorem SameBoot.evidence {st st' : State cfg} {H : Bytes → Bytes} (hl : Logged H log st)
    (hl' : Logged H log' st') (hp : Path st i path) (hp' : Path st' i' path')
    (h : SameBoot st log path st' log' path') : SameEvidence st path st' path' := by
  refine ⟨h.support, List.ext_getElem? fun k => ?_⟩
  rw [List.getElem?_map, List.getElem?_map]
  rcases hk : path[k]? with _ | j
  · have : path'[k]? = none := by
      rw [List.getElem?_eq_none_iff] at hk ⊢
      rw [← h.length]; exact hk
    rw [this]; rfl
  · have hlt : k < path'.length := by
      rw [← h.length]; exact (List.getElem?_eq_some_iff.1 hk).1
    have hk' : path'[k]? = some path'[k] := List.getElem?_eq_getElem hlt
    rw [hk']
    obtain ⟨h1, h2, h3, h4, h5, h6, h7⟩ := h.made k _ _ hk hk'
    obtain ⟨a1, a2, _⟩ := C19_cumulative hl (hp.all_live (List.mem_of_getElem? hk))
    obtain ⟨b1, b2, _⟩ := C19_cumulative hl' (hp'.all_live (List.mem_of_getElem? hk'))
    rw [h7, ← b1] at a1
    rw [h7, ← b2] at a2
    have e1 := Vector.toList_inj.1 a1
    have e2 := Vector.toList_inj.1 a2
    have et : (st.at j).tci = (st'.at path'[k]).tci := by
      revert h1 h2 h3 e1 e2
      cases (st.at j).tci
      cases (st'.at path'[k]).tci
      rintro rfl rfl rfl rfl rfl
      rfl
    simp only [Option.map_some, Dpe.evidence, et, h4, h5, h6]

theorem public_same {p : Profile} {priv : Bytes} {x y : PubKey} (h : StdPublic L p priv x)
    (h' : StdPublic L p priv y) : x = y := by
  cases p with
  | p256 => obtain ⟨k, h1, rfl⟩ := h; obtain ⟨k', h2, rfl⟩ := h'; rw [h1] at h2; cases h2; rfl
  | p384 => obtain ⟨k, h1, rfl⟩ := h; obtain ⟨k', h2, rfl⟩ := h'; rw [h1] at h2; cases h2; rfl
  | mldsa87 =>
    obtain ⟨k, rfl, rfl⟩ := h
    obtain ⟨k', h2, rfl⟩ := h'
    rw [Vector.toList_inj.1 h2]

theorem signed_same {p : Profile} {priv : Bytes} {d : SignData} {x y : Sig} (h : StdSigned L p priv d x)
    (h' : StdSigned L p priv d y) : x = y := by
  cases p <;> cases d <;> simp only [StdSigned] at h h' <;>
    first
    | exact h.elim
    | (obtain ⟨k, s, t, h1, h2, rfl⟩ := h
       obtain ⟨k', s', t', h3, h4, rfl⟩ := h'
       rw [h1] at h3; cases h3
       rw [h2] at h4; cases h4; rfl)
    | (obtain ⟨k, rfl, rfl⟩ := h
       obtain ⟨k', h2, rfl⟩ := h'
       rw [Vector.toList_inj.1 h2])

theorem alias_same {p : Profile} {m : Bytes} {x y : Sig} (h : AliasSigned L p m x) (h' : AliasSigned L p m y) :
    x = y := by
  obtain ⟨k, h1, h2⟩ := h
  obtain ⟨k', h3, h4⟩ := h'
  rw [h1] at h3; cases h3
  exact signed_same h2 h4

theorem subject_same {st st' : State cfg} {pk : PubKey} {D D' : Draft} {kind : CertKind} {x x' : CertArgs}
    (he : SameEvidence st path st' path') (hd : StdDraft L a st i path pk D)
    (hd' : StdDraft L a st' i' path' pk D') (hu : x.ueid = x'.ueid) (hc : x.critDice = x'.critDice) :
    D.subject kind x st = D'.subject kind x' st' := by
  have hm : path.map (fun j => (st.at j).tci) = path'.map (fun j => (st'.at j).tci) := by
    have := congrArg (List.map Prod.fst) he.2
    rw [List.map_map, List.map_map] at this
    exact this
  have hsup : ∀ k, st.supports k ↔ st'.supports k := by
    intro k
    unfold State.supports
    rw [he.1]
  unfold Draft.subject
  simp only [hd.nameHash, hd'.nameHash, hd.idHash, hd'.idHash, hd.key, hd'.key, hd.ancestry, hd'.ancestry,
    hd.issuerKeyId, hd'.issuerKeyId, hd.altName, hd'.altName, hu, hc, List.map_reverse, hm, hsup]

theorem tbs_same {st st' : State cfg} {pk : PubKey} {D D' : Draft} {kind : CertKind} {x x' : CertArgs}
    {issuer : Bytes}
    (he : SameEvidence st path st' path') (hd : StdDraft L a st i path pk D)
    (hd' : StdDraft L a st' i' path' pk D') (hu : x.ueid = x'.ueid) (hc : x.critDice = x'.critDice) :
    D.tbs kind x st issuer = D'.tbs kind x' st' issuer := by
  unfold Draft.tbs
  rw [subject_same he hd hd' hu hc, hd.nameHash, hd'.nameHash, hd.validity, hd'.validity]

theorem certificate_same {st st' : State cfg} {pk : PubKey} {D D' : Draft} {kind : CertKind} {x x' : CertArgs}
    {m m' : Bytes} (he : SameEvidence st path st' path') (hd : StdDraft L a st i path pk D)
    (hd' : StdDraft L a st' i' path' pk D') (hu : x.ueid = x'.ueid) (hc : x.critDice = x'.critDice)
    (h : StdCertificate L a st x kind D m) (h' : StdCertificate L a st' x' kind D' m') : m = m' := by
  obtain ⟨sig, h1, rfl⟩ := h
  obtain ⟨sig', h2, rfl⟩ := h'
  rw [tbs_same he hd hd' hu hc] at h1 ⊢
  rw [alias_same h1 h2]

theorem request_same {st st' : State cfg} {pk : PubKey} {D D' : Draft} {x x' : CertArgs} {priv : Bytes}
    {m m' : Bytes} (he : SameEvidence st path st' path') (hd : StdDraft L a st i path pk D)
    (hd' : StdDraft L a st' i' path' pk D') (hu : x.ueid = x'.ueid) (hc : x.critDice = x'.critDice)
    (h : StdRequest L st x priv D m) (h' : StdRequest L st' x' priv D' m') : m = m' := by
  obtain ⟨s1, s2, h1, h2, rfl⟩ := h
  obtain ⟨t1, t2, h3, h4, rfl⟩ := h'
  have e : D.info x st = D'.info x' st' := by
    unfold Draft.info
    rw [subject_same he hd hd' hu hc]
  rw [e] at h1 h2 ⊢
  obtain rfl := signed_same h1 h3
  rw [alias_same h2 h4, hd.signer, hd'.signer]

theorem exportKey_same {st st' : State cfg} {l l' : List Nat} {cdi priv cdi' priv' : Bytes}
    (h : SameEvidence st l st' l') (h1 : StdExportedKey L a st l cdi priv)
    (h2 : StdExportedKey L a st' l' cdi' priv') : priv = priv' := by
  obtain ⟨d, rfl, a1, a2⟩ := h1
  obtain ⟨d', rfl, b1, b2⟩ := h2
  rw [← h.bytes] at b1
  obtain rfl := kdf_same a1 b1
  exact kdf_same a2 b2

theorem success_length (p : Profile) : (successBytes p).length = 12 := by cases p <;> rfl

theorem withoutHandle_reply (p : Profile) (h : Handle) (x t : Bytes) :
    withoutHandle ((successBytes p ++ h.toList ++ x) ++ t) (successBytes p ++ h.toList ++ x).length =
      (successBytes p, x) := by
  unfold withoutHandle
  rw [List.take_left]
  have h28 : (successBytes p ++ h.toList).length = 28 := by simp [success_length]
  refine Prod.ext ?_ ?_
  · show (successBytes p ++ h.toList ++ x).take 12 = _
    rw [List.append_assoc, ← success_length p, List.take_left]
  · show (successBytes p ++ h.toList ++ x).drop 28 = _
    rw [← h28, List.drop_left]

/-- C81, CertifyKey: two contexts that were put together in the same way, on devices with the same crates and
the same built-in certificate, have the same public key for the same label, and get the same certificate or
request for it, octet by octet: the replies differ at most in the handle. -/
theorem C81_certified {c c' : CertifyCmd} (hL : L.Total) (ha : a.Fit) (hb : Built cfg a)
    (hl : Logged (stdHash L cfg.profile) log r.st) (hl' : Logged (stdHash L cfg.profile) log' u.st)
    (hr : Resolves r.st c.handle loc i) (hr' : Resolves u.st c'.handle loc' i')
    (hp : Path r.st i path) (hp' : Path u.st i' path') (hs : SameBoot r.st log path u.st log' path')
    (hlabel : c.label = c'.label) (hformat : c.format = c'.format)
    (h : exec ((device L a cfg.profile).env cfg) (.certify c) loc r = (.ok n, r'))
    (h' : exec ((device L a cfg.profile).env cfg) (.certify c') loc' u = (.ok n', u')) :
    withoutHandle r'.out n = withoutHandle u'.out n' := by
  have he := hs.evidence hl hl' hp hp'
  obtain ⟨_, _, _, _, ⟨j, q, cdi, priv, pk, D, cert, hd, x, a1, a2, a3, a4, a5, _, a7, _, _, _, rfl⟩, _, rfl,
    rfl⟩ := (C66_exact hL ha hb (.reached hl.reachable)).1 h
  obtain ⟨_, _, _, _, ⟨j', q', cdi', priv', pk', D', cert', hd', x', b1, b2, b3, b4, b5, _, b7, _, _, _, rfl⟩,
    _, rfl, rfl⟩ := (C66_exact hL ha hb (.reached hl'.reachable)).1 h'
  obtain rfl := a1.unique hr
  obtain rfl := a2.unique hp
  obtain rfl := b1.unique hr'
  obtain rfl := b2.unique hp'
  rw [← hlabel] at b3
  obtain rfl := leafKey_same he a3 b3
  obtain rfl := public_same a4 b4
  have hcrit : marksCritical r.st = marksCritical u.st := by unfold marksCritical; rw [hs.flags]
  obtain rfl : cert = cert' := by
    rcases a7 with ⟨f0, a7⟩ | ⟨f0, a7⟩ <;> rcases b7 with ⟨f1, b7⟩ | ⟨f1, b7⟩
    · exact certificate_same he a5 b5 hlabel hcrit a7 b7
    · rw [hformat, f1] at f0; exact absurd f0 (by decide)
    · rw [hformat, f1] at f0; exact absurd f0 (by decide)
    · exact request_same he a5 b5 hlabel hcrit a7 b7
  have hrep : ∀ h : Handle, certifyReply cfg.profile h pk cert = successBytes cfg.profile ++ h.toList ++
      (keyFields pk ++ word (BitVec.ofNat 32 cert.length) ++ cert) := by
    intro h
    simp only [certifyReply, List.append_assoc]
  simp only [hrep]
  rw [withoutHandle_reply, withoutHandle_reply]

/-- C81, Sign: they give the same signature for the same label and the same data. -/
theorem C81_signed {c c' : SignCmd} (hL : L.Total) (ha : a.Fit) (hb : Built cfg a)
    (hl : Logged (stdHash L cfg.profile) log r.st) (hl' : Logged (stdHash L cfg.profile) log' u.st)
    (hr : Resolves r.st c.handle loc i) (hr' : Resolves u.st c'.handle loc' i')
    (hp : Path r.st i path) (hp' : Path u.st i' path') (hs : SameBoot r.st log path u.st log' path')
    (hlabel : c.label = c'.label) (hdata : c.message = c'.message)
    (h : exec ((device L a cfg.profile).env cfg) (.sign c) loc r = (.ok n, r'))
    (h' : exec ((device L a cfg.profile).env cfg) (.sign c') loc' u = (.ok n', u')) :
    withoutHandle r'.out n = withoutHandle u'.out n' := by
  have he := hs.evidence hl hl' hp hp'
  obtain ⟨_, _, _, _, ⟨j, q, cdi, priv, sig, hd, x, a1, a2, a3, a4, _, _, _, rfl⟩, _, rfl, rfl⟩ :=
    (C66_exact hL ha hb (.reached hl.reachable)).1 h
  obtain ⟨_, _, _, _, ⟨j', q', cdi', priv', sig', hd', x', b1, b2, b3, b4, _, _, _, rfl⟩, _, rfl, rfl⟩ :=
    (C66_exact hL ha hb (.reached hl'.reachable)).1 h'
  obtain rfl := a1.unique hr
  obtain rfl := a2.unique hp
  obtain rfl := b1.unique hr'
  obtain rfl := b2.unique hp'
  rw [← hlabel] at b3
  rw [← hdata] at b4
  obtain rfl := leafKey_same he a3 b3
  obtain rfl := signed_same a4 b4
  simp only [signReply]
  rw [withoutHandle_reply, withoutHandle_reply]

/-- C81: a signature made later, by a context that was put together in the same way, verifies with the public
key that was certified before. -/
theorem C81_verifies {c : CertifyCmd} {c' : SignCmd} {V : Verifier} (hL : L.Total) (ha : a.Fit)
    (hb : Built cfg a) (hV : V.Takes L)
    (hl : Logged (stdHash L cfg.profile) log r.st) (hl' : Logged (stdHash L cfg.profile) log' u.st)
    (hr : Resolves r.st c.handle loc i) (hr' : Resolves u.st c'.handle loc' i')
    (hp : Path r.st i path) (hp' : Path u.st i' path') (hs : SameBoot r.st log path u.st log' path')
    (hlabel : c.label = c'.label)
    (h : exec ((device L a cfg.profile).env cfg) (.certify c) loc r = (.ok n, r'))
    (h' : exec ((device L a cfg.profile).env cfg) (.sign c') loc' u = (.ok n', u')) :
    ∃ pk sig, keyIn c r'.out = keyFields pk ∧ sigIn u'.out n' = sigFields sig ∧
      V (keyInfo cfg.profile pk).der c'.message (sigContents sig) := by
  have he := hs.evidence hl hl' hp hp'
  obtain ⟨j, q, cdi, priv, pk, a1, a2, a3, a4, a5⟩ := C66_certify hL ha hb (.reached hl.reachable) h
  obtain ⟨j', q', cdi', priv', sig, b1, b2, b3, b4, b5⟩ := C66_sign hL ha hb (.reached hl'.reachable) h'
  obtain rfl := a1.unique hr
  obtain rfl := a2.unique hp
  obtain rfl := b1.unique hr'
  obtain rfl := b2.unique hp'
  rw [← hlabel] at b3
  obtain rfl := leafKey_same he a3 b3
  exact ⟨pk, sig, a5, b5, hV _ _ _ _ _ a4 b4⟩

theorem exporting_plain {st : State cfg} {c : DeriveCmd cfg} (hr : Resolves st c.handle loc i)
    (hno : NoRefusal (rules st loc (.derive c))) (hx : Bit c.flags DFlag.exportCdi) :
    ¬ Bit c.flags DFlag.recursive := by
  intro hrec
  simp only [NoRefusal, rules, earlyRules, lateRules, lookupRules, List.cons_append, List.nil_append,
    List.append_nil, List.mem_cons, List.not_mem_nil, or_false, forall_eq_or_imp, forall_eq] at hno
  exact hno.2.2.2.1 ((named_iff hr).2 (.inr (.inl ⟨hx, .inr (.inl hrec)⟩)))

theorem export_parts {c : DeriveCmd cfg} (hL : L.Total) (ha : a.Fit) (hb : Built cfg a)
    (hst : InService r.st) (hr : Resolves r.st c.handle loc i) (hp : Path r.st i path)
    (hx : Bit c.flags DFlag.exportCdi)
    (h : exec ((device L a cfg.profile).env cfg) (.derive c) loc r = (.ok n, r')) :
    ∃ cdi priv pk D cert, StdExportedKey L a r.st path cdi priv ∧ StdPublic L cfg.profile priv pk ∧
      StdDraft L a r.st i path pk D ∧
      StdCertificate L a r.st (exportedArgs r.st c.handle loc (List.replicate 17 0x0A)) .exportedX509 D cert ∧
      exportedCertIn r'.out n = cert := by
  obtain ⟨hno, reply, st', w', hsv, _, hn, hu⟩ := (C66_exact hL ha hb hst).1 h
  obtain ⟨j, a1, a2⟩ := hsv
  have hj := a1.unique hr
  subst hj
  have e := exporting_plain a1 hno hx
  unfold StdDerives at a2
  rw [if_neg e, if_pos hx] at a2
  obtain ⟨hd, x, y, q, cdi, priv, pk, D, cert, _, _, a3, a4, a5, a6, a7, _, _, hrep⟩ := a2
  have hq := a3.unique hp
  subst hq
  refine ⟨cdi, priv, pk, D, cert, a4, a5, a6, a7, ?_⟩
  rw [hu, hn, hrep, exportedCertIn_reply]

/-- C81, exported CDIs: contexts that were put together in the same way get the same certificate for the
key of the exported CDI, and so the same key. -/
theorem C81_exported {c c' : DeriveCmd cfg} (hL : L.Total) (ha : a.Fit) (hb : Built cfg a)
    (hl : Logged (stdHash L cfg.profile) log r.st) (hl' : Logged (stdHash L cfg.profile) log' u.st)
    (hr : Resolves r.st c.handle loc i) (hr' : Resolves u.st c'.handle loc' i')
    (hp : Path r.st i path) (hp' : Path u.st i' path') (hs : SameBoot r.st log path u.st log' path')
    (hx : Bit c.flags DFlag.exportCdi) (hx' : Bit c'.flags DFlag.exportCdi)
    (h : exec ((device L a cfg.profile).env cfg) (.derive c) loc r = (.ok n, r'))
    (h' : exec ((device L a cfg.profile).env cfg) (.derive c') loc' u = (.ok n', u')) :
    exportedCertIn r'.out n = exportedCertIn u'.out n' := by
  have he := hs.evidence hl hl' hp hp'
  obtain ⟨cdi, priv, pk, D, cert, a4, a5, a6, a7, e⟩ := export_parts hL ha hb (.reached hl.reachable) hr hp hx h
  obtain ⟨cdi', priv', pk', D', cert', b4, b5, b6, b7, e'⟩ :=
    export_parts hL ha hb (.reached hl'.reachable) hr' hp' hx' h'
  obtain rfl := exportKey_same he a4 b4
  obtain rfl := public_same a5 b5
  have hcrit : marksCritical r.st = marksCritical u.st := by unfold marksCritical; rw [hs.flags]
  have hc : cert = cert' := certificate_same (x := exportedArgs r.st c.handle loc (List.replicate 17 0x0A))
    (x' := exportedArgs u.st c'.handle loc' (List.replicate 17 0x0A)) he a6 b6 rfl hcrit a7 b7
  exact e.trans (hc.trans e'.symm)

/-- C81: the key stays available.  If CertifyKey has succeeded for a label, then in a context that was put
together in the same way, and with a large enough buffer, Sign for that label succeeds exactly if it is not
refused, asks for a signature of the profile's algorithm, and the next handle can be found. -/
theorem C81_available {c : CertifyCmd} {c' : SignCmd} (hL : L.Total) (ha : a.Fit) (hb : Built cfg a)
    (hl : Logged (stdHash L cfg.profile) log r.st) (hl' : Logged (stdHash L cfg.profile) log' u.st)
    (hr : Resolves r.st c.handle loc i) (hr' : Resolves u.st c'.handle loc' i')
    (hp : Path r.st i path) (hp' : Path u.st i' path') (hs : SameBoot r.st log path u.st log' path')
    (hlabel : c.label = c'.label) (hbuf : 35392 ≤ u.out.length)
    (h : exec ((device L a cfg.profile).env cfg) (.certify c) loc r = (.ok n, r')) :
    (∃ n' u', exec ((device L a cfg.profile).env cfg) (.sign c') loc' u = (.ok n', u')) ↔
      NoRefusal (rules u.st loc' (.sign c')) ∧ c'.Suits cfg.profile ∧
        CanReplace (L.crypto cfg.profile) u.st i' u.w.1.rng := by
  have he := hs.evidence hl hl' hp hp'
  obtain ⟨j, q, cdi, priv, pk, a1, a2, a3, a4, _⟩ := C66_certify hL ha hb (.reached hl.reachable) h
  obtain rfl := a1.unique hr
  obtain rfl := a2.unique hp
  have hv : LeafValid (L.crypto cfg.profile) a u.st i' c'.label := by
    have h1 := std_leafKey.2 a3
    rw [he.bytes, hlabel] at h1
    exact ⟨path', cdi, priv, hp', h1, pk, std_public.2 a4⟩
  rw [C58_succeeds hL ha hb (.reached hl'.reachable) hbuf]
  refine and_congr_right fun _ => ⟨?_, fun ⟨h1, h2⟩ => ⟨i', hr', hv, h1, h2⟩⟩
  rintro ⟨k, h1, _, h2, h3⟩
  obtain rfl := h1.unique hr'
  exact ⟨h2, h3⟩

end

/-! ### A concrete case -/
namespace Ref

/-- The booted device after the handle of its only context was rotated: the handle is a number from the
generator. -/
def turned : State cfg :=
  (exec ((device lib cert cfg.profile).env cfg) (.rotate ⟨Handle.default, 0⟩) 3 (sys (Soft.new _))).2.st

theorem turned_at : (turned.at 0).state = .active ∧ (turned.at 0).handle = Toy.hd 1 ∧
    (turned.at 0).locality = 3 ∧ (turned.at 0).ctype ≠ .simulation ∧ (turned.at 0).parentIdx = 255 := by
  decide +kernel

theorem turned_resolves : Resolves turned (Toy.hd 1) 3 0 := findActive_iff.1 (by decide +kernel)

theorem turned_path : Path turned 0 [0] := by
  refine .root ?_ ?_
  · show (turned.at 0).state ≠ .inactive
    rw [turned_at.1]; decide
  · exact turned_at.2.2.2.2

theorem turned_same : turned.support = booted.support ∧ turned.flags = booted.flags ∧
    (turned.at 0).tci = (booted.at 0).tci ∧ (turned.at 0).allowX509 = (booted.at 0).allowX509 ∧
    (turned.at 0).usesInfo = (booted.at 0).usesInfo ∧ (turned.at 0).usesDice = (booted.at 0).usesDice := by
  decide +kernel

theorem turned_new : Unused turned (Toy.hd 2) := by
  unfold Unused
  decide +kernel

attribute [irreducible] turned

/-- Commands other than DeriveContext and UpdateContextMeasurement leave the logs as they are. -/
theorem quiet_log {st st' : State cfg} {loc : U32} {c : Cmd cfg} {r : Except Err Nat} {i : Nat}
    {lg lg' : List Bytes} (h : LogStep st loc c r st' i lg lg') (hl : Live st' i)
    (hc : ∀ m, ¬ Measures st loc c i m) : lg' = lg := by
  rcases h with ⟨h, _⟩ | ⟨_, _, m, h, _⟩ | ⟨_, _, h⟩
  · exact absurd hl h
  · exact absurd h (hc m)
  · exact h

theorem booted_logged : ∃ log, Logged (stdHash lib cfg.profile) log booted ∧ log 0 = [] := by
  obtain ⟨log, hl⟩ := C19_log_exists (cfg := cfg) 3 (.init 0x40000000) boot.1 fresh.st booted (fun _ => [])
  have hf : Logged (stdHash lib cfg.profile) (fun _ => []) fresh.st := by unfold fresh; exact .new _ _
  have hb : booted = boot.2.st := by unfold booted; rfl
  refine ⟨log, ?_, quiet_log (hl 0) ?_ fun m h => h⟩
  · rw [hb] at hl ⊢
    refine .cmd (env := (device lib cert cfg.profile).env cfg) (w := fresh.w) (out := fresh.out) hf (C66_hashes _) (r := boot.1) (s' := boot.2) ?_ hl
    unfold boot; rfl
  · show (booted.at 0).state ≠ .inactive
    rw [booted_at.1]; decide

theorem turned_logged : ∃ log, Logged (stdHash lib cfg.profile) log turned ∧ log 0 = [] := by
  obtain ⟨log0, h0, h1⟩ := booted_logged
  generalize hx : exec ((device lib cert cfg.profile).env cfg) (.rotate ⟨Handle.default, 0⟩) 3
    (sys (Soft.new _)) = x
  have ht : turned = x.2.st := by rw [← hx]; unfold turned; rfl
  obtain ⟨log, hl⟩ := C19_log_exists (cfg := cfg) 3 (.rotate ⟨Handle.default, 0⟩) x.1 booted turned log0
  refine ⟨log, ?_, (quiet_log (hl 0) ?_ fun m h => h).trans h1⟩
  · rw [ht] at hl ⊢
    exact .cmd (env := (device lib cert cfg.profile).env cfg) (w := (Soft.new _, ())) (out := fresh.out) h0 (C66_hashes _) (r := x.1) (s' := x.2) hx hl
  · show (turned.at 0).state ≠ .inactive
    rw [turned_at.1]; decide

/-- A crypto state whose generator has delivered one number. -/
def later : Soft (lib.crypto cfg.profile) := { Soft.new (lib.crypto cfg.profile) with rng := (1 : Nat) }

/-- One device signs through the default handle, and another one, whose generator is in a different state,
through a random handle: the signatures for the same label are the same, and C81 says so. -/
example (label : BArr 32) (hlab : label[0] ≠ 0xFF) (w : Soft (lib.crypto cfg.profile)) :
    ∃ n r' n' u', exec ((device lib cert cfg.profile).env cfg) (.sign (signCmd label)) 3 (sys w) = (.ok n, r') ∧
      exec ((device lib cert cfg.profile).env cfg)
        (.sign (.p256 (Toy.hd 1) label 0 (Vector.replicate 32 9))) 3
        ⟨turned, (later, ()), fresh.out⟩ = (.ok n', u') ∧
      withoutHandle r'.out n = withoutHandle u'.out n' := by
  obtain ⟨cdi, hk⟩ := leafKey label
  have h1 : ∃ n s', exec ((device lib cert cfg.profile).env cfg) (.sign (signCmd label)) 3 (sys w) =
      (.ok n, s') := by
    rw [C58_succeeds (s := sys w) lib_total cert_fit built (.reached booted_reach) fresh_out]
    exact ⟨sign_allowed label, 0, booted_resolves, ⟨[0], cdi, _, booted_path, hk, (valid_iff label).2 hlab⟩,
      (by decide : Profile.p256 ≠ .mldsa87), .inl booted_at.2.1⟩
  obtain ⟨log, hl, l0⟩ := booted_logged
  obtain ⟨log', hl', l0'⟩ := turned_logged
  have hs : SameBoot booted log [0] turned log' [0] := by
    refine ⟨turned_same.1.symm, turned_same.2.1.symm, rfl, ?_⟩
    intro k j j' hj hj'
    match k with
    | 0 =>
      cases hj
      cases hj'
      obtain ⟨_, _, e1, e2, e3, e4⟩ := turned_same
      unfold SameMaking
      rw [e1, e2, e3, e4, l0, l0']
      exact ⟨rfl, rfl, rfl, rfl, rfl, rfl, rfl⟩
    | k + 1 => cases hj
  have hb := (hs.evidence hl hl' booted_path turned_path).bytes (a := cert)
  have h2 : ∃ n s', exec ((device lib cert cfg.profile).env cfg)
      (.sign (.p256 (Toy.hd 1) label 0 (Vector.replicate 32 9))) 3
      ⟨turned, (later, ()), fresh.out⟩ = (.ok n, s') := by
    rw [C58_succeeds (s := ⟨turned, (later, ()), fresh.out⟩) lib_total cert_fit
      built (.reached hl'.reachable) fresh_out]
    refine ⟨?_, 0, turned_resolves, ⟨[0], cdi, leafPriv label, turned_path, ?_, (valid_iff label).2 hlab⟩,
      (by decide : Profile.p256 ≠ .mldsa87), .inr ⟨Toy.hd 2, _, .hit turned_new⟩⟩
    · simp only [NoRefusal, rules, earlyRules, lateRules, lookupRules, List.cons_append, List.nil_append,
        List.append_nil, List.mem_cons, List.not_mem_nil, or_false, forall_eq_or_imp, forall_eq]
      refine ⟨fun h => h.elim, fun h => h ?_, fun h => h ⟨0, turned_resolves.1⟩, ?_⟩
      · exact ⟨0, turned_at.1, turned_at.2.2.1⟩
      · show ¬ Named turned (Toy.hd 1) 3 _
        rw [named_iff turned_resolves]
        exact turned_at.2.2.2.1
    · rw [← hb]; exact hk
  obtain ⟨n, r', h1⟩ := h1
  obtain ⟨n', u', h2⟩ := h2
  exact ⟨n, r', n', u', h1, h2, C81_signed (r := sys w)
    (u := ⟨turned, (later, ()), fresh.out⟩) (c := signCmd label)
    (c' := .p256 (Toy.hd 1) label 0 (Vector.replicate 32 9)) lib_total cert_fit built hl hl' booted_resolves turned_resolves
    booted_path turned_path hs rfl rfl h1 h2⟩

end Ref
end Dpe
