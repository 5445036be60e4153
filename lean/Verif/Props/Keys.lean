import Verif.Proofs.SoftContent
import Verif.Props.SameKey
import Verif.Props.Soft
/-
C55: different contexts and different labels have different keys.

With the software back end, two keys are the same only if they belong to the same evidence and the
same label, or if one of the cryptographic functions takes the two different inputs that the two
derivations give it to the same output.  The inputs are named in the statements, so that the remaining
possibility is a collision found by the two callers, not one that merely exists.
-/
namespace Dpe
variable {cfg : Cfg} {P : Prims} {τ τ' : Type} {plat : Ops τ} {plat' : Ops τ'} {loc loc' : U32}
  {n n' : Nat} {r r' : Sys cfg (Soft P × τ)} {u u' : Sys cfg (Soft P × τ')}

theorem keyFields_inj {a b : PubKey} (h : keyFields a = keyFields b) : a = b := by
  have hl := congrArg List.length h
  cases a <;> cases b <;>
    simp only [keyFields, List.length_append, Vector.length_toList] at hl <;>
    first
    | (exfalso; omega)
    | (simp only [keyFields] at h
       first
       | (obtain ⟨h1, h2⟩ := List.append_inj h (by simp)
          rw [Vector.toList_inj.1 h1, Vector.toList_inj.1 h2])
       | rw [Vector.toList_inj.1 h])

/-! ## Which keys are used -/

/-- The key that CertifyKey returns belongs to the private key derived from the ancestry's evidence and
the caller's label. -/
theorem C55_certify {c : CertifyCmd} (hd : Decent cfg (softOps P plat)) (hr : InService r.st)
    (h : exec ((softOps P plat).env cfg) (.certify c) loc r = (.ok n, r')) :
    ∃ i path fed cdi priv pk, Resolves r.st c.handle loc i ∧ Path r.st i path ∧
      Derived P plat r.st path c.label fed cdi priv ∧ P.pub priv = .ok pk ∧
      keyIn c r'.out = keyFields pk := by
  obtain ⟨i, path, key, pk, w1, w2, a1, a2, a3, a4, a5, _⟩ := C25_certify hr hd h
  obtain ⟨fed, cdi, h1⟩ := soft_leaf a3
  exact ⟨i, path, fed, cdi, _, pk, a1, a2, h1, (Prod.mk.inj a4).1, a5⟩

/-- Sign signs with the private key derived from the ancestry's evidence and the caller's label. -/
theorem C55_sign {c : SignCmd} (hr : InService r.st)
    (h : exec ((softOps P plat).env cfg) (.sign c) loc r = (.ok n, r')) :
    ∃ i path fed cdi priv sig, Resolves r.st c.handle loc i ∧ Path r.st i path ∧
      Derived P plat r.st path c.label fed cdi priv ∧ signData P priv c.message = .ok sig ∧
      sigIn r'.out n = sigFields sig := by
  obtain ⟨i, path, key, sig, w1, w2, a1, a2, a3, a4, a5⟩ := C25_sign hr h
  obtain ⟨fed, cdi, h1⟩ := soft_leaf a3
  exact ⟨i, path, fed, cdi, _, sig, a1, a2, h1, (Prod.mk.inj a4).1, a5⟩

/-- The certificate that an exporting DeriveContext returns is for the private key derived from the
ancestry's evidence with the labels for exported keys. -/
theorem C55_export {c : DeriveCmd cfg} (hd : Decent cfg (softOps P plat)) (hr : InService r.st)
    (hx : Bit c.flags DFlag.exportCdi)
    (h : exec ((softOps P plat).env cfg) (.derive c) loc r = (.ok n, r')) :
    ∃ i path fed cdi priv pk, Resolves r.st c.handle loc i ∧ Path r.st i path ∧
      DerivedExport P plat r.st path fed cdi priv ∧ P.pub priv = .ok pk ∧
      ∀ x, readCert (exportedCertIn r'.out n) = some x → x.key = (keyInfo cfg.profile pk).der := by
  obtain ⟨uu, k, w0, w1, D, w2, t, w3, g1, g2, h1, h2, h3, h4⟩ := export_cert hr hd hx h
  have h1' := h1
  obtain ⟨key, v1, v2, v3, _, _, _, _, _, a1, a2, a3, ⟨hdl, v4, _, b1, b2⟩, a4, _⟩ := h1'
  obtain ⟨cdi, c1, c2⟩ := soft_exported b1 b2
  obtain ⟨info, chain, d1, d2⟩ := soft_content a3
  rw [d2] at c1
  refine ⟨D.slot, D.path, _, cdi, v2.1.priv, D.key, a1, a2, ⟨info, chain, d1, rfl, c1, c2⟩,
    (Prod.mk.inj a4).1, fun x hx => ?_⟩
  rw [h4] at hx
  obtain ⟨issuer, sig, w4, _, _, _, _, _, f6⟩ :=
    cert_facts h2 (chain_le hr h1) (by decide) hd.issuer h3
  obtain ⟨rfl, _⟩ := f6 x hx
  rfl

/-! ## They differ -/

/-- Two leaf keys, possibly of different devices, are the same only if the same bytes were hashed and
the labels are the same, or by a coincidence. -/
theorem C55_leaf {p : Profile} {fed label cdi fed' label' cdi' priv : Bytes}
    (h : LeafKey P p fed label cdi priv) (h' : LeafKey P p fed' label' cdi' priv) :
    Coincidence P p fed label cdi fed' label' cdi' ∨ (label = label' ∧ fed = fed') := by
  by_cases h1 : (cdi, label) = (cdi', label')
  · obtain ⟨rfl, rfl⟩ := Prod.mk.inj h1
    by_cases h2 : P.hash fed = P.hash fed'
    · by_cases h3 : fed = fed'
      · exact .inr ⟨rfl, h3⟩
      · exact .inl (.hash ⟨h3, h2⟩)
    · exact .inl (.cdi ⟨h2, cdi, h.cdiIs, h'.cdiIs⟩)
  · exact .inl (.key ⟨h1, priv, h.privIs, h'.privIs⟩)

/-- Two commands CertifyKey, possibly on different devices, return the same public key only if the
labels are the same and the same bytes were hashed for the two ancestries, or by a coincidence. -/
theorem C55_certified {c c' : CertifyCmd} (hd : Decent cfg (softOps P plat))
    (hd' : Decent cfg (softOps P plat')) (hr : InService r.st) (hr' : InService u.st)
    (h : exec ((softOps P plat).env cfg) (.certify c) loc r = (.ok n, r'))
    (h' : exec ((softOps P plat').env cfg) (.certify c') loc' u = (.ok n', u'))
    (he : keyIn c r'.out = keyIn c' u'.out) :
    ∃ i path fed cdi priv i' path' fed' cdi' priv',
      Resolves r.st c.handle loc i ∧ Path r.st i path ∧ Derived P plat r.st path c.label fed cdi priv ∧
      Resolves u.st c'.handle loc' i' ∧ Path u.st i' path' ∧
      Derived P plat' u.st path' c'.label fed' cdi' priv' ∧
      (ClashOk P.pub priv priv' ∨
        Coincidence P cfg.profile fed c.label cdi fed' c'.label cdi' ∨
        (c.label = c'.label ∧ fed = fed')) := by
  obtain ⟨i, path, fed, cdi, priv, pk, a1, a2, a3, a4, a5⟩ := C55_certify hd hr h
  obtain ⟨i', path', fed', cdi', priv', pk', b1, b2, b3, b4, b5⟩ := C55_certify hd' hr' h'
  refine ⟨i, path, fed, cdi, priv, i', path', fed', cdi', priv', a1, a2, a3, b1, b2, b3, ?_⟩
  rw [a5, b5] at he
  obtain rfl := keyFields_inj he
  by_cases hp : priv = priv'
  · subst hp
    obtain ⟨_, _, _, _, g1⟩ := a3
    obtain ⟨_, _, _, _, g2⟩ := b3
    exact .inr (C55_leaf g1 g2)
  · exact .inl ⟨hp, pk, a4, b4⟩

/-- A leaf key and the key of an exported CDI are the same only if the key derivation takes two
different inputs to the same key: the purposes among its inputs always differ. -/
theorem C55_purposes {p : Profile} {fed label cdi fed' cdi' priv : Bytes}
    (h : LeafKey P p fed label cdi priv) (h' : ExportedKey P p fed' cdi' priv) :
    ClashOk (fun x : Bytes × Bytes × Bytes => P.hkdfKey x.1 x.2.1 x.2.2)
      (cdi, label, keyPurpose p) (cdi', exportPurpose p, exportPurpose p) := by
  refine ⟨fun he => ?_, priv, h.privIs, h'.privIs⟩
  have : keyPurpose p = exportPurpose p := (Prod.mk.inj (Prod.mk.inj he).2).2
  revert this
  cases p <;> decide

/-- The keys of two exported CDIs are the same only if the same bytes were hashed, or by a
coincidence. -/
theorem C55_exports {p : Profile} {fed cdi fed' cdi' priv : Bytes}
    (h : ExportedKey P p fed cdi priv) (h' : ExportedKey P p fed' cdi' priv) :
    ClashOk (fun x => P.hkdfKey x (exportPurpose p) (exportPurpose p)) cdi cdi' ∨
    ClashOk (fun m => P.hkdfCdi m (ascii "Exported CDI")) (P.hash fed) (P.hash fed') ∨
    Clash P.hash fed fed' ∨ fed = fed' := by
  by_cases h1 : cdi = cdi'
  · subst h1
    by_cases h2 : P.hash fed = P.hash fed'
    · by_cases h3 : fed = fed'
      · exact .inr (.inr (.inr h3))
      · exact .inr (.inr (.inl ⟨h3, h2⟩))
    · exact .inr (.inl ⟨h2, cdi, h.cdiIs, h'.cdiIs⟩)
  · exact .inl ⟨h1, priv, h.privIs, h'.privIs⟩

/-! ## Down to HKDF -/

theorem hkdfHash_eq (alg : SigAlg) : hkdfHash alg = Lib.kdfHash alg := by cases alg <;> rfl

theorem hkdfSize_eq (alg : SigAlg) : hkdfSize alg = Lib.secretSize alg := by cases alg <;> rfl

/-- The CDI derivation takes two measurements to one CDI only if HKDF-Expand collides on two inputs
that differ in the measurement. -/
theorem C55_hkdf_cdi {L : Lib} {alg : SigAlg} {dig : HashAlg} {m m' info : Bytes}
    (h : ClashOk (fun m => (L.prims alg dig).hkdfCdi m info) m m') :
    Clash (fun x : Bytes × Bytes => L.expand (hkdfHash alg) x.1 x.2 (hkdfSize alg))
      (L.extract (hkdfHash alg) info m, m) (L.extract (hkdfHash alg) info m', m') := by
  rw [hkdfHash_eq, hkdfSize_eq]
  obtain ⟨h1, v, h2, h3⟩ := h
  refine ⟨fun he => h1 (Prod.mk.inj he).2, ?_⟩
  simp only [Lib.prims, Lib.deriveCdi] at h2 h3
  split at h2
  · cases h2
  · split at h3
    · cases h3
    · rename_i ha _ _ hb
      have e := (Except.ok.inj h2).trans (Except.ok.inj h3).symm
      simp only [ha, hb, Vector.toList_inj.1 e]

/-- The key derivation takes two inputs to one key only if HKDF-Extract collides on CDI and purpose, or
HKDF-Expand collides on what it extracted and the label. -/
theorem C55_hkdf_key {L : Lib} {alg : SigAlg} {dig : HashAlg} {x y : Bytes × Bytes × Bytes}
    (h : ClashOk (fun x : Bytes × Bytes × Bytes => (L.prims alg dig).hkdfKey x.1 x.2.1 x.2.2) x y) :
    Clash (fun z : Bytes × Bytes => L.extract (hkdfHash alg) z.1 z.2) (x.2.2, x.1) (y.2.2, y.1) ∨
    Clash (fun z : Bytes × Bytes => L.expand (hkdfHash alg) z.1 z.2 (hkdfSize alg))
      (L.extract (hkdfHash alg) x.2.2 x.1, x.2.1) (L.extract (hkdfHash alg) y.2.2 y.1, y.2.1) := by
  rw [hkdfHash_eq, hkdfSize_eq]
  obtain ⟨a, l, i⟩ := x
  obtain ⟨a', l', i'⟩ := y
  obtain ⟨h1, v, h2, h3⟩ := h
  simp only at h2 h3 ⊢
  have he : L.expand (Lib.kdfHash alg) (L.extract (Lib.kdfHash alg) i a) l (Lib.secretSize alg) =
      L.expand (Lib.kdfHash alg) (L.extract (Lib.kdfHash alg) i' a') l' (Lib.secretSize alg) := by
    simp only [Lib.prims, Lib.privKey] at h2 h3
    split at h2
    · cases h2
    · split at h3
      · cases h3
      · rename_i hb _ _ hd
        have e := (Except.ok.inj h2).trans (Except.ok.inj h3).symm
        simp only [hb, hd, Vector.toList_inj.1 e]
  by_cases hx : (L.extract (Lib.kdfHash alg) i a, l) = (L.extract (Lib.kdfHash alg) i' a', l')
  · left
    refine ⟨fun hy => h1 ?_, (Prod.mk.inj hx).1⟩
    obtain ⟨rfl, rfl⟩ := Prod.mk.inj hy
    obtain ⟨_, rfl⟩ := Prod.mk.inj hx
    rfl
  · exact .inr ⟨hx, he⟩

/-! ## Concrete cases -/

/-- For the grandchild of `s4`, the certificate and the request are for the same key, and `C55_certified`
applies to the two commands. -/
example : ∃ n r' n' u' i path fed cdi priv,
    exec (Toy.softKey.env Toy.cfg) (.certify (Toy.softCertify 0)) 0 Toy.softSys = (.ok n, r') ∧
    exec (Toy.softKey.env Toy.cfg) (.certify (Toy.softCertify 1)) 0 Toy.softSys = (.ok n', u') ∧
    keyIn (Toy.softCertify 0) r'.out = keyIn (Toy.softCertify 1) u'.out ∧
    Resolves Toy.softSys.st (Toy.hd 4) 0 i ∧ Path Toy.softSys.st i path ∧
    Derived Toy.keyPrims Toy.certOps Toy.softSys.st path Toy.label.toList fed cdi priv := by
  obtain ⟨n, out, h, _⟩ := Toy.soft_certify .leafX509 0 (.inl ⟨rfl, rfl⟩) (by decide +kernel)
  obtain ⟨n', out', h', _⟩ := Toy.soft_certify .leafCsr 1 (.inr ⟨rfl, rfl⟩) (by decide +kernel)
  have hk : keyIn (Toy.softCertify 0) out = keyIn (Toy.softCertify 1) out' := by
    obtain ⟨i, path, key, pk, w1, w2, a1, a2, a3, a4, a5, _⟩ :=
      C25_certify (ops := Toy.softKey) (s := Toy.softSys) (.reached Toy.s4.reach) Toy.soft_decent h
    obtain ⟨j, path', key', pk', v1, v2, b1, b2, b3, b4, b5, _⟩ :=
      C25_certify (ops := Toy.softKey) (s := Toy.softSys) (.reached Toy.s4.reach) Toy.soft_decent h'
    obtain rfl := a1.unique b1
    obtain rfl := a2.unique b2
    obtain ⟨rfl, rfl⟩ := a3.det b3
    obtain ⟨rfl, rfl⟩ := call_det a4 b4
    exact a5.trans b5.symm
  obtain ⟨i, path, fed, cdi, priv, _, _, _, _, _, a1, a2, a3, _⟩ := C55_certified
    (P := Toy.keyPrims) (plat := Toy.certOps) (plat' := Toy.certOps) (r := Toy.softSys)
    (u := Toy.softSys) Toy.soft_decent Toy.soft_decent (.reached Toy.s4.reach) (.reached Toy.s4.reach) h h' hk
  exact ⟨n, _, n', _, i, path, fed, cdi, priv, h, h', hk, a1, a2, a3⟩

/-- With primitives that keep the label visible, two labels never share a key; so `C55_leaf` always
reports the key derivation, and rightly: there is no such key. -/
example (fed fed' cdi cdi' priv : Bytes) : ¬ (LeafKey Toy.keyPrims .p256 fed (ascii "A") cdi priv ∧
    LeafKey Toy.keyPrims .p256 fed' (ascii "B") cdi' priv) := by
  rintro ⟨h, h'⟩
  have h1 := h.privIs
  have h2 := h'.privIs
  simp only [Toy.keyPrims, Except.ok.injEq] at h1 h2
  rw [← h1] at h2
  have := congrArg List.head? h2
  revert this
  simp [ascii]

/-- A key derivation that forgets the purpose lets a leaf key and an exported key coincide, and
`C55_purposes` then exhibits the collision. -/
example : ∃ (P : Prims) (cdi priv : Bytes), LeafKey P .p256 [] (exportPurpose .p256) cdi priv ∧
    ExportedKey P .p256 [] cdi priv ∧
    ClashOk (fun x : Bytes × Bytes × Bytes => P.hkdfKey x.1 x.2.1 x.2.2)
      (cdi, exportPurpose .p256, keyPurpose .p256) (cdi, exportPurpose .p256, exportPurpose .p256) := by
  let P : Prims := { Toy.keyPrims with hkdfCdi := fun m _ => .ok m, hkdfKey := fun c l _ => .ok (l ++ c) }
  have h : LeafKey P .p256 [] (exportPurpose .p256) (P.hash []) (exportPurpose .p256 ++ P.hash []) :=
    ⟨rfl, rfl⟩
  have h' : ExportedKey P .p256 [] (P.hash []) (exportPurpose .p256 ++ P.hash []) := ⟨rfl, rfl⟩
  exact ⟨P, _, _, h, h', C55_purposes h h'⟩

end Dpe
