import Verif.Proofs.Rfc
import Verif.Props.Certificates
import Verif.Props.Attest
/-
C77: certificates and the profile of RFC 5280.

`Conforms` (Spec/Rfc) is the profile, on what a strict reader finds in a certificate.  `ConformsApart` is
the profile without the dates.
-/
namespace Dpe
section
variable {cfg : Cfg} {σ : Type} {ops : Ops σ} {loc : U32} {s s' : Sys cfg σ} {n : Nat}

theorem written_parts {t u : Asn} (h : t.written <:+: u.written) (hl : u.written.length ≤ 65539)
    (he : t.written = t.der) : t.der.length < Big := by
  have := h.length_le
  rw [he] at this
  unfold Big
  omega

theorem follows {kind : CertKind} {a : CertArgs} {st : State cfg} {w w1 w2 : σ} {D : Draft} {t : Asn}
    (hL : HashesLong ops) (h1 : Drafted ops kind a st w D w1) (h2 : Issued ops a st D kind w1 t w2)
    (hp : D.path.length ≤ 64) (hk : kind ≠ .leafCsr) (hn : IssuerNamed ops) (hl : t.written.length ≤ 65539)
    {x : Cert} (hx : readCert t.written = some x) :
    Follows ops cfg.profile a.critDice
      (if kind = .exportedX509 then ascii "DPE Exported CDI" else ascii "DPE Leaf") x := by
  obtain ⟨issuer, sig, w4, f1, f2, f3, f4, f5, f6⟩ := cert_facts h2 hp hk hn hl
  obtain ⟨rfl, e1, e2⟩ := f6 x hx
  have hlen : (D.tbs kind a st issuer).der.length < Big := by
    refine written_parts (u := t) ?_ hl e1
    rw [f3]
    exact infix_outer (pre := [])
  obtain ⟨q1, q2⟩ := tbs_parts hlen
  obtain ⟨_, _, _, _, _, _, _, _, _, _, _, _, _, _, _, _, hh, _, hid, hid20, _, _, hv, _⟩ := h1
  have hd := hh.long hL
  have hs : readName (nameOf (D.subject kind a st).cn (D.subject kind a st).serialName).der =
      some (subjectFor (if kind = .exportedX509 then ascii "DPE Exported CDI" else ascii "DPE Leaf")
        D.nameHash) := by
    rw [readName_of q2, subjectFor, ← serialText_long hd]
    rfl
  have hser : (certFields cfg.profile ((serialText D.nameHash).take 20) issuer D.validity
      (D.subject kind a st) sig).serial = (hexText D.nameHash).take 20 := serial_octets hd
  have hapart : ConformsApart (certFields cfg.profile ((serialText D.nameHash).take 20) issuer D.validity
      (D.subject kind a st) sig) := by
    refine ⟨?_, ⟨_, hs, subject_conforms hd ?_⟩, found_conform, ⟨?_, ?_⟩, ?_,
      fun e he ho => found_plain he (.inl ho)⟩
    · rw [hser]; exact serial_positive hd
    · by_cases hke : kind = .exportedX509
      · rw [if_pos hke]; exact .inr rfl
      · rw [if_neg hke]; exact .inl rfl
    · exact has_found (v := seqOf [implicit 0 (D.subject kind a st).attested.authorityKeyId])
        (by unfold extSpecs; simp [authorityKeyIdId])
    · show (akidOf (foundExts _ _ _)).isSome = true
      rw [akid_found e2]; rfl
    · exact identifier_found e2
  have hval := readValidity_of q1
  refine ⟨hapart, found_critical, ⟨_, _, _, _, hh, rfl, hs, hser⟩, ⟨_, _, f1⟩, _, _, _, hv, hval, ?_⟩
  constructor
  · rintro ⟨_, y, z, g1, g2, g3⟩
    have g1 := hval.symm.trans g1
    injection g1 with g1
    injection g1 with g1 g1'
    subst g1
    subst g1'
    exact ⟨g2.elim (fun g => absurd g.1 (show (24 : UInt8) ≠ 23 by decide)) (·.2),
      g3.elim (fun g => absurd g.1 (show (24 : UInt8) ≠ 23 by decide)) (·.2)⟩
  · rintro ⟨g1, g2⟩
    exact ⟨hapart, _, _, hval, .inr ⟨rfl, g1⟩, .inr ⟨rfl, g2⟩⟩

/-- A certificate made by CertifyKey follows the profile in everything but the dates: serial number,
subject, extensions and their criticality.  It follows it altogether exactly if both dates that the platform
gives are in 2050 or later.

Missing for the full statement: dates through 2049; see `C77_false`. -/
theorem C77_certificate_partial {c : CertifyCmd} (hst : InService s.st) (hd : Decent cfg ops)
    (hl : HashesLong ops) (hf : c.format = 0) (h : exec (ops.env cfg) (.certify c) loc s = (.ok n, s'))
    {x : Cert} (hx : readCert (certIn c s'.out n) = some x) :
    Follows ops cfg.profile (marksCritical s.st) (ascii "DPE Leaf") x := by
  obtain ⟨D, w1, t, w2, h1, h2, h3, h4⟩ := leaf_cert hst hd hf h
  rw [h4] at hx
  exact follows hl h1 h2 (chain_le hst h1) (by decide) hd.issuer h3 hx

/-- The same for an exported CDI. -/
theorem C77_exported_partial {c : DeriveCmd cfg} (hst : InService s.st) (hd : Decent cfg ops)
    (hl : HashesLong ops) (he : Bit c.flags DFlag.exportCdi)
    (h : exec (ops.env cfg) (.derive c) loc s = (.ok n, s')) {x : Cert}
    (hx : readCert (exportedCertIn s'.out n) = some x) :
    Follows ops cfg.profile (marksCritical s.st) (ascii "DPE Exported CDI") x := by
  obtain ⟨u, k, w0, w1, D, w2, t, w3, g1, g2, h1, h2, h3, h4⟩ := export_cert hst hd he h
  rw [h4] at hx
  exact follows hl h1 h2 (chain_le hst h1) (by decide) hd.issuer h3 hx

/-- The subject and the extensions of a certification request follow the profile. -/
theorem C77_request {c : CertifyCmd} (hst : InService s.st) (hd : Decent cfg ops) (hl : HashesLong ops)
    (hf : c.format = 1) (h : exec (ops.env cfg) (.certify c) loc s = (.ok n, s')) {m : Message}
    (hm : readMessage (certIn c s'.out n) = some m) {x : Request} (hx : readRequest m.content = some x) :
    ExtsConform x.exts ∧ CriticalOnes (marksCritical s.st) x.exts ∧
    ∃ key d w w', Hashed ops (keyChunks key) w d w' ∧ x.key = (keyInfo cfg.profile key).der ∧
      readName x.subject = some (subjectFor (ascii "DPE Leaf") d) ∧
      ∀ a ∈ subjectFor (ascii "DPE Leaf") d, a.Conforms := by
  obtain ⟨D, w1, t, w2, h1, h2, h3, h4⟩ := leaf_csr hst hd hf h
  obtain ⟨cdi, key, sig, sig', _, _, _, _, _, _, _, f0, f2, f3, f4, f5, f6⟩ :=
    request_facts h2 (chain_le hst h1) (hd.named h1) h3
  rw [h4] at hm
  have hm := hm.symm.trans f3
  injection hm with hm
  subst hm
  obtain ⟨rfl, e1, e2⟩ := f6 x hx
  obtain ⟨_, _, _, _, _, _, _, _, _, _, _, _, _, _, _, _, hh, _⟩ := h1
  have hdl := hh.long hl
  have hlen : (nameOf (D.subject .leafCsr (leafArgs s.st c.handle loc c.label) s.st).cn (D.subject .leafCsr (leafArgs s.st c.handle loc c.label) s.st).serialName).der.length < Big := by
    have hm := max_name false (cn := ascii "DPE Leaf") (sn := serialText D.nameHash) (by decide)
      (Nat.le_of_eq (serialText_length _))
    have hw := (Asn.even_written _ (Asn.plain_even _ (plain_nameOf (ascii "DPE Leaf") (serialText D.nameHash)))).2
    refine Nat.lt_of_le_of_lt (m := nameLen false) ?_ (by decide +kernel)
    have := hm.1
    rwa [hw] at this
  refine ⟨found_conform, found_critical, _, _, _, _, hh, rfl, ?_, (subject_conforms hdl (.inl rfl)).2⟩
  show readName (nameOf (D.subject .leafCsr (leafArgs s.st c.handle loc c.label) s.st).cn (D.subject .leafCsr (leafArgs s.st c.handle loc c.label) s.st).serialName).der = _
  rw [readName_of hlen, subjectFor, ← serialText_long hdl]
  rfl

theorem Toy.hashes_long : HashesLong Toy.certOps := by
  intro w d w' h
  have h : ((.ok (List.replicate 32 0xAB), w) : Except CryptoErr Bytes × Nat) = (.ok d, w') := h
  injection h with h _
  injection h with h
  subst h
  decide

/-- The subject in the certificate of the grandchild of `s4`; its serial number are the characters ABAB… -/
example : ∃ n s' x, exec (Toy.certOps.env Toy.cfg) (Toy.certifyCmd 4 0) 0
    { Toy.s4.sys with out := Toy.bigBuf } = (.ok n, s') ∧
    readCert (certIn (.p256 (Toy.hd 4) 0 0 Toy.label) s'.out n) = some x ∧ ConformsApart x ∧
    x.serial = ascii "ABABABABABABABABABAB" ∧
    readName x.subject = some [⟨commonNameId, 0x13, ascii "DPE Leaf"⟩, ⟨serialNumberId, 0x13,
      ascii "ABABABABABABABABABABABABABABABABABABABABABABABABABABABABABABABAB"⟩] := by
  obtain ⟨n, s', x, h, hx⟩ := Toy.read_certificate
  obtain ⟨h1, _, ⟨key, d, w, w', ⟨_, _, _, _, _, _, g1⟩, _, g2, g3⟩, _⟩ := C77_certificate_partial
    (c := .p256 (Toy.hd 4) 0 0 Toy.label) (s := { Toy.s4.sys with out := Toy.bigBuf })
    Toy.s4.reach Toy.decent_cert Toy.hashes_long rfl h hx
  have e : d = List.replicate 32 0xAB := by
    injection g1 with g1 _
    injection g1 with g1
    exact g1.symm
  subst e
  exact ⟨n, s', x, h, hx, h1, g3.trans (by decide +kernel), g2.trans (by decide +kernel)⟩

/-- The certificate of an exported CDI. -/
example : ∃ n s' x, exec (Toy.certOps.env Toy.cfg) (.derive Toy.exportCmd) 0
    { Toy.v4.sys with out := Toy.bigBuf } = (.ok n, s') ∧
    readCert (exportedCertIn s'.out n) = some x ∧ ConformsApart x ∧ Has subjectKeyIdId false x.exts := by
  obtain ⟨n, s', h⟩ := Toy.v4_exported
  obtain ⟨i, p, h1, h2, _, h3, _⟩ := C43_exported_partial
      (s := { Toy.v4.sys with out := Toy.bigBuf }) Toy.v4.reach Toy.decent_cert (by decide) h
  obtain rfl := h1.unique Toy.v4_resolves
  obtain rfl := h2.unique Toy.v4_path
  obtain ⟨x, hx⟩ := Option.isSome_iff_exists.1 (h3 (by unfold SvnsAlike; decide +kernel))
  have g1 := (C77_exported_partial (s := { Toy.v4.sys with out := Toy.bigBuf }) Toy.v4.reach Toy.decent_cert
    Toy.hashes_long (by decide) h hx).apart
  have g2 := (C44_exported (s := { Toy.v4.sys with out := Toy.bigBuf }) Toy.v4.reach Toy.decent_cert (by decide)
    h hx).1
  refine ⟨n, s', x, h, hx, g1, ?_⟩
  obtain ⟨y, hy⟩ := Option.isSome_iff_exists.1 (g1.identifier.1 g2)
  unfold skidOf at hy
  split at hy
  case h_1 => cases hy
  rename_i e he
  refine ⟨e, he, g1.identifier.2 e (List.mem_of_find?_eq_some he) ?_⟩
  simpa [subjectKeyIdId] using List.find?_some he

/-- A certification request. -/
example : ∃ n s' m x, exec (Toy.certOps.env Toy.cfg) (Toy.certifyCmd 4 1) 0
    { Toy.s4.sys with out := Toy.bigBuf } = (.ok n, s') ∧
    readMessage (certIn (.p256 (Toy.hd 4) 0 1 Toy.label) s'.out n) = some m ∧
    readRequest m.content = some x ∧ ExtsConform x.exts := by
  obtain ⟨n, s', h⟩ := Toy.s4_request
  obtain ⟨i, p, m, h1, h2, h5, _, h3, _⟩ := C43_request_partial (c := .p256 (Toy.hd 4) 0 1 Toy.label)
      (s := { Toy.s4.sys with out := Toy.bigBuf }) Toy.s4.reach Toy.decent_cert rfl h
  obtain rfl := h1.unique Toy.s4_resolves
  obtain rfl := h2.unique Toy.s4_path
  obtain ⟨x, hx⟩ := Option.isSome_iff_exists.1 (h3 (by unfold SvnsAlike; decide +kernel))
  exact ⟨n, s', m, x, h, h5, hx, (C77_request (c := .p256 (Toy.hd 4) 0 1 Toy.label)
      (s := { Toy.s4.sys with out := Toy.bigBuf }) Toy.s4.reach Toy.decent_cert Toy.hashes_long rfl h h5 hx).1⟩

end

/-! ### The reference device -/

section
variable {cfg : Cfg} {L : Lib} {a : Artifact} {loc : U32} {n : Nat}
  {s s' : Sys cfg (Soft (L.crypto cfg.profile) × Unit)}

theorem device_hashes (hL : L.Total) : HashesLong (device L a cfg.profile) := by
  intro w d w' h
  have hP := hL.sound cfg.profile
  simp only [device, softOps, Soft.hashFinish] at h
  cases hw : w.1.hasher with
  | none => simp only [hw] at h; injection h with h; cases h
  | some x =>
    simp only [hw, hP.hash, if_true] at h
    injection h with h
    injection h with h
    rw [← h, hP.hash, hP.size]
    cases cfg.profile <;> decide

/-- No certificate of the reference device follows the profile, though in everything but the dates all do:
the date from which it is valid is in 2023, but is not written as UTCTime. -/
theorem C77_reference {c : CertifyCmd} (hL : L.Total) (ha : a.Fit) (hst : InService s.st) (hf : c.format = 0)
    (h : exec ((device L a cfg.profile).env cfg) (.certify c) loc s = (.ok n, s')) {x : Cert}
    (hx : readCert (certIn c s'.out n) = some x) :
    ConformsApart x ∧ x.issuer = a.issuer ∧
    readValidity x.validity = some ((0x18, ascii "20230227000000Z"), (0x18, ascii "99991231235959Z")) ∧
    ¬ Conforms x := by
  obtain ⟨_, _, hd, _⟩ := C58_meets (cfg := cfg) (L := L) hL ha 0
  obtain ⟨h1, _, _, ⟨w2, w3, num, name, h3, h4, h5⟩, v, w, w', h6, h7, h8⟩ :=
    C77_certificate_partial hst hd (device_hashes hL) hf h hx
  have e : v = ⟨ascii "20230227000000Z", ascii "99991231235959Z"⟩ := by
    simp only [device, softOps, defaultPlatform] at h6
    injection h6 with h6
    injection h6 with h6
    exact h6.symm
  subst e
  refine ⟨h1, ?_, h7, fun hc => ?_⟩
  · rw [device, device_issuer ha] at h3
    obtain ⟨rfl, rfl⟩ := Prod.mk.inj (Except.ok.inj (Prod.mk.inj h3).1)
    rw [h5, zeroPadded_take ha.issuer]
  · have := (h8.1 hc).1.2
    exact absurd this (by decide +kernel)

end

/-- The property fails: the simulator, asked by the client, issues a certificate that can be read but does not
follow the profile. -/
theorem C77_false : ∃ (c : CertifyCmd) (s s' : Sys Ref.std (Soft (Ref.lib.crypto Ref.std.profile) × Unit))
    (n : Nat) (x : Cert), InService s.st ∧
    exec ((device Ref.lib Ref.cert Ref.std.profile).env Ref.std) (.certify c) 3 s = (.ok n, s') ∧
    readCert (certIn c s'.out n) = some x ∧ ConformsApart x ∧ ¬ Conforms x := by
  obtain ⟨c, s, h, l, s1, kx, ky, h', crt, v, x, hcon, hst, hd, rfl, h1, h2⟩ := Ref.talked Ref.talked0
  obtain ⟨hr, hp, hne, _, hsv, d8, d9⟩ := Ref.derived_facts hd
  obtain ⟨y, hy, _⟩ := C76_attested Ref.lib_total Ref.cert_fit Ref.std_built Ref.std_standard hcon hcon
    Ref.strict_takes Ref.root_trusted hst (by decide) (by decide) hr hp hsv (fun e => absurd e hne) h1 .refl
    (.digest _ _ _ _ (by decide)) h2
  obtain ⟨k, n, out, r, h'', _, _, _, pk, _, _, e3, _, e5, e6, _, _, _, he⟩ :=
    certify_call Ref.lib_total Ref.cert_fit Ref.std_built Ref.std_standard hcon hst (by decide) h1
  cases e5
  rw [← e6] at hy
  obtain ⟨g1, _, _, g2⟩ := C77_reference (s := ⟨s.st, s.w, out⟩) Ref.lib_total Ref.cert_fit hst e3 he hy
  exact ⟨k, ⟨s.st, s.w, out⟩, r, n, y, hst, he, hy, g1, g2⟩

end Dpe
