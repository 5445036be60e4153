import Verif.Proofs.CertFacts
import Verif.Props.Sizes
import Verif.Examples.CertRuns
/-
C41 to C45: what CertifyKey and an exporting DeriveContext return as certificate.

`readCert`, `readRequest` and `readMessage` are strict readers that know nothing about DPE
(Spec/Parse).  `certificate`, `request` and `signedRequest` are the structures of the standards as
trees with the canonical encoding `Asn.der` (Spec/Cert, Spec/Der).

Assumptions about crypto and platform: signatures are ML-DSA exactly under the ML-DSA profile, the
signer's serial number is not empty, the issuer names are DER.
-/
namespace Dpe
variable {cfg : Cfg} {σ : Type} {ops : Ops σ} {loc : U32} {s s' : Sys cfg σ} {n : Nat}

theorem Decent.named (hd : Decent cfg ops) {kind : CertKind} {a : CertArgs} {st : State cfg}
    {w w' : σ} {D : Draft} (h : Drafted ops kind a st w D w') : D.signer.Named := by
  obtain ⟨_, _, _, _, _, _, _, _, _, _, _, _, _, _, _, _, _, _, _, _, _, _, _, h⟩ := h
  cases hs : D.signer with
  | subjectKeyId => trivial
  | issuerAndSerial i sn => rw [hs] at h; exact hd.signer _ _ _ _ h

theorem chain_le {st : State cfg} (hst : InService st) {kind : CertKind} {a : CertArgs} {w w' : σ}
    {D : Draft} (h : Drafted ops kind a st w D w') : D.path.length ≤ 64 :=
  h.path_le (C01_forest hst)

/-- Everything about a certificate made by CertifyKey. -/
theorem leaf_cert {c : CertifyCmd} (hst : InService s.st) (hd : Decent cfg ops) (hf : c.format = 0)
    (h : exec (ops.env cfg) (.certify c) loc s = (.ok n, s')) :
    ∃ D w1 t w2, Drafted ops .leafX509 (leafArgs s.st c.handle loc c.label) s.st s.w D w1 ∧
      Issued ops (leafArgs s.st c.handle loc c.label) s.st D .leafX509 w1 t w2 ∧
      t.written.length ≤ 65539 ∧ certIn c s'.out n = t.written := by
  obtain ⟨kind, D, w1, t, w2, hdl, h1, h2, h3, h4, h5, h6, h7, h8, h9⟩ :=
    certify_issues hst hd.fits hd.serial h
  have hk : kind = .leafX509 := by
    rcases h1 with h1 | ⟨h1, _⟩
    · exact h1.2
    · rw [hf] at h1; cases h1
  subst hk
  refine ⟨D, w1, t, w2, h2, h3, h5, ?_⟩
  rw [h9, h7, certIn_reply h4]

/-- Everything about a request made by CertifyKey. -/
theorem leaf_csr {c : CertifyCmd} (hst : InService s.st) (hd : Decent cfg ops) (hf : c.format = 1)
    (h : exec (ops.env cfg) (.certify c) loc s = (.ok n, s')) :
    ∃ D w1 t w2, Drafted ops .leafCsr (leafArgs s.st c.handle loc c.label) s.st s.w D w1 ∧
      Issued ops (leafArgs s.st c.handle loc c.label) s.st D .leafCsr w1 t w2 ∧
      t.written.length ≤ 65539 ∧ certIn c s'.out n = t.written := by
  obtain ⟨kind, D, w1, t, w2, hdl, h1, h2, h3, h4, h5, h6, h7, h8, h9⟩ :=
    certify_issues hst hd.fits hd.serial h
  have hk : kind = .leafCsr := by
    rcases h1 with ⟨h1, _⟩ | h1
    · rw [hf] at h1; cases h1
    · exact h1.2
  subst hk
  refine ⟨D, w1, t, w2, h2, h3, h5, ?_⟩
  rw [h9, h7, certIn_reply h4]

/-- Everything about a certificate for an exported CDI. -/
theorem export_cert {c : DeriveCmd cfg} (hst : InService s.st) (hd : Decent cfg ops)
    (hx : Bit c.flags DFlag.exportCdi)
    (h : exec (ops.env cfg) (.derive c) loc s = (.ok n, s')) :
    ∃ u k w0 w1 D w2 t w3, ops.ueid w0 = (.ok (u, k), w1) ∧ k.toNat ≤ 48 ∧
      Drafted ops .exportedX509 (exportedArgs s.st c.handle loc (u.toList.take k.toNat)) s.st w1 D w2 ∧
      Issued ops (exportedArgs s.st c.handle loc (u.toList.take k.toNat)) s.st D .exportedX509 w2 t w3 ∧
      t.written.length ≤ 65539 ∧ exportedCertIn s'.out n = t.written := by
  obtain ⟨u, k, w0, w1, D, w2, t, w3, _, h1, h2, h3, h4, h5, cdi, _, h7, h8, h9⟩ :=
    export_issues hst hd.fits hd.serial hx h
  refine ⟨u, k, w0, w1, D, w2, t, w3, h1, h2, h3, h4, h5, ?_⟩
  rw [h9, h7, exportedCertIn_reply]

/-! ## C41 -/

/-- A certificate made by CertifyKey is the canonical encoding of the Certificate for the context, a
single well-formed value, if all SVNs on the way to the root have equally long encodings.  It comes
out canonical, and a strict reader can read it, exactly if the TcbInfos have the foreseen length.

Missing for the full statement: `Regular` always; see `C41_false`. -/
theorem C41_certificate_partial {c : CertifyCmd} (hst : InService s.st) (hd : Decent cfg ops)
    (hf : c.format = 0) (h : exec (ops.env cfg) (.certify c) loc s = (.ok n, s')) :
    ∃ D w1 issuer w2 sig w3,
      Drafted ops .leafX509 (leafArgs s.st c.handle loc c.label) s.st s.w D w1 ∧
      IssuerGiven ops w1 issuer w2 ∧
      ops.signAlias (.buffer (D.tbs .leafX509 (leafArgs s.st c.handle loc c.label) s.st
        issuer).written) w2 = (.ok sig, w3) ∧
      (SvnsAlike (chainOf s.st D.path) → Regular cfg.profile
        (D.subject .leafX509 (leafArgs s.st c.handle loc c.label) s.st).attested) ∧
      (certIn c s'.out n = (certificate cfg.profile (D.tbs .leafX509
          (leafArgs s.st c.handle loc c.label) s.st issuer) sig).der ↔
        Regular cfg.profile (D.subject .leafX509 (leafArgs s.st c.handle loc c.label) s.st).attested) ∧
      (Regular cfg.profile (D.subject .leafX509 (leafArgs s.st c.handle loc c.label) s.st).attested →
        WellFormed (certIn c s'.out n)) ∧
      ((readCert (certIn c s'.out n)).isSome = true ↔
        Regular cfg.profile
          (D.subject .leafX509 (leafArgs s.st c.handle loc c.label) s.st).attested) := by
  obtain ⟨D, w1, t, w2, h1, h2, h3, h4⟩ := leaf_cert hst hd hf h
  have hp := chain_le hst h1
  have hi := h2.der_iff hp (by omega)
  obtain ⟨issuer, sig, w3, f1, f2, f3, f4, f5, _⟩ := cert_facts h2 hp (by decide) hd.issuer h3
  subst f3
  rw [h4]
  exact ⟨D, w1, issuer, w3, sig, w2, h1, f1, f2, fun hs => SvnsAlike.regular hs, hi, f4, f5⟩

/-- The grandchild of `s4`, with the SVNs 0, 9, 0 on the way to the root, gets a certificate that is
well formed and can be read. -/
example : ∃ n s', exec (Toy.certOps.env Toy.cfg) (Toy.certifyCmd 4 0) 0
    { Toy.s4.sys with out := Toy.bigBuf } = (.ok n, s') ∧
    WellFormed (certIn (.p256 (Toy.hd 4) 0 0 Toy.label) s'.out n) ∧
    (readCert (certIn (.p256 (Toy.hd 4) 0 0 Toy.label) s'.out n)).isSome = true := by
  obtain ⟨n, s', h⟩ := Toy.s4_certificate
  obtain ⟨D, w1, i, w2, sig, w3, h1, h2, h3, h4, h5, h6, h7⟩ :=
    C41_certificate_partial (c := .p256 (Toy.hd 4) 0 0 Toy.label)
      (s := { Toy.s4.sys with out := Toy.bigBuf }) Toy.s4.reach Toy.decent_cert rfl h
  obtain ⟨rfl, _⟩ := h1.det (Toy.s4_drafted (.issuerAndSerial [0x30, 0] [5]) .leafX509 _ _ rfl rfl)
  have hs : SvnsAlike (chainOf Toy.s4.st [2, 1, 0]) := by unfold SvnsAlike; decide +kernel
  exact ⟨n, s', h, h6 (h4 hs), h7.2 (h4 hs)⟩

/-- The property fails: with the SVNs 0, 9, 200 on the way to the root, CertifyKey returns a
certificate that is not well formed and cannot be read. -/
theorem C41_false : ∃ (ops : Ops Nat) (s : Sys Toy.cfg Nat) (c : CertifyCmd) (n : Nat)
    (s' : Sys Toy.cfg Nat), Reachable s.st ∧ Decent Toy.cfg ops ∧
    exec (ops.env Toy.cfg) (.certify c) 0 s = (.ok n, s') ∧
    ¬ WellFormed (certIn c s'.out n) ∧ readCert (certIn c s'.out n) = none := by
  obtain ⟨n, s', h⟩ := Toy.u4_certificate
  refine ⟨Toy.certOps, { Toy.u4.sys with out := Toy.bigBuf }, .p256 (Toy.hd 4) 0 0 Toy.label, n, s',
    Toy.u4.reach, Toy.decent_cert, h, ?_⟩
  have e := Toy.certify_is (.issuerAndSerial [0x30, 0] [5]) Toy.u4 .leafX509 0 (by simp)
    (.inl ⟨rfl, rfl⟩) Toy.u4_resolves Toy.u4_path (by decide +kernel) (by decide +kernel) h
  rw [e, ← strictDer_iff]
  constructor
  · decide +kernel
  · have : (readCert (Toy.tree (.issuerAndSerial [0x30, 0] [5]) Toy.u4.st .leafX509
        (leafArgs Toy.u4.st (Toy.hd 4) 0 Toy.label.toList)).written).isNone = true := by
      decide +kernel
    exact Option.isNone_iff_eq_none.1 this

/-- The same for an exported CDI. -/
theorem C41_exported_partial {c : DeriveCmd cfg} (hst : InService s.st) (hd : Decent cfg ops)
    (hx : Bit c.flags DFlag.exportCdi)
    (h : exec (ops.env cfg) (.derive c) loc s = (.ok n, s')) :
    ∃ u k w0 w1 D w2 issuer w3 sig w4, ops.ueid w0 = (.ok (u, k), w1) ∧ k.toNat ≤ 48 ∧
      Drafted ops .exportedX509 (exportedArgs s.st c.handle loc (u.toList.take k.toNat)) s.st w1 D w2 ∧
      IssuerGiven ops w2 issuer w3 ∧
      ops.signAlias (.buffer (D.tbs .exportedX509 (exportedArgs s.st c.handle loc
        (u.toList.take k.toNat)) s.st issuer).written) w3 = (.ok sig, w4) ∧
      (SvnsAlike (chainOf s.st D.path) → Regular cfg.profile (D.subject .exportedX509
        (exportedArgs s.st c.handle loc (u.toList.take k.toNat)) s.st).attested) ∧
      (exportedCertIn s'.out n = (certificate cfg.profile (D.tbs .exportedX509
          (exportedArgs s.st c.handle loc (u.toList.take k.toNat)) s.st issuer) sig).der ↔
        Regular cfg.profile (D.subject .exportedX509
          (exportedArgs s.st c.handle loc (u.toList.take k.toNat)) s.st).attested) ∧
      (Regular cfg.profile (D.subject .exportedX509
          (exportedArgs s.st c.handle loc (u.toList.take k.toNat)) s.st).attested →
        WellFormed (exportedCertIn s'.out n)) ∧
      ((readCert (exportedCertIn s'.out n)).isSome = true ↔
        Regular cfg.profile (D.subject .exportedX509
          (exportedArgs s.st c.handle loc (u.toList.take k.toNat)) s.st).attested) := by
  obtain ⟨u, k, w0, w1, D, w2, t, w3, g1, g2, h1, h2, h3, h4⟩ := export_cert hst hd hx h
  have hp := chain_le hst h1
  have hi := h2.der_iff hp (by omega)
  obtain ⟨issuer, sig, w4, f1, f2, f3, f4, f5, _⟩ := cert_facts h2 hp (by decide) hd.issuer h3
  subst f3
  rw [h4]
  exact ⟨u, k, w0, w1, D, w2, issuer, w4, sig, w3, g1, g2, h1, f1, f2,
    fun hs => SvnsAlike.regular hs, hi, f4, f5⟩

/-- The CDI of the grandchild of `v4`, with the SVNs 0, 9, 7, is exported with a readable
certificate. -/
example : ∃ n s', exec (Toy.certOps.env Toy.cfg) (.derive Toy.exportCmd) 0
    { Toy.v4.sys with out := Toy.bigBuf } = (.ok n, s') ∧
    WellFormed (exportedCertIn s'.out n) ∧ (readCert (exportedCertIn s'.out n)).isSome = true := by
  obtain ⟨n, s', h⟩ := Toy.v4_exported
  obtain ⟨u, k, w0, w1, D, w2, i, w3, sig, w4, _, _, h1, h2, h3, h4, h5, h6, h7⟩ :=
    C41_exported_partial (s := { Toy.v4.sys with out := Toy.bigBuf }) Toy.v4.reach Toy.decent_cert
      (by decide) h
  obtain ⟨rfl, _⟩ := h1.det (Toy.v4_drafted .exportedX509 _ _ rfl rfl)
  have hs : SvnsAlike (chainOf Toy.v4.st [2, 1, 0]) := by unfold SvnsAlike; decide +kernel
  exact ⟨n, s', h, h6 (h4 hs), h7.2 (h4 hs)⟩

/-- A CMS message made by CertifyKey is a well-formed value that a strict reader can read.  With
equally long SVN encodings it is the canonical encoding of the CMS message around the request,
provided that the platform names the signer by issuer and serial number.  The request inside can be
read exactly if the TcbInfos have the foreseen length.

Missing for the full statement: `Regular` always, and signers named by a subject key identifier; see
`C41_false` and `C41_false_signer`. -/
theorem C41_request_partial {c : CertifyCmd} (hst : InService s.st) (hd : Decent cfg ops)
    (hf : c.format = 1) (h : exec (ops.env cfg) (.certify c) loc s = (.ok n, s')) :
    ∃ D w1 sig sig', Drafted ops .leafCsr (leafArgs s.st c.handle loc c.label) s.st s.w D w1 ∧
      WellFormed (certIn c s'.out n) ∧
      (SvnsAlike (chainOf s.st D.path) → Regular cfg.profile
        (D.subject .leafCsr (leafArgs s.st c.handle loc c.label) s.st).attested) ∧
      (certIn c s'.out n = (signedRequest cfg.profile (cmsVersionOf D.signer)
          (signerIdentifier' D.signer) (request cfg.profile
            (D.info (leafArgs s.st c.handle loc c.label) s.st) sig) sig').der ↔
        Regular cfg.profile (D.subject .leafCsr (leafArgs s.st c.handle loc c.label) s.st).attested) ∧
      ((∀ k, D.signer ≠ .subjectKeyId k) → signerIdentifier' D.signer = signerIdentifier D.signer) ∧
      ∃ m, readMessage (certIn c s'.out n) = some m ∧
        (Regular cfg.profile (D.subject .leafCsr (leafArgs s.st c.handle loc c.label) s.st).attested →
          WellFormed m.content) ∧
        ((readRequest m.content).isSome = true ↔ Regular cfg.profile
          (D.subject .leafCsr (leafArgs s.st c.handle loc c.label) s.st).attested) := by
  obtain ⟨D, w1, t, w2, h1, h2, h3, h4⟩ := leaf_csr hst hd hf h
  have hp := chain_le hst h1
  have hi := h2.der_iff hp (by omega)
  obtain ⟨cdi, key, sig, sig', _, _, _, _, _, _, _, f1, f2, f3, f4, f5, _⟩ :=
    request_facts h2 hp (hd.named h1) h3
  subst f1
  rw [h4]
  refine ⟨D, w1, sig, sig', h1, f2, fun hs => SvnsAlike.regular hs, hi, ?_, _, f3, f4, f5⟩
  intro hk
  cases hs : D.signer with
  | subjectKeyId k => exact absurd hs (hk k)
  | issuerAndSerial => rfl

/-- The grandchild of `s4` gets a message with a request that can be read. -/
example : ∃ n s' m, exec (Toy.certOps.env Toy.cfg) (Toy.certifyCmd 4 1) 0
    { Toy.s4.sys with out := Toy.bigBuf } = (.ok n, s') ∧
    readMessage (certIn (.p256 (Toy.hd 4) 0 1 Toy.label) s'.out n) = some m ∧
    (readRequest m.content).isSome = true := by
  obtain ⟨n, s', h⟩ := Toy.s4_request
  obtain ⟨D, w1, sig, sig', h1, h2, h3, h4, h5, m, h6, h7, h8⟩ :=
    C41_request_partial (c := .p256 (Toy.hd 4) 0 1 Toy.label)
      (s := { Toy.s4.sys with out := Toy.bigBuf }) Toy.s4.reach Toy.decent_cert rfl h
  obtain ⟨rfl, _⟩ := h1.det (Toy.s4_drafted (.issuerAndSerial [0x30, 0] [5]) .leafCsr _ _ rfl rfl)
  have hs : SvnsAlike (chainOf Toy.s4.st [2, 1, 0]) := by unfold SvnsAlike; decide +kernel
  exact ⟨n, s', m, h, h6, h8.2 (h3 hs)⟩

/-- The property fails: a signer that the platform names by a subject key identifier is not named
as RFC 5652 requires. -/
theorem C41_false_signer : ∃ (ops : Ops Nat) (s : Sys Toy.cfg Nat) (c : CertifyCmd) (n : Nat)
    (s' : Sys Toy.cfg Nat) (id : SignerId) (m : Message), Reachable s.st ∧ Decent Toy.cfg ops ∧
    exec (ops.env Toy.cfg) (.certify c) 0 s = (.ok n, s') ∧
    (∀ w, ops.signerId w = (.ok id, w)) ∧ readMessage (certIn c s'.out n) = some m ∧
    m.signer ≠ (signerIdentifier id).der := by
  obtain ⟨n, s', h⟩ := Toy.s4_request_skid
  have e := Toy.certify_is (.subjectKeyId (List.replicate 20 8)) Toy.s4 .leafCsr 1 (by simp)
    (.inr ⟨rfl, rfl⟩) Toy.s4_resolves Toy.s4_path (by decide +kernel) (by decide +kernel) h
  have hm : ((readMessage (Toy.tree (.subjectKeyId (List.replicate 20 8)) Toy.s4.st .leafCsr
        (leafArgs Toy.s4.st (Toy.hd 4) 0 Toy.label.toList)).written).map (·.signer)) =
      some ([0x80, 0x16, 0x04, 0x14] ++ List.replicate 20 8) := by
    decide +kernel
  rw [← e] at hm
  obtain ⟨m, h1, h2⟩ := Option.map_eq_some_iff.1 hm
  refine ⟨Toy.skidOps, { Toy.s4.sys with out := Toy.bigBuf }, .p256 (Toy.hd 4) 0 1 Toy.label, n, s',
    .subjectKeyId (List.replicate 20 8), m, Toy.s4.reach, Toy.decent_skid, h, fun _ => rfl, h1, ?_⟩
  rw [h2]
  decide +kernel

/-! ## C43 -/

/-- The path from a context to its root. -/
theorem Drafted.resolves {kind : CertKind} {a : CertArgs} {st : State cfg} {w w' : σ} {D : Draft}
    (h : Drafted ops kind a st w D w') : Resolves st a.handle a.locality D.slot := by
  obtain ⟨_, _, _, _, _, _, _, _, _, h, _⟩ := h
  exact h

/-- A certificate made by CertifyKey holds the TcbInfos of the context's ancestry, root first,
immediately followed by the other extensions; a strict reader finds exactly these TcbInfos.

Missing for the full statement: every certificate can be read; see `C41_false`. -/
theorem C43_certificate_partial {c : CertifyCmd} (hst : InService s.st) (hd : Decent cfg ops)
    (hf : c.format = 0) (h : exec (ops.env cfg) (.certify c) loc s = (.ok n, s')) :
    ∃ slot path, Resolves s.st c.handle loc slot ∧ Path s.st slot path ∧
      Asn.ders ((chainOf s.st path).map
        (tcbInfo cfg.profile (s.st.supports Feature.recursive))) <:+: certIn c s'.out n ∧
      (SvnsAlike (chainOf s.st path) → (readCert (certIn c s'.out n)).isSome = true) ∧
      ∀ x, readCert (certIn c s'.out n) = some x → tcbInfosOf x.exts =
        some ((chainOf s.st path).map (reported cfg.profile (s.st.supports Feature.recursive))) := by
  obtain ⟨D, w1, t, w2, h1, h2, h3, h4⟩ := leaf_cert hst hd hf h
  obtain ⟨issuer, sig, w4, f1, f2, f3, f4, f5, f6⟩ :=
    cert_facts h2 (chain_le hst h1) (by decide) hd.issuer h3
  have hr : (D.subject .leafX509 (leafArgs s.st c.handle loc c.label) s.st).attested.recursive =
      decide (s.st.supports Feature.recursive) := by
    simp [Draft.subject]
  rw [h4]
  refine ⟨D.slot, D.path, h1.resolves, h1.path, ?_, fun hs => f5.2 (SvnsAlike.regular hs), ?_⟩
  · rw [f3]
    refine List.IsInfix.trans ?_ cert_exts_infix
    refine List.IsInfix.trans ?_ exts_infix
    rw [hr]
    exact ⟨[], _, rfl⟩
  · intro x hx
    obtain ⟨e1, e2, e3⟩ := f6 x hx
    rw [e1]
    show tcbInfosOf (foundExts _ _ _) = _
    rw [tcbInfos_found e3, hr]
    rfl

/-- For the grandchild of `s4` a reader finds three TcbInfos, with the SVNs 0, 9, 0. -/
example : ∃ n s' x l, exec (Toy.certOps.env Toy.cfg) (Toy.certifyCmd 4 0) 0
    { Toy.s4.sys with out := Toy.bigBuf } = (.ok n, s') ∧
    readCert (certIn (.p256 (Toy.hd 4) 0 0 Toy.label) s'.out n) = some x ∧
    tcbInfosOf x.exts = some l ∧ l.map (·.svn) = [0, 9, 0] := by
  obtain ⟨n, s', h⟩ := Toy.s4_certificate
  obtain ⟨i, p, h1, h2, _, h3, h4⟩ := C43_certificate_partial (c := .p256 (Toy.hd 4) 0 0 Toy.label)
      (s := { Toy.s4.sys with out := Toy.bigBuf }) Toy.s4.reach Toy.decent_cert rfl h
  obtain rfl := h1.unique Toy.s4_resolves
  obtain rfl := h2.unique Toy.s4_path
  obtain ⟨x, hx⟩ := Option.isSome_iff_exists.1 (h3 (by unfold SvnsAlike; decide +kernel))
  exact ⟨n, s', x, _, h, hx, h4 x hx, by decide +kernel⟩

/-- The same for an exported CDI, where there are no cumulative TCIs. -/
theorem C43_exported_partial {c : DeriveCmd cfg} (hst : InService s.st) (hd : Decent cfg ops)
    (hx : Bit c.flags DFlag.exportCdi)
    (h : exec (ops.env cfg) (.derive c) loc s = (.ok n, s')) :
    ∃ slot path, Resolves s.st c.handle loc slot ∧ Path s.st slot path ∧
      Asn.ders ((chainOf s.st path).map (tcbInfo cfg.profile false)) <:+: exportedCertIn s'.out n ∧
      (SvnsAlike (chainOf s.st path) → (readCert (exportedCertIn s'.out n)).isSome = true) ∧
      ∀ x, readCert (exportedCertIn s'.out n) = some x → tcbInfosOf x.exts =
        some ((chainOf s.st path).map (reported cfg.profile false)) := by
  obtain ⟨u, k, w0, w1, D, w2, t, w3, g1, g2, h1, h2, h3, h4⟩ := export_cert hst hd hx h
  obtain ⟨issuer, sig, w4, f1, f2, f3, f4, f5, f6⟩ :=
    cert_facts h2 (chain_le hst h1) (by decide) hd.issuer h3
  have hr : (D.subject .exportedX509 (exportedArgs s.st c.handle loc (u.toList.take k.toNat))
      s.st).attested.recursive = false := by
    simp [Draft.subject]
  rw [h4]
  refine ⟨D.slot, D.path, h1.resolves, h1.path, ?_, fun hs => f5.2 (SvnsAlike.regular hs), ?_⟩
  · rw [f3]
    refine List.IsInfix.trans ?_ cert_exts_infix
    refine List.IsInfix.trans ?_ exts_infix
    rw [hr]
    exact ⟨[], _, rfl⟩
  · intro x hx
    obtain ⟨e1, e2, e3⟩ := f6 x hx
    rw [e1]
    show tcbInfosOf (foundExts _ _ _) = _
    rw [tcbInfos_found e3, hr]
    rfl

example : ∃ n s' x l, exec (Toy.certOps.env Toy.cfg) (.derive Toy.exportCmd) 0
    { Toy.v4.sys with out := Toy.bigBuf } = (.ok n, s') ∧
    readCert (exportedCertIn s'.out n) = some x ∧
    tcbInfosOf x.exts = some l ∧ l.map (·.svn) = [0, 9, 7] := by
  obtain ⟨n, s', h⟩ := Toy.v4_exported
  obtain ⟨i, p, h1, h2, _, h3, h4⟩ := C43_exported_partial
      (s := { Toy.v4.sys with out := Toy.bigBuf }) Toy.v4.reach Toy.decent_cert (by decide) h
  obtain rfl := h1.unique Toy.v4_resolves
  obtain rfl := h2.unique Toy.v4_path
  obtain ⟨x, hx⟩ := Option.isSome_iff_exists.1 (h3 (by unfold SvnsAlike; decide +kernel))
  exact ⟨n, s', x, _, h, hx, h4 x hx, by decide +kernel⟩

/-- The same for the request inside a CMS message. -/
theorem C43_request_partial {c : CertifyCmd} (hst : InService s.st) (hd : Decent cfg ops)
    (hf : c.format = 1) (h : exec (ops.env cfg) (.certify c) loc s = (.ok n, s')) :
    ∃ slot path m, Resolves s.st c.handle loc slot ∧ Path s.st slot path ∧
      readMessage (certIn c s'.out n) = some m ∧
      Asn.ders ((chainOf s.st path).map
        (tcbInfo cfg.profile (s.st.supports Feature.recursive))) <:+: m.content ∧
      (SvnsAlike (chainOf s.st path) → (readRequest m.content).isSome = true) ∧
      ∀ x, readRequest m.content = some x → tcbInfosOf x.exts =
        some ((chainOf s.st path).map (reported cfg.profile (s.st.supports Feature.recursive))) := by
  obtain ⟨D, w1, t, w2, h1, h2, h3, h4⟩ := leaf_csr hst hd hf h
  obtain ⟨cdi, key, sig, sig', _, _, _, _, _, _, _, f1, f2, f3, f4, f5, f6⟩ :=
    request_facts h2 (chain_le hst h1) (hd.named h1) h3
  have hr : (D.subject .leafCsr (leafArgs s.st c.handle loc c.label) s.st).attested.recursive =
      decide (s.st.supports Feature.recursive) := by
    simp [Draft.subject]
  rw [h4]
  refine ⟨D.slot, D.path, _, h1.resolves, h1.path, f3, ?_, fun hs => f5.2 (SvnsAlike.regular hs), ?_⟩
  · refine List.IsInfix.trans ?_ request_exts_infix
    refine List.IsInfix.trans ?_ exts_infix
    rw [hr]
    exact ⟨[], _, rfl⟩
  · intro x hx
    obtain ⟨e1, e2, e3⟩ := f6 x hx
    rw [e1]
    show tcbInfosOf (foundExts _ _ _) = _
    rw [tcbInfos_found e3, hr]
    rfl

example : ∃ n s' m x l, exec (Toy.certOps.env Toy.cfg) (Toy.certifyCmd 4 1) 0
    { Toy.s4.sys with out := Toy.bigBuf } = (.ok n, s') ∧
    readMessage (certIn (.p256 (Toy.hd 4) 0 1 Toy.label) s'.out n) = some m ∧
    readRequest m.content = some x ∧ tcbInfosOf x.exts = some l ∧ l.map (·.svn) = [0, 9, 0] := by
  obtain ⟨n, s', h⟩ := Toy.s4_request
  obtain ⟨i, p, m, h1, h2, h5, _, h3, h4⟩ := C43_request_partial (c := .p256 (Toy.hd 4) 0 1 Toy.label)
      (s := { Toy.s4.sys with out := Toy.bigBuf }) Toy.s4.reach Toy.decent_cert rfl h
  obtain rfl := h1.unique Toy.s4_resolves
  obtain rfl := h2.unique Toy.s4_path
  obtain ⟨x, hx⟩ := Option.isSome_iff_exists.1 (h3 (by unfold SvnsAlike; decide +kernel))
  exact ⟨n, s', m, x, _, h, h5, hx, h4 x hx, by decide +kernel⟩

/-! ## C44 -/

/-- Certificates that can be read, to which the theorems apply. -/
theorem Toy.read_certificate : ∃ n s' x, exec (Toy.certOps.env Toy.cfg) (Toy.certifyCmd 4 0) 0
    { Toy.s4.sys with out := Toy.bigBuf } = (.ok n, s') ∧
    readCert (certIn (.p256 (Toy.hd 4) 0 0 Toy.label) s'.out n) = some x := by
  obtain ⟨n, s', h⟩ := Toy.s4_certificate
  obtain ⟨i, p, h1, h2, _, h3, h4⟩ := C43_certificate_partial (c := .p256 (Toy.hd 4) 0 0 Toy.label)
      (s := { Toy.s4.sys with out := Toy.bigBuf }) Toy.s4.reach Toy.decent_cert rfl h
  obtain rfl := h1.unique Toy.s4_resolves
  obtain rfl := h2.unique Toy.s4_path
  obtain ⟨x, hx⟩ := Option.isSome_iff_exists.1 (h3 (by unfold SvnsAlike; decide +kernel))
  exact ⟨n, s', x, h, hx⟩

/-- Whoever reads a certificate made by CertifyKey learns: not a CA, usage digitalSignature only,
purpose attestation, the platform's issuer key identifier, no subject key identifier, and the
caller's label as UEID. -/
theorem C44_certificate {c : CertifyCmd} (hst : InService s.st) (hd : Decent cfg ops)
    (hf : c.format = 0) (h : exec (ops.env cfg) (.certify c) loc s = (.ok n, s')) {x : Cert}
    (hx : readCert (certIn c s'.out n) = some x) :
    isCa x.exts = some false ∧ keyUsages x.exts = some [0] ∧
    keyPurposes x.exts = some [attestLoc] ∧ skidOf x.exts = none ∧ ueidOf x.exts = some c.label ∧
    ∃ k w w', ops.issuerKeyId w = (.ok k, w') ∧ akidOf x.exts = some k.toList := by
  obtain ⟨D, w1, t, w2, h1, h2, h3, h4⟩ := leaf_cert hst hd hf h
  obtain ⟨issuer, sig, w4, f1, f2, f3, f4, f5, f6⟩ :=
    cert_facts h2 (chain_le hst h1) (by decide) hd.issuer h3
  rw [h4] at hx
  obtain ⟨rfl, _, e⟩ := f6 x hx
  obtain ⟨_, _, _, _, _, _, _, _, _, _, _, _, _, _, _, _, _, _, _, _, hk, _⟩ := h1
  refine ⟨isCa_found, keyUsages_found, keyPurposes_found, ?_, ueid_found e, _, _, _, hk,
    akid_found e⟩
  exact skid_found e

example : ∃ n s' x, exec (Toy.certOps.env Toy.cfg) (Toy.certifyCmd 4 0) 0
    { Toy.s4.sys with out := Toy.bigBuf } = (.ok n, s') ∧
    readCert (certIn (.p256 (Toy.hd 4) 0 0 Toy.label) s'.out n) = some x ∧
    isCa x.exts = some false ∧ ueidOf x.exts = some (List.replicate 32 1) ∧
    akidOf x.exts = some (List.replicate 20 7) := by
  obtain ⟨n, s', x, h, hx⟩ := Toy.read_certificate
  obtain ⟨h1, _, _, _, h2, k, w, w', h3, h4⟩ := C44_certificate
    (c := .p256 (Toy.hd 4) 0 0 Toy.label) (s := { Toy.s4.sys with out := Toy.bigBuf })
    Toy.s4.reach Toy.decent_cert rfl h hx
  refine ⟨n, s', x, h, hx, h1, by rw [h2]; decide +kernel, ?_⟩
  have h3 : ((.ok (Vector.replicate 20 7), w) : Except PlatErr (BArr 20) × Nat) = (.ok k, w') := h3
  injection h3 with h3 _
  injection h3 with h3
  rw [h4, ← h3]
  decide +kernel

/-- The same for the request inside a CMS message, which has no key identifiers. -/
theorem C44_request {c : CertifyCmd} (hst : InService s.st) (hd : Decent cfg ops)
    (hf : c.format = 1) (h : exec (ops.env cfg) (.certify c) loc s = (.ok n, s')) {m : Message}
    (hm : readMessage (certIn c s'.out n) = some m) {x : Request}
    (hx : readRequest m.content = some x) :
    isCa x.exts = some false ∧ keyUsages x.exts = some [0] ∧
    keyPurposes x.exts = some [attestLoc] ∧ skidOf x.exts = none ∧
    ueidOf x.exts = some c.label := by
  obtain ⟨D, w1, t, w2, h1, h2, h3, h4⟩ := leaf_csr hst hd hf h
  obtain ⟨cdi, key, sig, sig', _, _, _, _, _, _, _, f1, f2, f3, f4, f5, f6⟩ :=
    request_facts h2 (chain_le hst h1) (hd.named h1) h3
  rw [h4] at hm
  have hm := hm.symm.trans f3
  injection hm with hm
  subst hm
  obtain ⟨rfl, _, e⟩ := f6 x hx
  exact ⟨isCa_found, keyUsages_found, keyPurposes_found, skid_found e, ueid_found e⟩

example : ∃ n s' m x, exec (Toy.certOps.env Toy.cfg) (Toy.certifyCmd 4 1) 0
    { Toy.s4.sys with out := Toy.bigBuf } = (.ok n, s') ∧
    readMessage (certIn (.p256 (Toy.hd 4) 0 1 Toy.label) s'.out n) = some m ∧
    readRequest m.content = some x ∧ isCa x.exts = some false ∧
    ueidOf x.exts = some (List.replicate 32 1) := by
  obtain ⟨n, s', h⟩ := Toy.s4_request
  obtain ⟨i, p, m, h1, h2, h5, _, h3, _⟩ := C43_request_partial (c := .p256 (Toy.hd 4) 0 1 Toy.label)
      (s := { Toy.s4.sys with out := Toy.bigBuf }) Toy.s4.reach Toy.decent_cert rfl h
  obtain rfl := h1.unique Toy.s4_resolves
  obtain rfl := h2.unique Toy.s4_path
  obtain ⟨x, hx⟩ := Option.isSome_iff_exists.1 (h3 (by unfold SvnsAlike; decide +kernel))
  obtain ⟨g1, _, _, _, g2⟩ := C44_request (c := .p256 (Toy.hd 4) 0 1 Toy.label)
      (s := { Toy.s4.sys with out := Toy.bigBuf }) Toy.s4.reach Toy.decent_cert rfl h h5 hx
  exact ⟨n, s', m, x, h, h5, hx, g1, by rw [g2]; decide +kernel⟩

/-- Whoever reads a certificate for an exported CDI learns: a CA, usages digitalSignature and
keyCertSign, purpose embedded CA, the platform's issuer key identifier, the first 20 octets of the
digest of its own public key as subject key identifier, and the platform's UEID. -/
theorem C44_exported {c : DeriveCmd cfg} (hst : InService s.st) (hd : Decent cfg ops)
    (he : Bit c.flags DFlag.exportCdi)
    (h : exec (ops.env cfg) (.derive c) loc s = (.ok n, s')) {x : Cert}
    (hx : readCert (exportedCertIn s'.out n) = some x) :
    isCa x.exts = some true ∧ keyUsages x.exts = some [0, 5] ∧
    keyPurposes x.exts = some [embeddedCa] ∧
    (∃ k w w', ops.issuerKeyId w = (.ok k, w') ∧ akidOf x.exts = some k.toList) ∧
    (∃ key d w w', Hashed ops (keyChunks key) w d w' ∧ x.key = (keyInfo cfg.profile key).der ∧
      skidOf x.exts = some (d.take 20)) ∧
    ∃ u k w w', ops.ueid w = (.ok (u, k), w') ∧ ueidOf x.exts = some (u.toList.take k.toNat) := by
  obtain ⟨u, k, w0, w1, D, w2, t, w3, g1, g2, h1, h2, h3, h4⟩ := export_cert hst hd he h
  obtain ⟨issuer, sig, w4, f1, f2, f3, f4, f5, f6⟩ :=
    cert_facts h2 (chain_le hst h1) (by decide) hd.issuer h3
  rw [h4] at hx
  obtain ⟨rfl, _, e⟩ := f6 x hx
  obtain ⟨_, _, _, _, _, _, _, _, _, _, _, _, _, _, _, _, _, _, hh, _, hk, _⟩ := h1
  refine ⟨isCa_found, keyUsages_found, keyPurposes_found, ⟨_, _, _, hk, akid_found e⟩,
    ⟨_, _, _, _, hh, rfl, skid_found e⟩, u, k, w0, w1, g1, ueid_found e⟩

example : ∃ n s' x, exec (Toy.certOps.env Toy.cfg) (.derive Toy.exportCmd) 0
    { Toy.v4.sys with out := Toy.bigBuf } = (.ok n, s') ∧
    readCert (exportedCertIn s'.out n) = some x ∧
    isCa x.exts = some true ∧ keyUsages x.exts = some [0, 5] := by
  obtain ⟨n, s', h⟩ := Toy.v4_exported
  obtain ⟨i, p, h1, h2, _, h3, _⟩ := C43_exported_partial
      (s := { Toy.v4.sys with out := Toy.bigBuf }) Toy.v4.reach Toy.decent_cert (by decide) h
  obtain rfl := h1.unique Toy.v4_resolves
  obtain rfl := h2.unique Toy.v4_path
  obtain ⟨x, hx⟩ := Option.isSome_iff_exists.1 (h3 (by unfold SvnsAlike; decide +kernel))
  obtain ⟨g1, g2, _⟩ := C44_exported
      (s := { Toy.v4.sys with out := Toy.bigBuf }) Toy.v4.reach Toy.decent_cert (by decide) h hx
  exact ⟨n, s', x, h, hx, g1, g2⟩

/-! ## C45 -/

/-- A certificate made by CertifyKey is the octets given to the alias key to sign, the algorithm and
that signature; a reader takes exactly these octets for the signed ones. -/
theorem C45_certificate {c : CertifyCmd} (hst : InService s.st) (hd : Decent cfg ops)
    (hf : c.format = 0) (h : exec (ops.env cfg) (.certify c) loc s = (.ok n, s')) :
    ∃ tbs sig w w', ops.signAlias (.buffer tbs) w = (.ok sig, w') ∧
      certIn c s'.out n = tlv 0x30 (tbs ++ (sigAlgorithm cfg.profile).der ++ (sigBits sig).der) ∧
      ∀ x, readCert (certIn c s'.out n) = some x → x.tbs = tbs ∧
        x.algorithm = (sigAlgorithm cfg.profile).der ∧ x.signature = sigContents sig := by
  obtain ⟨D, w1, t, w2, h1, h2, h3, h4⟩ := leaf_cert hst hd hf h
  obtain ⟨issuer, sig, w4, f1, f2, f3, f4, f5, f6⟩ :=
    cert_facts h2 (chain_le hst h1) (by decide) hd.issuer h3
  rw [h4]
  refine ⟨_, sig, _, _, f2, ?_, fun x hx => ?_⟩
  · rw [f3]; exact signed_written
  · obtain ⟨rfl, e, _⟩ := f6 x hx
    exact ⟨e.symm, rfl, rfl⟩

example : ∃ n s' tbs, exec (Toy.certOps.env Toy.cfg) (Toy.certifyCmd 4 0) 0
    { Toy.s4.sys with out := Toy.bigBuf } = (.ok n, s') ∧
    certIn (.p256 (Toy.hd 4) 0 0 Toy.label) s'.out n =
      tlv 0x30 (tbs ++ (sigAlgorithm .p256).der ++ (sigBits Toy.aliasSig).der) := by
  obtain ⟨n, s', h⟩ := Toy.s4_certificate
  obtain ⟨tbs, sig, w, w', h1, h2, _⟩ := C45_certificate (c := .p256 (Toy.hd 4) 0 0 Toy.label)
      (s := { Toy.s4.sys with out := Toy.bigBuf }) Toy.s4.reach Toy.decent_cert rfl h
  have h1 : ((.ok Toy.aliasSig, w) : Except CryptoErr Sig × Nat) = (.ok sig, w') := h1
  injection h1 with h1 _
  injection h1 with h1
  subst h1
  exact ⟨n, s', tbs, h, h2⟩

/-- The same for an exported CDI. -/
theorem C45_exported {c : DeriveCmd cfg} (hst : InService s.st) (hd : Decent cfg ops)
    (he : Bit c.flags DFlag.exportCdi)
    (h : exec (ops.env cfg) (.derive c) loc s = (.ok n, s')) :
    ∃ tbs sig w w', ops.signAlias (.buffer tbs) w = (.ok sig, w') ∧
      exportedCertIn s'.out n =
        tlv 0x30 (tbs ++ (sigAlgorithm cfg.profile).der ++ (sigBits sig).der) ∧
      ∀ x, readCert (exportedCertIn s'.out n) = some x → x.tbs = tbs ∧
        x.algorithm = (sigAlgorithm cfg.profile).der ∧ x.signature = sigContents sig := by
  obtain ⟨u, k, w0, w1, D, w2, t, w3, g1, g2, h1, h2, h3, h4⟩ := export_cert hst hd he h
  obtain ⟨issuer, sig, w4, f1, f2, f3, f4, f5, f6⟩ :=
    cert_facts h2 (chain_le hst h1) (by decide) hd.issuer h3
  rw [h4]
  refine ⟨_, sig, _, _, f2, ?_, fun x hx => ?_⟩
  · rw [f3]; exact signed_written
  · obtain ⟨rfl, e, _⟩ := f6 x hx
    exact ⟨e.symm, rfl, rfl⟩

example : ∃ n s' tbs, exec (Toy.certOps.env Toy.cfg) (.derive Toy.exportCmd) 0
    { Toy.v4.sys with out := Toy.bigBuf } = (.ok n, s') ∧
    exportedCertIn s'.out n =
      tlv 0x30 (tbs ++ (sigAlgorithm .p256).der ++ (sigBits Toy.aliasSig).der) := by
  obtain ⟨n, s', h⟩ := Toy.v4_exported
  obtain ⟨tbs, sig, w, w', h1, h2, _⟩ := C45_exported
      (s := { Toy.v4.sys with out := Toy.bigBuf }) Toy.v4.reach Toy.decent_cert (by decide) h
  have h1 : ((.ok Toy.aliasSig, w) : Except CryptoErr Sig × Nat) = (.ok sig, w') := h1
  injection h1 with h1 _
  injection h1 with h1
  subst h1
  exact ⟨n, s', tbs, h, h2⟩

/-- In the CMS message made by CertifyKey a reader finds the request that was given to the alias key
to sign, with that signature.  The request is the octets given to the derived key to sign, the
algorithm and that signature; a reader takes exactly these octets for the signed ones.  The derived
key is derived like the key that the request is about. -/
theorem C45_request {c : CertifyCmd} (hst : InService s.st) (hd : Decent cfg ops)
    (hf : c.format = 1) (h : exec (ops.env cfg) (.certify c) loc s = (.ok n, s')) :
    ∃ m digest cdi key info sig sig' w w1 w2 w3 w4,
      readMessage (certIn c s'.out n) = some m ∧
      ops.deriveCdi digest (ascii "DPE") w = (.ok cdi, w1) ∧
      ops.deriveKeyPair cdi c.label (keyPurpose cfg.profile) w1 = (.ok key, w2) ∧
      ops.sign key (.buffer info) w2 = (.ok sig, w3) ∧
      ops.signAlias (.buffer m.content) w3 = (.ok sig', w4) ∧
      m.signature = sigContents sig' ∧ m.algorithm = (sigAlgorithm cfg.profile).der ∧
      m.digestAlgorithm = (hashAlgorithm cfg.profile).der ∧
      m.content = tlv 0x30 (info ++ (sigAlgorithm cfg.profile).der ++ (sigBits sig).der) ∧
      ∀ x, readRequest m.content = some x → x.info = info ∧
        x.algorithm = (sigAlgorithm cfg.profile).der ∧ x.signature = sigContents sig := by
  obtain ⟨D, w1, t, w2, h1, h2, h3, h4⟩ := leaf_csr hst hd hf h
  obtain ⟨cdi, key, sig, sig', _, _, _, g1, g2, g3, g4, f1, f2, f3, f4, f5, f6⟩ :=
    request_facts h2 (chain_le hst h1) (hd.named h1) h3
  rw [h4]
  refine ⟨_, D.digest, cdi, key, _, sig, sig', _, _, _, _, _, f3, g1, g2, g3, g4, rfl, rfl, rfl,
    signed_written, fun x hx => ?_⟩
  obtain ⟨rfl, e, _⟩ := f6 x hx
  exact ⟨e.symm, rfl, rfl⟩

/-- The request is signed with the derived key, the message around it with the alias key. -/
example : ∃ n s' m info, exec (Toy.certOps.env Toy.cfg) (Toy.certifyCmd 4 1) 0
    { Toy.s4.sys with out := Toy.bigBuf } = (.ok n, s') ∧
    readMessage (certIn (.p256 (Toy.hd 4) 0 1 Toy.label) s'.out n) = some m ∧
    m.signature = sigContents Toy.aliasSig ∧
    m.content = tlv 0x30 (info ++ (sigAlgorithm .p256).der ++ (sigBits Toy.keySig).der) := by
  obtain ⟨n, s', h⟩ := Toy.s4_request
  obtain ⟨m, d, cdi, key, info, sig, sig', w, w1, w2, w3, w4, h0, _, _, h1, h2, h3, _, _, h4, _⟩ :=
    C45_request (c := .p256 (Toy.hd 4) 0 1 Toy.label)
      (s := { Toy.s4.sys with out := Toy.bigBuf }) Toy.s4.reach Toy.decent_cert rfl h
  have h1 : ((.ok Toy.keySig, w2) : Except CryptoErr Sig × Nat) = (.ok sig, w3) := h1
  have h2 : ((.ok Toy.aliasSig, w3) : Except CryptoErr Sig × Nat) = (.ok sig', w4) := h2
  injection h1 with h1 _
  injection h1 with h1
  injection h2 with h2 _
  injection h2 with h2
  subst h1 h2
  exact ⟨n, s', m, info, h, h0, h3, h4⟩

end Dpe
