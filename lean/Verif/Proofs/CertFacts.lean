import Verif.Proofs.CertIssued
/-
Everything there is to say about an issued certificate or request, in one place.
-/
namespace Dpe
variable {cfg : Cfg} {σ : Type} {ops : Ops σ} {a : CertArgs} {st : State cfg} {D : Draft}
  {kind : CertKind} {w w' : σ} {t : Asn}

/-! ### Where the extensions are -/

theorem infix_mid {b : UInt8} {x y z t : Bytes} : t <:+: b :: (x ++ (y ++ (t ++ z))) :=
  ⟨b :: (x ++ y), z, by simp only [List.append_assoc, List.cons_append]⟩

theorem infix_outer {tag : UInt8} {pre post : List Asn} {t : Asn} :
    t.written <:+: (Asn.outer tag (pre ++ t :: post)).written := by
  rw [Asn.written, Asn.writtens_append, Asn.writtens, tlv]
  exact infix_mid

theorem infix_node {tag : UInt8} {l : Bytes} {pre post : List Asn} {t : Asn} :
    t.written <:+: (Asn.node tag l (pre ++ t :: post)).written := by
  rw [Asn.written, Asn.writtens_append, Asn.writtens, ← List.append_assoc l]
  exact infix_mid

theorem exts_infix {p : Profile} {A : Attested cfg} {cert : Bool} :
    Asn.ders (A.chain.map (tcbInfo p A.recursive)) ++ Asn.ders (otherExtensions A cert) <:+:
      (extensions p A cert).written := by
  have h1 : Asn.writtens (A.chain.map (tcbInfo p A.recursive)) =
      Asn.ders (A.chain.map (tcbInfo p A.recursive)) := by
    refine (Asn.evens_written _ (Asn.Evens.of_forall fun t ht => ?_)).2
    obtain ⟨x, _, rfl⟩ := List.mem_map.1 ht
    exact Asn.plain_even _ (plain_tcbInfo _ _ _)
  have h2 : Asn.writtens (otherExtensions A cert) = Asn.ders (otherExtensions A cert) :=
    (Asn.evens_written _ (Asn.Evens.of_forall fun t ht =>
      Asn.plain_even _ (plain_other A cert t ht))).2
  have h3 : Asn.ders (A.chain.map (tcbInfo p A.recursive)) <:+
      (extension idMultiTcbInfo A.critical (multiTcbInfo p A)).written := by
    rw [extension, seqOf, Asn.written, Asn.writtens, Asn.writtens_append]
    simp only [Asn.writtens, octetsOf, Asn.written, multiTcbInfo, h1, List.append_nil,
      List.nil_append]
    refine List.IsSuffix.trans ?_ (List.suffix_cons _ _)
    refine List.IsSuffix.trans ?_ (List.suffix_append _ _)
    refine List.IsSuffix.trans ?_ (List.suffix_append _ _)
    refine List.IsSuffix.trans ?_ (List.suffix_append _ _)
    refine List.IsSuffix.trans ?_ (List.suffix_cons _ _)
    refine List.IsSuffix.trans ?_ (List.suffix_append _ _)
    refine List.IsSuffix.trans ?_ (List.suffix_cons _ _)
    exact List.suffix_append _ _
  obtain ⟨y, h3⟩ := h3
  rw [extensions, seqOf, Asn.written, Asn.writtens, h2, ← h3, List.nil_append, List.append_assoc]
  have := fun x => infix_mid (b := 0x30) (x := x) (z := []) (y := y)
    (t := Asn.ders (A.chain.map (tcbInfo p A.recursive)) ++ Asn.ders (otherExtensions A cert))
  simp only [List.append_nil] at this
  exact this _

theorem cert_exts_infix {p : Profile} {serial issuer : Bytes} {v : Validity} {s : Subject cfg}
    {sig : Sig} : (extensions p s.attested true).written <:+:
      (certificate p (tbsCertificate p serial issuer v s) sig).written := by
  refine List.IsInfix.trans ?_ (infix_outer (pre := []))
  refine List.IsInfix.trans ?_ (infix_outer (pre := [tagged 0 [asnInt 2], asnInt (beValue serial),
    sigAlgorithm p, .raw issuer, validityOf v, nameOf s.cn s.serialName, keyInfo p s.key]) (post := []))
  exact infix_node (pre := []) (post := [])

theorem request_exts_infix {p : Profile} {s : Subject cfg} {sig : Sig} :
    (extensions p s.attested false).written <:+: (request p (requestInfo p s) sig).written := by
  refine List.IsInfix.trans ?_ (infix_outer (pre := []))
  refine List.IsInfix.trans ?_ (infix_outer (pre := [asnInt 0, nameOf s.cn s.serialName,
    keyInfo p s.key]) (post := []))
  refine List.IsInfix.trans ?_ (infix_node (pre := []) (post := []))
  refine List.IsInfix.trans ?_ (infix_node (pre := [idExtensionRequest]) (post := []))
  exact infix_node (pre := []) (post := [])

theorem signed_written {p : Profile} {t : Asn} {sig : Sig} :
    (certificate p t sig).written =
      tlv 0x30 (t.written ++ (sigAlgorithm p).der ++ (sigBits sig).der) := by
  rw [certificate, Asn.written]
  simp only [Asn.writtens]
  rw [(Asn.even_written _ (Asn.plain_even _ (plain_sigAlgorithm p))).2,
    (Asn.even_written _ (Asn.plain_even _ (plain_sigBits sig))).2]
  simp only [List.append_nil, List.append_assoc]


/-! ### All about an issued certificate -/

theorem subject_chain (k : CertKind) : (D.subject k a st).attested.chain = chainOf st D.path := rfl

theorem cert_facts (h : Issued ops a st D kind w t w') (hp : D.path.length ≤ 64)
    (hk : kind ≠ .leafCsr) (hn : IssuerNamed ops) (hl : t.written.length ≤ 65539) :
    ∃ issuer sig w1, IssuerGiven ops w issuer w1 ∧
      ops.signAlias (.buffer (D.tbs kind a st issuer).written) w1 = (.ok sig, w') ∧
      t = certificate cfg.profile (D.tbs kind a st issuer) sig ∧
      (Regular cfg.profile (D.subject kind a st).attested → WellFormed t.written) ∧
      ((readCert t.written).isSome = true ↔ Regular cfg.profile (D.subject kind a st).attested) ∧
      ∀ x, readCert t.written = some x →
        x = certFields cfg.profile ((serialText D.nameHash).take 20) issuer D.validity
          (D.subject kind a st) sig ∧
        (D.tbs kind a st issuer).written = (D.tbs kind a st issuer).der ∧
        (extensions cfg.profile (D.subject kind a st).attested true).der.length < Big := by
  have hd := h.der_iff hp (by omega)
  obtain ⟨n, name, x, sig, w1, h1, h2, h3, h4, h5, h6⟩ := h.certificate_inv hk hn
  have hc : (D.subject kind a st).attested.chain.length ≤ 64 := by
    simpa [subject_chain, chainOf] using hp
  have hl' := hl
  rw [h6] at hl'
  obtain ⟨c1, c2⟩ := readCert_cases (p := cfg.profile) hc hl'
  refine ⟨tlv 0x30 x, sig, w1, ⟨n, name, h1, h2, h3.symm⟩, h5, h6, ?_, ?_, ?_⟩
  · intro hr
    rw [hd.2 hr]
    refine Asn.proper_wellFormed _ ?_ ?_
    · rw [h6]
      refine proper_signed (proper_tbs ?_)
      rw [← h3]; exact h4
    · rw [← hd.2 hr]; omega
  · rw [h6]
    constructor
    · intro hs
      obtain ⟨y, hy⟩ := Option.isSome_iff_exists.1 hs
      exact c2 y hy
    · intro hr
      exact Option.isSome_iff_exists.2 ⟨_, (c1 hr).1⟩
  · intro y hy
    rw [h6] at hy
    obtain ⟨e1, e2, e3⟩ := c1 (c2 y hy)
    refine ⟨?_, e2, e3⟩
    have := hy.symm.trans e1
    injection this

theorem request_facts (h : Issued ops a st D .leafCsr w t w') (hp : D.path.length ≤ 64)
    (hn : D.signer.Named) (hl : t.written.length ≤ 65539) :
    ∃ cdi key sig sig' w1 w2 w3, ops.deriveCdi D.digest a.cdiLabel w = (.ok cdi, w1) ∧
      ops.deriveKeyPair cdi a.keyLabel a.context w1 = (.ok key, w2) ∧
      ops.sign key (.buffer (D.info a st).written) w2 = (.ok sig, w3) ∧
      ops.signAlias (.buffer (request cfg.profile (D.info a st) sig).written) w3 = (.ok sig', w') ∧
      t = signedRequest cfg.profile (cmsVersionOf D.signer) (signerIdentifier' D.signer)
        (request cfg.profile (D.info a st) sig) sig' ∧
      WellFormed t.written ∧
      readMessage t.written = some (messageFields cfg.profile D.signer
        (request cfg.profile (D.info a st) sig).written sig') ∧
      (Regular cfg.profile (D.subject .leafCsr a st).attested →
        WellFormed (request cfg.profile (D.info a st) sig).written) ∧
      ((readRequest (request cfg.profile (D.info a st) sig).written).isSome = true ↔
        Regular cfg.profile (D.subject .leafCsr a st).attested) ∧
      ∀ x, readRequest (request cfg.profile (D.info a st) sig).written = some x →
        x = requestFields cfg.profile (D.subject .leafCsr a st) sig ∧
        (D.info a st).written = (D.info a st).der ∧
        (extensions cfg.profile (D.subject .leafCsr a st).attested false).der.length < Big := by
  have hc : (D.subject .leafCsr a st).attested.chain.length ≤ 64 := by
    simpa [subject_chain, chainOf] using hp
  cases h with
  | certificate h => exact absurd rfl h
  | @request cdi key sig sig' _ w1 w2 w3 _ h1 h2 h3 h4 =>
    obtain ⟨m1, m2⟩ := readMessage_cases (s := D.subject .leafCsr a st) hl
    obtain ⟨c1, c2⟩ := readRequest_cases (p := cfg.profile) hc m2
    refine ⟨cdi, key, sig, sig', w1, w2, w3, h1, h2, h3, h4, rfl, ?_, m1, ?_, ?_, ?_⟩
    · rw [← cmsOf_eq] at hl ⊢
      rw [cms_written] at hl ⊢
      exact Asn.proper_wellFormed _ (proper_cms hn) (by omega)
    · intro hr
      have ht := inherits_even.info (p := cfg.profile) (s := D.subject .leafCsr a st)
        (even_multiTcb hr)
      have he := (Asn.even_written _ (inherits_even.signed (p := cfg.profile) (sig := sig) ht)).2
      have m3 := m2
      rw [show (request cfg.profile (requestInfo cfg.profile (D.subject .leafCsr a st)) sig).written =
        (request cfg.profile (requestInfo cfg.profile (D.subject .leafCsr a st)) sig).der from he] at m3
      rw [show (request cfg.profile (D.info a st) sig).written =
        (request cfg.profile (requestInfo cfg.profile (D.subject .leafCsr a st)) sig).der from he]
      exact Asn.proper_wellFormed _ (proper_signed proper_info) (by omega)
    · constructor
      · intro hs
        obtain ⟨y, hy⟩ := Option.isSome_iff_exists.1 hs
        exact c2 y hy
      · intro hr
        exact Option.isSome_iff_exists.2 ⟨_, (c1 hr).1⟩
    · intro y hy
      obtain ⟨e1, e2, e3⟩ := c1 (c2 y hy)
      refine ⟨?_, e2, e3⟩
      have := hy.symm.trans e1
      injection this

end Dpe
