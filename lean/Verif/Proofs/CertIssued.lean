import Verif.Proofs.CertRead
import Verif.Proofs.CertExec
/-
What can be read from issued certificates and requests.
-/
namespace Dpe
variable {cfg : Cfg} {σ : Type} {ops : Ops σ} {a : CertArgs} {st : State cfg} {D : Draft}
  {kind : CertKind} {w w' : σ} {t : Asn}

theorem Drafted.path (h : Drafted ops kind a st w D w') : Path st D.slot D.path := by
  obtain ⟨_, _, _, _, _, _, _, _, _, _, h, _⟩ := h
  exact h

theorem Drafted.path_le (hf : Forest st) (h : Drafted ops kind a st w D w') :
    D.path.length ≤ 64 := by
  have := (h.path).length_le
  have := cfg.le64
  omega

/-- The certificate as issued, with a well-formed issuer name. -/
theorem Issued.certificate_inv (h : Issued ops a st D kind w t w') (hk : kind ≠ .leafCsr)
    (hn : IssuerNamed ops) : ∃ n name x sig w1, ops.issuerName w = (.ok (n, name), w1) ∧ n ≤ 128 ∧
      name.toList.take n = tlv 0x30 x ∧ WellFormed (name.toList.take n) ∧
      ops.signAlias (.buffer (D.tbs kind a st (tlv 0x30 x)).written) w1 = (.ok sig, w') ∧
      t = Dpe.certificate cfg.profile (D.tbs kind a st (tlv 0x30 x)) sig := by
  cases h with
  | @certificate _ n name sig _ w1 _ h1 h2 h3 h4 =>
    obtain ⟨x, hx, hw⟩ := hn _ _ _ _ h2 h3
    refine ⟨n, name, x, sig, w1, h2, h3, hx, hw, ?_, ?_⟩
    · rw [← hx]; exact h4
    · rw [← hx]
  | request => exact absurd rfl hk

/-- What the reader finds in an issued certificate. -/
theorem readCert_cases {serial x : Bytes} {v : Validity} {s : Subject cfg} {sig : Sig} {p : Profile}
    (hc : s.attested.chain.length ≤ 64)
    (hl : (certificate p (tbsCertificate p serial (tlv 0x30 x) v s) sig).written.length ≤ 65539) :
    (Regular p s.attested → readCert (certificate p (tbsCertificate p serial (tlv 0x30 x) v s)
        sig).written = some (certFields p serial (tlv 0x30 x) v s sig) ∧
      (tbsCertificate p serial (tlv 0x30 x) v s).written =
        (tbsCertificate p serial (tlv 0x30 x) v s).der ∧
      (extensions p s.attested true).der.length < Big) ∧
    (∀ c, readCert (certificate p (tbsCertificate p serial (tlv 0x30 x) v s) sig).written = some c →
      Regular p s.attested) := by
  refine ⟨fun h => ?_, fun c h => readCert_regular hc (by omega) h⟩
  have ht := inherits_even.tbs (p := p) (sn := serial) (iss := tlv 0x30 x) (v := v) (s := s)
    (even_multiTcb h)
  have he := (Asn.even_written _ (inherits_even.signed (p := p) (sig := sig) ht)).2
  have hd : (certificate p (tbsCertificate p serial (tlv 0x30 x) v s) sig).der.length < Big := by
    have : (certificate p (tbsCertificate p serial (tlv 0x30 x) v s) sig).der.length ≤ 65539 := by
      rw [show (certificate p (tbsCertificate p serial (tlv 0x30 x) v s) sig).der =
        (certificate p (tbsCertificate p serial (tlv 0x30 x) v s) sig).written from he.symm]
      exact hl
    exact Nat.lt_of_le_of_lt this (by decide)
  refine ⟨?_, (Asn.even_written _ ht).2, ?_⟩
  · rw [show (certificate p (tbsCertificate p serial (tlv 0x30 x) v s) sig).written =
        (certificate p (tbsCertificate p serial (tlv 0x30 x) v s) sig).der from he]
    exact readCert_of hd
  · have h1 : (tbsCertificate p serial (tlv 0x30 x) v s).der.length < Big :=
      part_lt (by simp) (ders_lt' (ps := [tbsCertificate p serial (tlv 0x30 x) v s, sigAlgorithm p,
        sigBits sig]) hd)
    have h2 : (tagged 3 [extensions p s.attested true]).der.length < Big :=
      part_lt (by simp [tbsParts]) (ders_lt' (ps := tbsParts p serial (tlv 0x30 x) v s) h1)
    exact part_lt (by simp) (ders_lt h2)

/-- What the reader finds in an issued request. -/
theorem readRequest_cases {s : Subject cfg} {sig : Sig} {p : Profile}
    (hc : s.attested.chain.length ≤ 64)
    (hl : (request p (requestInfo p s) sig).written.length ≤ 65539) :
    (Regular p s.attested → readRequest (request p (requestInfo p s) sig).written =
        some (requestFields p s sig) ∧ (requestInfo p s).written = (requestInfo p s).der ∧
      (extensions p s.attested false).der.length < Big) ∧
    (∀ c, readRequest (request p (requestInfo p s) sig).written = some c →
      Regular p s.attested) := by
  refine ⟨fun h => ?_, fun c h => readRequest_regular hc (by omega) h⟩
  have ht := inherits_even.info (p := p) (s := s) (even_multiTcb h)
  have he := (Asn.even_written _ (inherits_even.signed (p := p) (sig := sig) ht)).2
  have hd : (request p (requestInfo p s) sig).der.length < Big := by
    have : (request p (requestInfo p s) sig).der.length ≤ 65539 := by
      rw [show (request p (requestInfo p s) sig).der =
        (request p (requestInfo p s) sig).written from he.symm]
      exact hl
    exact Nat.lt_of_le_of_lt this (by decide)
  refine ⟨?_, (Asn.even_written _ ht).2, ?_⟩
  · rw [show (request p (requestInfo p s) sig).written =
        (request p (requestInfo p s) sig).der from he]
    exact readRequest_of hd
  · have h1 : (requestInfo p s).der.length < Big :=
      part_lt (by simp) (ders_lt' (ps := [requestInfo p s, sigAlgorithm p, sigBits sig]) hd)
    have h2 : (tagged 0 [extRequest p s]).der.length < Big :=
      part_lt (by simp [criParts, attributes, extRequest]) (ders_lt' (ps := criParts p s) h1)
    have h3 : (extRequest p s).der.length < Big := part_lt (by simp) (ders_lt h2)
    have h4 : (setOf [extensions p s.attested false]).der.length < Big :=
      part_lt (by simp) (ders_lt h3)
    exact part_lt (by simp) (ders_lt h4)

/-- The message around a request can always be read. -/
theorem readMessage_cases {s : Subject cfg} {sig sig' : Sig} {p : Profile} {sid : SignerId}
    (hl : (signedRequest p (cmsVersionOf sid) (signerIdentifier' sid)
      (request p (requestInfo p s) sig) sig').written.length ≤ 65539) :
    readMessage (signedRequest p (cmsVersionOf sid) (signerIdentifier' sid)
      (request p (requestInfo p s) sig) sig').written =
      some (messageFields p sid (request p (requestInfo p s) sig).written sig') ∧
    (request p (requestInfo p s) sig).written.length ≤ 65539 := by
  rw [← cmsOf_eq] at hl ⊢
  refine ⟨?_, Nat.le_trans cms_spine.2 hl⟩
  rw [cms_written] at hl ⊢
  exact readMessage_of (Nat.lt_of_le_of_lt hl (by decide))

theorem keyFields_length {c : CertifyCmd} {k : PubKey} (h : c.wants k) :
    (keyFields k).length = c.keyBytes := by
  cases c <;> cases k <;> simp [CertifyCmd.wants] at h <;> simp [keyFields, CertifyCmd.keyBytes]

theorem certIn_reply {c : CertifyCmd} {p : Profile} {hd : Handle} {key : PubKey} {cert rest : Bytes}
    (h : c.wants key) :
    certIn c (certifyReply p hd key cert ++ rest) (certifyReply p hd key cert).length = cert := by
  have h1 : (successBytes p ++ hd.toList ++ keyFields key ++
      word (BitVec.ofNat 32 cert.length)).length = 32 + c.keyBytes := by
    have : (successBytes p).length = 12 := rfl
    simp [keyFields_length h, le32, this]; omega
  unfold certIn certifyReply
  rw [List.take_left, ← h1, List.drop_left]

theorem exportedCertIn_reply {p : Profile} {hd : Handle} {cdi : BArr 32} {cert rest : Bytes} :
    exportedCertIn (exportReply p hd cdi cert ++ rest) (exportReply p hd cdi cert).length = cert := by
  have h1 : (successBytes p ++ List.replicate 16 0xFF ++ hd.toList ++ cdi.toList ++
      word (BitVec.ofNat 32 cert.length)).length = 80 := by
    have : (successBytes p).length = 12 := rfl
    simp [le32, this]
  unfold exportedCertIn exportReply
  rw [List.take_left, ← h1, List.drop_left]

end Dpe
