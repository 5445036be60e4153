import Verif.Spec.Issue
import Verif.Spec.Rules
/-
The ways in which issuing a certificate or certification request can fail: gathering the ingredients,
and signing and writing the tree.
-/
namespace Dpe
variable {cfg : Cfg} {σ : Type}

/-- Some cryptographic operation that gathers the ingredients of a certificate of this kind can fail
with `e`. -/
def CertCryptoFails (ops : Ops σ) (kind : CertKind) (e : CryptoErr) : Prop :=
  ∃ w, (ops.hasher w).1 = .error e ∨ (ops.hashInit w).1 = .error e ∨
    (∃ b, (ops.hashUpdate b w).1 = .error e) ∨ (ops.hashFinish w).1 = .error e ∨
    (kind ≠ .exportedX509 ∧ ((∃ d l, (ops.deriveCdi d l w).1 = .error e) ∨
      ∃ cdi l x, (ops.deriveKeyPair cdi l x w).1 = .error e)) ∨
    (kind = .exportedX509 ∧ ((∃ d l, (ops.deriveExportedCdi d l w).1 = .error e) ∨
      ∃ h l x, (ops.deriveKeyPairExported h l x w).1 = .error e)) ∨
    ∃ k, (ops.publicKey k w).1 = .error e

/-- Some platform operation that gathers the ingredients can fail with `e`.  A platform that does not
implement alternative names does no harm. -/
def CertPlatFails (ops : Ops σ) (e : PlatErr) : Prop :=
  ∃ w, (ops.vendorId w).1 = .error e ∨ (ops.vendorSku w).1 = .error e ∨
    (ops.issuerKeyId w).1 = .error e ∨
    ((ops.subjectAltName w).1 = .error e ∧ e ≠ .notImplemented) ∨
    (ops.certValidity w).1 = .error e ∨ (ops.signerId w).1 = .error e

/-- The ways in which gathering the ingredients can fail. -/
inductive DraftFault (cfg : Cfg) (ops : Ops σ) (kind : CertKind) : Err → Prop
  | crypto {e : CryptoErr} : CertCryptoFails ops kind e → DraftFault cfg ops kind (.crypto e)
  | platform {e : PlatErr} : CertPlatFails ops e → DraftFault cfg ops kind (.platform e)
  /-- Digests longer than 48 bytes have no room in the subject's name. -/
  | size : (48 < ops.digestSize ∨ ∃ w d w', ops.hashFinish w = (.ok d, w') ∧ 48 < d.length) →
      DraftFault cfg ops kind (.crypto .size)
  /-- The key is not of the kind that the crypto implementation claims to make. -/
  | kind {k : ops.Key} {w w' : σ} {pk : PubKey} : ops.publicKey k w = (.ok pk, w') →
      mldsaKey pk ≠ ops.sigAlgMldsa → DraftFault cfg ops kind (.crypto .mismatchedAlgorithm)
  /-- A digest too short for a key identifier. -/
  | short {w w' : σ} {d : Bytes} : ops.hashFinish w = (.ok d, w') → d.length < 20 →
      DraftFault cfg ops kind (.internal .keyIdHashTooSmall)
  | chunk {off len : U32} {ch : BArr 2048} {w w' : σ} :
      ops.certChain off 2048 w = (.ok (len, ch), w') → 2048 < len.toNat →
      DraftFault cfg ops kind (.internal .certChainChunkSliceOob)
  | endless {w : σ} : ChainGoes ops cfg.diceFuel 0 w → DraftFault cfg ops kind .panic

/-- The tree does not fit into `room` bytes, or is longer than any tree that the writer can write, which
leaves three octets for the longest lengths. -/
def Overflows (room : Nat) (t : Asn) (e : Err) : Prop :=
  (e = .internal .certSizeOverflow ∧ (room < t.written.length ∨ 65539 < t.written.length)) ∨
  (e = .x509InvalidWidth ∧ 65539 < t.written.length)

/-- The signed request around `info`. -/
def Draft.message (D : Draft) (a : CertArgs) (st : State cfg) (sig sig' : Sig) : Asn :=
  signedRequest cfg.profile (cmsVersionOf D.signer) (signerIdentifier' D.signer)
    (request cfg.profile (D.info a st) sig) sig'

/-- The ways in which signing and writing the tree into `room` bytes fails. -/
inductive IssueFails (ops : Ops σ) (a : CertArgs) (st : State cfg) (D : Draft) (room : Nat) :
    CertKind → σ → Err → Prop
  | issuer {kind : CertKind} {e : PlatErr} {w w' : σ} : kind ≠ .leafCsr →
      ops.issuerName w = (.error e, w') → IssueFails ops a st D room kind w (.platform e)
  | longIssuer {kind : CertKind} {n : Nat} {name : BArr 128} {w w' : σ} : kind ≠ .leafCsr →
      ops.issuerName w = (.ok (n, name), w') → 128 < n →
      IssueFails ops a st D room kind w (.internal .issuerNameTooLong)
  /-- No signature makes a certificate that fits. -/
  | tbs {kind : CertKind} {n : Nat} {name : BArr 128} {w w' : σ} {e : Err} : kind ≠ .leafCsr →
      ops.issuerName w = (.ok (n, name), w') →
      (∀ sig, Overflows room
        (certificate cfg.profile (D.tbs kind a st (name.toList.take n)) sig) e) →
      IssueFails ops a st D room kind w e
  | signTbs {kind : CertKind} {n : Nat} {name : BArr 128} {w w1 w' : σ} {e : CryptoErr} :
      kind ≠ .leafCsr → ops.issuerName w = (.ok (n, name), w1) →
      ops.signAlias (.buffer (D.tbs kind a st (name.toList.take n)).written) w1 = (.error e, w') →
      IssueFails ops a st D room kind w (.crypto e)
  | certificate {kind : CertKind} {n : Nat} {name : BArr 128} {sig : Sig} {w w1 w' : σ} {e : Err} :
      kind ≠ .leafCsr → ops.issuerName w = (.ok (n, name), w1) →
      ops.signAlias (.buffer (D.tbs kind a st (name.toList.take n)).written) w1 = (.ok sig, w') →
      Overflows room (certificate cfg.profile (D.tbs kind a st (name.toList.take n)) sig) e →
      IssueFails ops a st D room kind w e
  /-- No signatures make a message that fits. -/
  | info {w : σ} {e : Err} : (∀ sig sig', Overflows room (D.message a st sig sig') e) →
      IssueFails ops a st D room .leafCsr w e
  | cdi {w w' : σ} {e : CryptoErr} : ops.deriveCdi D.digest a.cdiLabel w = (.error e, w') →
      IssueFails ops a st D room .leafCsr w (.crypto e)
  | key {cdi : ops.Cdi} {w w1 w' : σ} {e : CryptoErr} :
      ops.deriveCdi D.digest a.cdiLabel w = (.ok cdi, w1) →
      ops.deriveKeyPair cdi a.keyLabel a.context w1 = (.error e, w') →
      IssueFails ops a st D room .leafCsr w (.crypto e)
  | signInfo {cdi : ops.Cdi} {key : ops.Key} {w w1 w2 w' : σ} {e : CryptoErr} :
      ops.deriveCdi D.digest a.cdiLabel w = (.ok cdi, w1) →
      ops.deriveKeyPair cdi a.keyLabel a.context w1 = (.ok key, w2) →
      ops.sign key (.buffer (D.info a st).written) w2 = (.error e, w') →
      IssueFails ops a st D room .leafCsr w (.crypto e)
  /-- No second signature makes a message that fits. -/
  | request {cdi : ops.Cdi} {key : ops.Key} {w w1 w2 w' : σ} {sig : Sig} {e : Err} :
      ops.deriveCdi D.digest a.cdiLabel w = (.ok cdi, w1) →
      ops.deriveKeyPair cdi a.keyLabel a.context w1 = (.ok key, w2) →
      ops.sign key (.buffer (D.info a st).written) w2 = (.ok sig, w') →
      (∀ sig', Overflows room (D.message a st sig sig') e) →
      IssueFails ops a st D room .leafCsr w e
  | signRequest {cdi : ops.Cdi} {key : ops.Key} {w w1 w2 w3 w' : σ} {sig : Sig} {e : CryptoErr} :
      ops.deriveCdi D.digest a.cdiLabel w = (.ok cdi, w1) →
      ops.deriveKeyPair cdi a.keyLabel a.context w1 = (.ok key, w2) →
      ops.sign key (.buffer (D.info a st).written) w2 = (.ok sig, w3) →
      ops.signAlias (.buffer (Dpe.request cfg.profile (D.info a st) sig).written) w3 =
        (.error e, w') →
      IssueFails ops a st D room .leafCsr w (.crypto e)
  | message {cdi : ops.Cdi} {key : ops.Key} {w w1 w2 w3 w' : σ} {sig sig' : Sig} {e : Err} :
      ops.deriveCdi D.digest a.cdiLabel w = (.ok cdi, w1) →
      ops.deriveKeyPair cdi a.keyLabel a.context w1 = (.ok key, w2) →
      ops.sign key (.buffer (D.info a st).written) w2 = (.ok sig, w3) →
      ops.signAlias (.buffer (Dpe.request cfg.profile (D.info a st) sig).written) w3 =
        (.ok sig', w') →
      Overflows room (D.message a st sig sig') e →
      IssueFails ops a st D room .leafCsr w e

/-- The ways in which a command that produces a certificate or request fails in doing so. -/
def CertFault (ops : Ops σ) (s : Sys cfg σ) (c : Cmd cfg) (e : Err) : Prop :=
  ∃ kind, c.issues kind ∧ (DraftFault cfg ops kind e ∨
    ∃ a w D w1, Drafted ops kind a s.st w D w1 ∧
      IssueFails ops a s.st D (s.out.length - c.replyMax) kind w1 e)

/-- The ways in which the crypto implementation, the platform or the caller's buffer make an allowed
command fail, when certificates are made by the modelled generator. -/
inductive Fault (ops : Ops σ) (s : Sys cfg σ) (c : Cmd cfg) : Err → Prop
  | crypto {e : CryptoErr} : CryptoFails ops c e → Fault ops s c (.crypto e)
  | platform {e : PlatErr} : PlatFails ops c e → Fault ops s c (.platform e)
  | stuck : c.draws → RngStuck ops s.st → Fault ops s c (.internal .handleGenerationExhausted)
  | digest {w w' : σ} {d : Bytes} : c.measures → ops.hashFinish w = (.ok d, w') →
      d.length ≠ cfg.tciSize → Fault ops s c (.internal .digestLengthMismatch)
  | chunk {off len : U32} {ch : BArr 2048} {w w' : σ} : c.signs →
      ops.certChain off 2048 w = (.ok (len, ch), w') → 2048 < len.toNat →
      Fault ops s c (.internal .certChainChunkSliceOob)
  | endless {w : σ} : c.signs → ChainGoes ops cfg.diceFuel 0 w → Fault ops s c .panic
  | ueid {k : DeriveCmd cfg} {w w' : σ} {b : BArr 48} {n : U32} : c = .derive k →
      Bit k.flags DFlag.exportCdi → ops.ueid w = (.ok (b, n), w') → 48 < n.toNat →
      Fault ops s c (.platform .invalidUeidError)
  | cert {e : Err} : CertFault ops s c e → Fault ops s c e
  /-- The buffer is too small for the fixed part of the reply. -/
  | buffer : s.out.length < c.replyMax → Fault ops s c .invalidResponseBuf
  /-- The certified key is of another kind than the command. -/
  | wrongKey {k : CertifyCmd} {kind : CertKind} {a : CertArgs} {w w' : σ} {D : Draft} :
      c = .certify k → Drafted ops kind a s.st w D w' → D.key.kind ≠ k.variant →
      Fault ops s c .invalidArgument

end Dpe
