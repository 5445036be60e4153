import Verif.Spec.Attest
import Verif.Spec.Rfc
import Verif.Spec.Reference
/-
Certification paths (RFC 5280, section 6): when one certificate certifies another, and when a CMS message is
signed by the holder of a certificate (RFC 5652, 5.3).  Stated on what a reader finds in certificates and
messages (Spec/Parse).
-/
namespace Dpe

/-- `x` certifies `y`: a step of the path validation of RFC 5280. -/
structure Certifies (V : Verifier) (x y : Cert) : Prop where
  /-- 6.1.3 (a)(1): the signature is good under the key of `x`. -/
  signed : V x.key (.buffer y.tbs) y.signature
  /-- 6.1.3 (a)(4): the issuer of `y` is the subject of `x`. -/
  name : y.issuer = x.subject
  /-- 4.2.1.1: the issuer's key is the key of `x`. -/
  keyId : ∀ k, skidOf x.exts = some k → akidOf y.exts = some k
  /-- 6.1.4 (k): `x` is the certificate of a CA. -/
  ca : isCa x.exts = some true
  /-- 6.1.4 (n): whose key may sign certificates. -/
  usage : ∃ l, keyUsages x.exts = some l ∧ 5 ∈ l
  /-- 6.1.5 (f): whoever knows RFC 5280 and the DICE extensions knows all critical extensions of `y`. -/
  understood : ∀ e ∈ y.exts, e.critical = true →
    e.oid ∈ [basicConstraintsId, keyUsageId, extKeyUsageId, multiTcbInfoId, ueidId]

/-- The message names the certificate `x` as its signer's, by issuer and serial number, and is signed with
the key of `x`. -/
structure SignedBy (V : Verifier) (x : Cert) (m : Message) : Prop where
  signer : m.signer = tlv 0x30 (x.issuer ++ tlv 0x02 x.serial)
  /-- RFC 5652, 5.3: version 1 goes with issuer and serial number. -/
  version : m.signerVersion = [1]
  signed : V x.key (.buffer m.content) m.signature

/-- The built-in certificate is `x`, a certificate for the alias key: the crate x509-cert reads from it what
the reader of Spec/Parse does; the serial number is not negative; the subject key identifier has 20
octets; the key is the alias key, and is a CA's that may sign certificates. -/
structure AliasCert (L : Lib) (p : Profile) (a : Artifact) (x : Cert) : Prop where
  cert : readCert a.chain = some x
  issuer : a.issuer = x.issuer
  serial : a.serial = x.serial
  keyId : skidOf x.exts = some a.keyId
  number : ∃ n, x.serial = intBody n
  size : a.keyId.length = 20
  key : Trusted L p x.key
  ca : isCa x.exts = some true
  usage : ∃ l, keyUsages x.exts = some l ∧ 5 ∈ l

end Dpe
