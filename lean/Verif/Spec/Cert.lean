import Verif.Spec.Words
import Verif.Spec.Der
import Verif.Model.Env
import Verif.Model.Resp
/-
The structure of the certificates and certification requests that DPE issues, as trees:
RFC 5280 (certificates), RFC 2986 (requests), RFC 5652 (CMS), RFC 5480/3279 (keys, ECDSA
signatures) and the TCG DICE Attestation Architecture (TcbInfo, Ueid).
-/
namespace Dpe
variable {cfg : Cfg}

/-! ### Universal types -/

/-- SEQUENCE. -/
def seqOf (parts : List Asn) : Asn := .node 0x30 [] parts
/-- SET OF. -/
def setOf (parts : List Asn) : Asn := .node 0x31 [] parts
/-- INTEGER `n ≥ 0`. -/
def asnInt (n : Nat) : Asn := .prim 0x02 (intBody n)
/-- BOOLEAN TRUE. -/
def asnTrue : Asn := .prim 0x01 [0xFF]
/-- OBJECT IDENTIFIER with the given contents octets. -/
def oidOf (body : Bytes) : Asn := .prim 0x06 body
/-- OCTET STRING. -/
def octets (bs : Bytes) : Asn := .prim 0x04 bs
/-- OCTET STRING holding encoded values. -/
def octetsOf (parts : List Asn) : Asn := .node 0x04 [] parts
/-- BIT STRING of whole octets. -/
def bits (bs : Bytes) : Asn := .prim 0x03 (0 :: bs)
/-- BIT STRING of whole octets holding encoded values. -/
def bitsOf (parts : List Asn) : Asn := .node 0x03 [0] parts
/-- `[n] IMPLICIT` on a primitive type. -/
def implicit (n : UInt8) (body : Bytes) : Asn := .prim (0x80 ||| n) body
/-- `[n]` on a constructed type, or `[n] EXPLICIT`. -/
def tagged (n : UInt8) (parts : List Asn) : Asn := .node (0xA0 ||| n) [] parts

/-! ### Object identifiers -/

def idEcPublicKey : Asn := oidOf (oidBody [1, 2, 840, 10045, 2, 1])
def idPrime256v1 : Asn := oidOf (oidBody [1, 2, 840, 10045, 3, 1, 7])
def idSecp384r1 : Asn := oidOf (oidBody [1, 3, 132, 0, 34])
def idEcdsaSha256 : Asn := oidOf (oidBody [1, 2, 840, 10045, 4, 3, 2])
def idEcdsaSha384 : Asn := oidOf (oidBody [1, 2, 840, 10045, 4, 3, 3])
def idMldsa87 : Asn := oidOf (oidBody [2, 16, 840, 1, 101, 3, 4, 3, 19])
def idSha256 : Asn := oidOf (oidBody [2, 16, 840, 1, 101, 3, 4, 2, 1])
def idSha384 : Asn := oidOf (oidBody [2, 16, 840, 1, 101, 3, 4, 2, 2])
def idCommonName : Asn := oidOf (oidBody [2, 5, 4, 3])
def idSerialNumber : Asn := oidOf (oidBody [2, 5, 4, 5])
def idMultiTcbInfo : Asn := oidOf (oidBody [2, 23, 133, 5, 4, 5])
def idUeid : Asn := oidOf (oidBody [2, 23, 133, 5, 4, 4])
def idEca : Asn := oidOf (oidBody [2, 23, 133, 5, 4, 100, 12])
def idAttestLoc : Asn := oidOf (oidBody [2, 23, 133, 5, 4, 100, 9])
def idBasicConstraints : Asn := oidOf (oidBody [2, 5, 29, 19])
def idKeyUsage : Asn := oidOf (oidBody [2, 5, 29, 15])
def idExtKeyUsage : Asn := oidOf (oidBody [2, 5, 29, 37])
def idSubjectKeyId : Asn := oidOf (oidBody [2, 5, 29, 14])
def idAuthorityKeyId : Asn := oidOf (oidBody [2, 5, 29, 35])
def idSubjectAltName : Asn := oidOf (oidBody [2, 5, 29, 17])
def idSignedData : Asn := oidOf (oidBody [1, 2, 840, 113549, 1, 7, 2])
def idData : Asn := oidOf (oidBody [1, 2, 840, 113549, 1, 7, 1])
def idExtensionRequest : Asn := oidOf (oidBody [1, 2, 840, 113549, 1, 9, 14])

/-! ### Algorithms, keys, signatures -/

/-- The signature AlgorithmIdentifier of the profile. -/
def sigAlgorithm : Profile → Asn
  | .p256 => seqOf [idEcdsaSha256]
  | .p384 => seqOf [idEcdsaSha384]
  | .mldsa87 => seqOf [idMldsa87]

/-- The hash algorithm of the profile. -/
def hashId : Profile → Asn
  | .p256 => idSha256
  | .p384 => idSha384
  | .mldsa87 => idSha384

/-- The hash AlgorithmIdentifier of the profile. -/
def hashAlgorithm (p : Profile) : Asn := seqOf [hashId p]

/-- The public key AlgorithmIdentifier of the profile. -/
def keyAlgorithm : Profile → Asn
  | .p256 => seqOf [idEcPublicKey, idPrime256v1]
  | .p384 => seqOf [idEcPublicKey, idSecp384r1]
  | .mldsa87 => seqOf [idMldsa87]

/-- The public key octets: an uncompressed point, or the ML-DSA key. -/
def keyOctets : PubKey → Bytes
  | .p256 x y => 0x04 :: (x.toList ++ y.toList)
  | .p384 x y => 0x04 :: (x.toList ++ y.toList)
  | .mldsa k => k.toList

/-- SubjectPublicKeyInfo. -/
def keyInfo (p : Profile) (k : PubKey) : Asn := seqOf [keyAlgorithm p, bits (keyOctets k)]

/-- ECDSA-Sig-Value. -/
def ecdsaSig (r s : Bytes) : Asn := seqOf [asnInt (beValue r), asnInt (beValue s)]

/-- The signature as a BIT STRING. -/
def sigBits : Sig → Asn
  | .p256 r s => bitsOf [ecdsaSig r.toList s.toList]
  | .p384 r s => bitsOf [ecdsaSig r.toList s.toList]
  | .mldsa s => bits s.toList

/-- The signature as an OCTET STRING. -/
def sigOctets : Sig → Asn
  | .p256 r s => octetsOf [ecdsaSig r.toList s.toList]
  | .p384 r s => octetsOf [ecdsaSig r.toList s.toList]
  | .mldsa s => octets s.toList

/-! ### Names and validity -/

/-- A Name with a commonName and a serialNumber, both PrintableString. -/
def nameOf (cn serial : Bytes) : Asn :=
  seqOf [setOf [seqOf [idCommonName, .prim 0x13 cn]],
         setOf [seqOf [idSerialNumber, .prim 0x13 serial]]]

/-- Validity, two GeneralizedTimes. -/
def validityOf (v : Validity) : Asn := seqOf [.prim 0x18 v.notBefore, .prim 0x18 v.notAfter]

/-! ### Extensions -/

/-- Everything in a certificate or request except keys, names and signatures.  `chain` is the
ancestry of the context, root first. -/
structure Attested (cfg : Cfg) where
  chain : List (Tci cfg)
  label : Bytes
  ca : Bool
  recursive : Bool
  critical : Bool
  subjectKeyId : Bytes
  authorityKeyId : Bytes
  altName : Option OtherName

/-- Extension: identifier, critical (if so), and the value in an OCTET STRING. -/
def extension (id : Asn) (critical : Bool) (value : Asn) : Asn :=
  seqOf (id :: ((if critical then [asnTrue] else []) ++ [octetsOf [value]]))

/-- FWID. -/
def fwid (p : Profile) (digest : Bytes) : Asn := seqOf [hashId p, octets digest]

/-- DiceTcbInfo: svn, fwids (the current TCI), vendorInfo (the locality), type, and with recursive
measurements integrityRegisters (register 0: the cumulative TCI). -/
def tcbInfo (p : Profile) (recursive : Bool) (t : Tci cfg) : Asn :=
  seqOf ([implicit 3 (intBody t.svn.toNat), tagged 6 [fwid p t.current.toList],
    implicit 8 (word t.locality).reverse, implicit 9 (word t.tciType)] ++
    (if recursive then
      [tagged 11 [seqOf [implicit 1 (intBody 0), tagged 2 [fwid p t.cumulative.toList]]]] else []))

/-- MultiTcbInfo: the ancestry, root first. -/
def multiTcbInfo (p : Profile) (a : Attested cfg) : Asn :=
  .list 0x30 (a.chain.map (tcbInfo p a.recursive))

/-- The TcbInfos are together as long as if all were as long as the first. -/
def Regular (p : Profile) (a : Attested cfg) : Prop :=
  (Asn.ders (a.chain.map (tcbInfo p a.recursive))).length =
    a.chain.length * ((a.chain.map (tcbInfo p a.recursive)).headD (.raw [])).der.length

/-- All SVNs have equally long INTEGER encodings. -/
def SvnsAlike (chain : List (Tci cfg)) : Prop :=
  ∀ t ∈ chain, ∀ u ∈ chain, (intBody t.svn.toNat).length = (intBody u.svn.toNat).length

/-- BasicConstraints; cA is FALSE by default. -/
def basicConstraints (ca : Bool) : Asn := seqOf (if ca then [asnTrue] else [])

/-- KeyUsage: digitalSignature (bit 0), for a CA also keyCertSign (bit 5). -/
def keyUsage (ca : Bool) : Asn := .prim 0x03 (if ca then [2, 0b10000100] else [7, 0b10000000])

/-- ExtKeyUsage. -/
def extKeyUsage (ca : Bool) : Asn := seqOf [if ca then idEca else idAttestLoc]

/-- GeneralNames with one otherName whose value is a UTF8String. -/
def altNames (o : OtherName) : Asn :=
  seqOf [tagged 0 [oidOf o.oid, tagged 0 [.prim 0x0C o.name]]]

/-- The extensions after MultiTcbInfo.  `cert` tells a certificate from a request: a request has no
key identifiers, and only CA certificates have a subject key identifier. -/
def otherExtensions (a : Attested cfg) (cert : Bool) : List Asn :=
  [extension idUeid a.critical (seqOf [octets a.label]),
   extension idBasicConstraints true (basicConstraints a.ca),
   extension idKeyUsage true (keyUsage a.ca),
   extension idExtKeyUsage true (extKeyUsage a.ca)] ++
  (if a.ca && cert then [extension idSubjectKeyId false (octets a.subjectKeyId)] else []) ++
  (if cert then [extension idAuthorityKeyId false (seqOf [implicit 0 a.authorityKeyId])] else []) ++
  (match a.altName with
    | some o => [extension idSubjectAltName false (altNames o)]
    | none => [])

/-- Extensions. -/
def extensions (p : Profile) (a : Attested cfg) (cert : Bool) : Asn :=
  seqOf (extension idMultiTcbInfo a.critical (multiTcbInfo p a) :: otherExtensions a cert)

/-! ### Certificates and requests -/

/-- Certificate contents. -/
structure Subject (cfg : Cfg) where
  cn : Bytes
  serialName : Bytes
  key : PubKey
  attested : Attested cfg

/-- TBSCertificate; `issuer` is the encoded issuer name. -/
def tbsCertificate (p : Profile) (serial : Bytes) (issuer : Bytes) (v : Validity)
    (s : Subject cfg) : Asn :=
  .outer 0x30 [tagged 0 [asnInt 2], asnInt (beValue serial), sigAlgorithm p, .raw issuer,
    validityOf v, nameOf s.cn s.serialName, keyInfo p s.key,
    tagged 3 [extensions p s.attested true]]

/-- Certificate. -/
def certificate (p : Profile) (tbs : Asn) (sig : Sig) : Asn :=
  .outer 0x30 [tbs, sigAlgorithm p, sigBits sig]

/-- CertificationRequestInfo. -/
def requestInfo (p : Profile) (s : Subject cfg) : Asn :=
  .outer 0x30 [asnInt 0, nameOf s.cn s.serialName, keyInfo p s.key,
    tagged 0 [seqOf [idExtensionRequest, setOf [extensions p s.attested false]]]]

/-- CertificationRequest. -/
def request (p : Profile) (info : Asn) (sig : Sig) : Asn :=
  .outer 0x30 [info, sigAlgorithm p, sigBits sig]

/-- SignerIdentifier (RFC 5652 5.3). -/
def signerIdentifier : SignerId → Asn
  | .issuerAndSerial issuer serial => seqOf [.raw issuer, asnInt (beValue serial)]
  | .subjectKeyId k => implicit 0 k

/-- SignerIdentifier as DPE writes it: the subject key identifier is wrapped in another OCTET
STRING inside the IMPLICIT tag. -/
def signerIdentifier' : SignerId → Asn
  | .issuerAndSerial issuer serial => seqOf [.raw issuer, asnInt (beValue serial)]
  | .subjectKeyId k => .node 0x80 [] [octets k]

/-- CMS version: 1 for issuer and serial number, 3 for a subject key identifier. -/
def cmsVersionOf : SignerId → Nat
  | .issuerAndSerial .. => 1
  | .subjectKeyId .. => 3

/-- SignerInfo. -/
def signerInfo (p : Profile) (version : Nat) (sid : Asn) (sig : Sig) : Asn :=
  seqOf [asnInt version, sid, hashAlgorithm p, sigAlgorithm p, sigOctets sig]

/-- ContentInfo with a SignedData that carries the request. -/
def signedRequest (p : Profile) (version : Nat) (sid : Asn) (csr : Asn) (sig : Sig) : Asn :=
  .outer 0x30 [idSignedData, .outer 0xA0 [.outer 0x30 [asnInt version, setOf [hashAlgorithm p],
    .outer 0x30 [idData, .outer 0xA0 [.outer 0x04 [csr]]],
    setOf [signerInfo p version sid sig]]]]

end Dpe
