import Verif.Spec.Attest
/-
The checks on certificates in the conformance tests of the project (verification/testing), which are written
in Go and run against a device through the Go client.  Every function here is the condition under which
the function of Go reports no failure.  What crypto/x509 and encoding/asn1 of Go read is what the reader of
Spec/Parse reads (simplified: Go's reader accepts more); linting with zlint and the validity period, which is
compared with the present time, are left out.
-/
namespace Dpe.Suite

/-- The object identifiers, verification/testing/certs.go:15-30. -/
def oidSubjectKeyId : Bytes := oidBody [2, 5, 29, 14]
@[inherit_doc oidSubjectKeyId] def oidKeyUsage : Bytes := oidBody [2, 5, 29, 15]
@[inherit_doc oidSubjectKeyId] def oidAuthorityKeyId : Bytes := oidBody [2, 5, 29, 35]
@[inherit_doc oidSubjectKeyId] def oidBasicConstraints : Bytes := oidBody [2, 5, 29, 19]
@[inherit_doc oidSubjectKeyId] def oidExtKeyUsage : Bytes := oidBody [2, 5, 29, 37]
@[inherit_doc oidSubjectKeyId] def oidTcgUeid : Bytes := oidBody [2, 23, 133, 5, 4, 4]
@[inherit_doc oidSubjectKeyId] def oidMultiTcb : Bytes := oidBody [2, 23, 133, 5, 4, 5]
@[inherit_doc oidSubjectKeyId] def oidKpAttestLoc : Bytes := oidBody [2, 23, 133, 5, 4, 100, 9]
@[inherit_doc oidSubjectKeyId] def oidKpEca : Bytes := oidBody [2, 23, 133, 5, 4, 100, 12]

/-- The pattern of the getters, verification/testing/certs.go:47-171: a missing extension gives the zero
value, one that is critical when it should not be, or the other way round, an error. -/
def getter {α : Type} (oid : Bytes) (critical : Bool) (zero : α) (value : Option α) (es : List Ext) : Option α :=
  match extOf oid es with
  | none => some zero
  | some e => if e.critical = critical then value else none

/-- `getMultiTcbInfo`, verification/testing/certs.go:47-62. -/
def getMultiTcbInfo (es : List Ext) (critical : Bool) : Option (List TcbFields) :=
  getter oidMultiTcb critical [] (tcbInfosOf es) es

/-- `getBasicConstraints`, verification/testing/certs.go:64-79. -/
def getBasicConstraints (es : List Ext) : Option Bool := getter oidBasicConstraints true false (isCa es) es

/-- `getSubjectKeyIdentifier`, verification/testing/certs.go:81-96; nil if missing. -/
def getSubjectKeyIdentifier (es : List Ext) : Option (Option Bytes) :=
  getter oidSubjectKeyId false none ((skidOf es).map some) es

/-- `getAuthorityKeyIdentifier`, verification/testing/certs.go:98-113; nil if missing. -/
def getAuthorityKeyIdentifier (es : List Ext) : Option (Option Bytes) :=
  getter oidAuthorityKeyId false none ((akidOf es).map some) es

/-- `getUeid`, verification/testing/certs.go:115-130. -/
def getUeid (es : List Ext) (critical : Bool) : Option Bytes := getter oidTcgUeid critical [] (ueidOf es) es

/-- `getExtendedKeyUsages`, verification/testing/certs.go:132-147. -/
def getExtendedKeyUsages (es : List Ext) : Option (List Bytes) :=
  getter oidExtKeyUsage true [] (keyPurposes es) es

/-- `getKeyUsage`, verification/testing/certs.go:149-171: bits 0 to 8. -/
def getKeyUsage (es : List Ext) : Option (List Bool) :=
  (getter oidKeyUsage true [] (keyUsages es) es).map fun l => (List.range 9).map fun i => decide (i ∈ l)

/-- `checkTcgUeidExtension`, verification/testing/certifyKey.go:322-334. -/
def checkTcgUeid (es : List Ext) (label : Bytes) (critical : Bool) : Bool := getUeid es critical == some label

/-- `checkExtendedKeyUsages`, verification/testing/certifyKey.go:341-374. -/
def checkExtendedKeyUsages (es : List Ext) (ca : Bool) : Bool :=
  match getExtendedKeyUsages es with
  | none => false
  | some l => l.contains (if ca then oidKpEca else oidKpAttestLoc)

/-- The expected key identifier, verification/testing/certifyKey.go:453-473: by the length of the first
field of the public key. -/
def expectedKeyId (sha256 sha384 : Bytes → Bytes) (x y : Bytes) : Option Bytes :=
  if x.length = 32 then some ((sha256 ([4] ++ x ++ y)).take 20)
  else if x.length = 48 then some ((sha384 ([4] ++ x ++ y)).take 20)
  else if x.length = 2592 then some ((sha384 x).take 20)
  else none

/-- `checkSubjectKeyIdentifierExtension`, verification/testing/certifyKey.go:440-480; the public key may be
missing. -/
def checkSubjectKeyIdentifier (sha256 sha384 : Bytes → Bytes) (es : List Ext) (ca : Bool)
    (pub : Option (Bytes × Bytes)) : Bool :=
  match getSubjectKeyIdentifier es with
  | none => false
  | some ski =>
    if ca then
      ski.isSome && match pub with
        | none => true
        | some (x, y) => (expectedKeyId sha256 sha384 x y).isSome && ski == expectedKeyId sha256 sha384 x y
    else ski.isNone

/-- `checkKeyIdentifierExtension`, verification/testing/certifyKey.go:486-499. -/
def checkKeyIdentifier (es : List Ext) (issuerSki : Bytes) : Bool :=
  getAuthorityKeyIdentifier es == some (some issuerSki)

/-- `checkBasicConstraints`, verification/testing/certifyKey.go:504-514. -/
def checkBasicConstraints (es : List Ext) (wanted : Bool) : Bool :=
  match getBasicConstraints es with
  | none => false
  | some ca => !(ca && !wanted)

/-- The checks on DiceTcbInfos, verification/testing/certifyKey.go:400-413. -/
def checkMultiTcbInfo (es : List Ext) (critical : Bool) : Bool :=
  match getMultiTcbInfo es critical with
  | none => false
  | some l => l.all fun t => decide (t.registers.length ≤ 1) && t.registers.all fun r => decide (r.1 = 0)

/-- `checkCertificateExtension`, verification/testing/certifyKey.go:380-434. -/
def checkCertificateExtension (sha256 sha384 : Bytes → Bytes) (es : List Ext) (label : Option Bytes)
    (pub : Option (Bytes × Bytes)) (isX509 : Bool) (issuerSki : Bytes) (wanted critical : Bool) : Bool :=
  match getBasicConstraints es with
  | none => false
  | some ca =>
    checkBasicConstraints es wanted && checkExtendedKeyUsages es ca &&
    (match label with | none => true | some l => checkTcgUeid es l critical) &&
    (!isX509 || (checkSubjectKeyIdentifier sha256 sha384 es ca pub && checkKeyIdentifier es issuerSki)) &&
    checkMultiTcbInfo es critical &&
    getKeyUsage es == some ((List.range 9).map fun i => decide (i = 0 ∨ (ca = true ∧ i = 5)))

/-- `checkPubKey`, verification/testing/certifyKey.go:782-818: the key of the certificate is that of the
response; not checked for ML-DSA.  (Go compares the numbers, here the encodings.) -/
def checkPubKey (p : Profile) (key : Bytes) (x y : Bytes) : Bool :=
  match p with
  | .mldsa87 => true
  | p => key == (seqOf [keyAlgorithm p, bits ([4] ++ x ++ y)]).der

/-- `checkCertifyKeyRespHandle`, verification/testing/certifyKey.go:821-830. -/
def checkCertifyKeyRespHandle (reply handle : Handle) : Bool :=
  handle != Handle.default || reply == handle

/-- `getTcbInfoForHandle`, verification/testing/certs.go:173-212, after the certificate was read: the last
DiceTcbInfo. -/
def getTcbInfo (es : List Ext) (critical : Bool) : Option TcbFields :=
  (getMultiTcbInfo es critical).bind List.getLast?

/-- `verifyMeasurements`, verification/testing/deriveContext.go:633-652, after the DiceTcbInfo was found; a
missing digest or register is a panic in Go. -/
def verifyMeasurements (t : TcbFields) (current cumulative : Bytes) : Bool :=
  match t.fwids, t.registers with
  | (_, d) :: _, (_, (_, c) :: _) :: _ => d == current && c == cumulative
  | _, _ => false

/-- `computeExpectedCumulative`, verification/testing/deriveContext.go:620-631; for another length than those of
the two hash functions Go has no hasher and panics. -/
def computeExpectedCumulative (sha256 sha384 : Bytes → Bytes) (last data : Bytes) : Option Bytes :=
  if last.length = 32 then some (sha256 (last ++ data))
  else if last.length = 48 then some (sha384 (last ++ data))
  else none

/-- `tcbInfo.IntegrityRegisters[0].RegisterDigests[0].Digest`, verification/testing/deriveContext.go:505,590,595,842;
a missing register is a panic in Go. -/
def cumulativeDigest (t : TcbFields) : Option Bytes :=
  match t.registers with
  | (_, (_, c) :: _) :: _ => some c
  | _ => none

/-- `CalculateExternalMu`, verification/client/abi.go:981-991, with SHAKE256 as a parameter. -/
def calculateExternalMu (shake256 : Bytes → BArr 64) (msg pubKey : Bytes) : BArr 64 :=
  shake256 ((shake256 pubKey).toList ++ [0, 0] ++ msg)

end Dpe.Suite
