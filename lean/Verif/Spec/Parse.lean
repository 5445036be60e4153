import Verif.Spec.Der
/-
A reader of certificates and certification requests, as a verifier would write it: strict DER
framing, the fields that RFC 5280, RFC 2986 and RFC 5652 prescribe, and the extensions with the
meaning that RFC 5280 and the TCG DICE Attestation Architecture give them.  It knows nothing about
how DPE writes certificates.
-/
namespace Dpe

/-! ### Framing -/

/-- Split octets into values: tag and contents of each.  The first argument bounds their number. -/
def readAll : Nat → Bytes → Option (List (UInt8 × Bytes))
  | _, [] => some []
  | 0, _ :: _ => none
  | k + 1, b :: bs =>
    match readTlv (b :: bs) with
    | none => none
    | some (tag, body, rest) => (readAll k rest).map ((tag, body) :: ·)

/-- Split octets into values. -/
def values (bs : Bytes) : Option (List (UInt8 × Bytes)) := readAll bs.length bs

/-- The contents of values that have exactly these tags. -/
def fields (tags : List UInt8) (bs : Bytes) : Option (List Bytes) :=
  match values bs with
  | none => none
  | some vs => if vs.map (·.1) = tags then some (vs.map (·.2)) else none

/-- The contents of a single value with this tag. -/
def single (tag : UInt8) (bs : Bytes) : Option Bytes :=
  match fields [tag] bs with
  | some [x] => some x
  | _ => none

/-- All or nothing. -/
def allOf {α β : Type} (f : α → Option β) : List α → Option (List β)
  | [] => some []
  | a :: l =>
    match f a, allOf f l with
    | some b, some bs => some (b :: bs)
    | _, _ => none

/-! ### Extensions -/

/-- An extension: object identifier, critical, value. -/
structure Ext where
  oid : Bytes
  critical : Bool
  value : Bytes
  deriving DecidableEq

/-- Extension; critical is FALSE by default and must not be given explicitly as FALSE. -/
def readExt (v : UInt8 × Bytes) : Option Ext :=
  if v.1 = 0x30 then
    match fields [0x06, 0x04] v.2, fields [0x06, 0x01, 0x04] v.2 with
    | some [oid, value], _ => some ⟨oid, false, value⟩
    | _, some [oid, crit, value] => if crit = [0xFF] then some ⟨oid, true, value⟩ else none
    | _, _ => none
  else none

/-- Extensions, no two with the same object identifier. -/
def readExts (bs : Bytes) : Option (List Ext) :=
  match single 0x30 bs with
  | none => none
  | some body =>
    match values body with
    | none => none
    | some vs =>
      match allOf readExt vs with
      | none => none
      | some es => if (es.map Ext.oid).Nodup then some es else none

/-- The extension with this object identifier. -/
def extOf (oid : Bytes) (es : List Ext) : Option Ext := es.find? fun e => e.oid = oid

/-! ### Certificates and requests -/

/-- What a certificate says.  Names, keys and the like are given as encoded. -/
structure Cert where
  /-- The octets that are signed. -/
  tbs : Bytes
  /-- The contents octets of the serial number. -/
  serial : Bytes
  issuer : Bytes
  validity : Bytes
  subject : Bytes
  key : Bytes
  exts : List Ext
  algorithm : Bytes
  /-- The signature, without the octet that counts unused bits. -/
  signature : Bytes

/-- TBSCertificate, version 3. -/
def readTbs (tbs alg sig : Bytes) : Option Cert :=
  match fields [0xA0, 0x02, 0x30, 0x30, 0x30, 0x30, 0x30, 0xA3] tbs with
  | some [version, serial, alg', issuer, validity, subject, key, x] =>
    match readExts x with
    | some es =>
      if single 0x02 version = some [2] ∧ alg' = alg then
        some ⟨tlv 0x30 tbs, serial, tlv 0x30 issuer, tlv 0x30 validity, tlv 0x30 subject, tlv 0x30 key,
          es, tlv 0x30 alg, sig⟩
      else none
    | none => none
  | _ => none

/-- Certificate. -/
def readCert (bs : Bytes) : Option Cert :=
  match single 0x30 bs with
  | none => none
  | some body =>
    match fields [0x30, 0x30, 0x03] body with
    | some [tbs, alg, 0 :: sig] => readTbs tbs alg sig
    | _ => none

/-- What a certification request says. -/
structure Request where
  /-- The octets that are signed. -/
  info : Bytes
  subject : Bytes
  key : Bytes
  exts : List Ext
  algorithm : Bytes
  signature : Bytes

/-- Attributes with one attribute: an extension request with one value. -/
def readAttributes (bs : Bytes) : Option (List Ext) :=
  match single 0x30 bs with
  | none => none
  | some body =>
    match fields [0x06, 0x31] body with
    | some [oid, x] => if oid = oidBody [1, 2, 840, 113549, 1, 9, 14] then readExts x else none
    | _ => none

/-- CertificationRequest, version 1 (encoded as 0). -/
def readRequest (bs : Bytes) : Option Request :=
  match single 0x30 bs with
  | none => none
  | some body =>
    match fields [0x30, 0x30, 0x03] body with
    | some [info, alg, 0 :: sig] =>
      match fields [0x02, 0x30, 0x30, 0xA0] info with
      | some [version, subject, key, x] =>
        match readAttributes x with
        | some es => if version = [0] then
            some ⟨tlv 0x30 info, tlv 0x30 subject, tlv 0x30 key, es, tlv 0x30 alg, sig⟩
          else none
        | none => none
      | _ => none
    | _ => none

/-- What a CMS message with one signer says. -/
structure Message where
  version : Bytes
  /-- The octets that are signed: the contents of the OCTET STRING. -/
  content : Bytes
  signerVersion : Bytes
  /-- The signer identifier. -/
  signer : Bytes
  digestAlgorithm : Bytes
  algorithm : Bytes
  signature : Bytes

/-- SignerInfo without attributes. -/
def readSigner (version content info : Bytes) : Option Message :=
  match values info with
  | some [v, sid, h, alg, sig] =>
    if v.1 = 0x02 ∧ (sid.1 = 0x30 ∨ sid.1 = 0x80) ∧ h.1 = 0x30 ∧ alg.1 = 0x30 ∧ sig.1 = 0x04 then
      some ⟨version, content, v.2, tlv sid.1 sid.2, tlv 0x30 h.2, tlv 0x30 alg.2, sig.2⟩
    else none
  | _ => none

/-- The contents of EncapsulatedContentInfo with content of type id-data. -/
def readEncap (bs : Bytes) : Option Bytes :=
  match fields [0x06, 0xA0] bs with
  | some [oid, x] => if oid = oidBody [1, 2, 840, 113549, 1, 7, 1] then single 0x04 x else none
  | _ => none

/-- SignedData with one signer and without certificates. -/
def readSignedData (bs : Bytes) : Option Message :=
  match fields [0x02, 0x31, 0x30, 0x31] bs with
  | some [version, _, encap, signers] =>
    match readEncap encap with
    | none => none
    | some content =>
      match single 0x30 signers with
      | none => none
      | some info => readSigner version content info
  | _ => none

/-- ContentInfo with content of type id-signedData. -/
def readMessage (bs : Bytes) : Option Message :=
  match single 0x30 bs with
  | none => none
  | some body =>
    match fields [0x06, 0xA0] body with
    | some [oid, x] =>
      if oid = oidBody [1, 2, 840, 113549, 1, 7, 2] then
        match single 0x30 x with
        | some sd => readSignedData sd
        | none => none
      else none
    | _ => none

/-! ### What the extensions mean -/

/-- FWID: hash algorithm and digest. -/
def readFwid (v : UInt8 × Bytes) : Option (Bytes × Bytes) :=
  if v.1 = 0x30 then
    match fields [0x06, 0x04] v.2 with
    | some [alg, digest] => some (alg, digest)
    | _ => none
  else none

/-- FWIDLIST. -/
def readFwids (bs : Bytes) : Option (List (Bytes × Bytes)) :=
  match values bs with
  | none => none
  | some vs => allOf readFwid vs

/-- IntegrityRegister: number and digests. -/
def readRegister (v : UInt8 × Bytes) : Option (Int × List (Bytes × Bytes)) :=
  if v.1 = 0x30 then
    match fields [0x81, 0xA2] v.2 with
    | some [n, ds] => (readFwids ds).map fun l => (intValue n, l)
    | _ => none
  else none

/-- What a TcbInfo says. -/
structure TcbFields where
  svn : Int
  fwids : List (Bytes × Bytes)
  vendorInfo : Bytes
  type : Bytes
  registers : List (Int × List (Bytes × Bytes))
  deriving DecidableEq

/-- DiceTcbInfo with svn [3], fwids [6], vendorInfo [8], type [9] and possibly integrityRegisters
[11]. -/
def readTcbInfo (v : UInt8 × Bytes) : Option TcbFields :=
  if v.1 = 0x30 then
    match fields [0x83, 0xA6, 0x88, 0x89] v.2, fields [0x83, 0xA6, 0x88, 0x89, 0xAB] v.2 with
    | some [svn, fw, vendor, ty], _ => (readFwids fw).map fun l => ⟨intValue svn, l, vendor, ty, []⟩
    | _, some [svn, fw, vendor, ty, regs] =>
      match readFwids fw, values regs with
      | some l, some rs => (allOf readRegister rs).map fun r => ⟨intValue svn, l, vendor, ty, r⟩
      | _, _ => none
    | _, _ => none
  else none

/-- DiceTcbInfoSeq: the value of the MultiTcbInfo extension. -/
def tcbInfosOf (es : List Ext) : Option (List TcbFields) :=
  match extOf (oidBody [2, 23, 133, 5, 4, 5]) es with
  | none => none
  | some e =>
    match single 0x30 e.value with
    | none => none
    | some body =>
      match values body with
      | none => none
      | some vs => allOf readTcbInfo vs

/-- BasicConstraints: cA, FALSE by default. -/
def isCa (es : List Ext) : Option Bool :=
  match extOf (oidBody [2, 5, 29, 19]) es with
  | none => none
  | some e =>
    match single 0x30 e.value with
    | none => none
    | some body => if body = [] then some false else (single 0x01 body).map (· = [0xFF])

/-- KeyUsage: the numbers of the bits that are set (0 digitalSignature, 5 keyCertSign). -/
def keyUsages (es : List Ext) : Option (List Nat) :=
  match extOf (oidBody [2, 5, 29, 15]) es with
  | none => none
  | some e =>
    match single 0x03 e.value with
    | some (unused :: bits) => some ((List.range (8 * bits.length - unused.toNat)).filter fun i =>
        (bits.getD (i / 8) 0).toNat.testBit (7 - i % 8))
    | _ => none

/-- ExtKeyUsage: the object identifiers. -/
def keyPurposes (es : List Ext) : Option (List Bytes) :=
  match extOf (oidBody [2, 5, 29, 37]) es with
  | none => none
  | some e =>
    match single 0x30 e.value with
    | none => none
    | some body =>
      match values body with
      | none => none
      | some vs => if ∀ v ∈ vs, v.1 = 0x06 then some (vs.map (·.2)) else none

/-- AuthorityKeyIdentifier with a keyIdentifier. -/
def akidOf (es : List Ext) : Option Bytes :=
  match extOf (oidBody [2, 5, 29, 35]) es with
  | none => none
  | some e => match single 0x30 e.value with
    | none => none
    | some body => single 0x80 body

/-- SubjectKeyIdentifier. -/
def skidOf (es : List Ext) : Option Bytes :=
  match extOf (oidBody [2, 5, 29, 14]) es with
  | none => none
  | some e => single 0x04 e.value

/-- TcgUeid. -/
def ueidOf (es : List Ext) : Option Bytes :=
  match extOf (oidBody [2, 23, 133, 5, 4, 4]) es with
  | none => none
  | some e => match single 0x30 e.value with
    | none => none
    | some body => single 0x04 body

end Dpe
