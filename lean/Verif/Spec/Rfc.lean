import Verif.Spec.Report
/-
The certificate profile of RFC 5280 (section 4 and appendix A.1), as far as it concerns the fields and
extensions that occur in certificates of attestation keys.  Stated on what a reader finds in a certificate
(Spec/Parse); nothing here knows how DPE writes certificates.
-/
namespace Dpe
variable {σ : Type}

/-! ### Names -/

/-- An attribute of a name: type, tag and contents of the value. -/
structure Attr where
  oid : Bytes
  tag : UInt8
  value : Bytes
  deriving DecidableEq

/-- AttributeTypeAndValue. -/
def readAttr (v : UInt8 × Bytes) : Option Attr :=
  if v.1 = 0x30 then
    match values v.2 with
    | some [o, x] => if o.1 = 0x06 then some ⟨o.2, x.1, x.2⟩ else none
    | _ => none
  else none

/-- RelativeDistinguishedName with one attribute. -/
def readRdn (v : UInt8 × Bytes) : Option Attr :=
  if v.1 = 0x31 then
    match values v.2 with
    | some [a] => readAttr a
    | _ => none
  else none

/-- Name. -/
def readName (bs : Bytes) : Option (List Attr) :=
  match single 0x30 bs with
  | none => none
  | some body =>
    match values body with
    | none => none
    | some vs => allOf readRdn vs

/-- The characters of PrintableString (X.680, 41.4). -/
def printableText : Bytes :=
  ascii "ABCDEFGHIJKLMNOPQRSTUVWXYZabcdefghijklmnopqrstuvwxyz0123456789 '()+,-./:=?"

/-- id-at-commonName. -/
def commonNameId : Bytes := oidBody [2, 5, 4, 3]
/-- id-at-serialNumber. -/
def serialNumberId : Bytes := oidBody [2, 5, 4, 5]

/-- A commonName (ub-common-name) or serialNumber (ub-serial-number): PrintableString of 1 to 64
characters. -/
structure Attr.Conforms (a : Attr) : Prop where
  type : a.oid = commonNameId ∨ a.oid = serialNumberId
  string : a.tag = 0x13
  size : 1 ≤ a.value.length ∧ a.value.length ≤ 64
  chars : ∀ b ∈ a.value, b ∈ printableText

/-! ### Validity -/

/-- Validity: tag and contents of the two times. -/
def readValidity (bs : Bytes) : Option ((UInt8 × Bytes) × (UInt8 × Bytes)) :=
  match single 0x30 bs with
  | none => none
  | some body =>
    match values body with
    | some [a, b] => some (a, b)
    | _ => none

/-- `n` digits and a Z. -/
def Zulu (n : Nat) (bs : Bytes) : Prop := ∃ ds, bs = ds ++ ascii "Z" ∧ ds.length = n ∧ ∀ d ∈ ds, d ∈ ascii "0123456789"

/-- The number that digits stand for. -/
def decimal (bs : Bytes) : Nat := bs.foldl (fun n b => 10 * n + (b.toNat - 48)) 0

/-- YYYYMMDDHHMMSSZ with a year from 2050. -/
def Late (bs : Bytes) : Prop := Zulu 14 bs ∧ 2050 ≤ decimal (bs.take 4)

/-- A date (4.1.2.5): through the year 2049 UTCTime, YYMMDDHHMMSSZ; from 2050 GeneralizedTime,
YYYYMMDDHHMMSSZ. -/
def DateConforms (t : UInt8 × Bytes) : Prop :=
  (t.1 = 0x17 ∧ Zulu 12 t.2) ∨ (t.1 = 0x18 ∧ Late t.2)

/-- Both dates of a certificate are as prescribed. -/
def DatesConform (x : Cert) : Prop :=
  ∃ a b, readValidity x.validity = some (a, b) ∧ DateConforms a ∧ DateConforms b

/-! ### Extensions -/

def basicConstraintsId : Bytes := oidBody [2, 5, 29, 19]
def keyUsageId : Bytes := oidBody [2, 5, 29, 15]
def extKeyUsageId : Bytes := oidBody [2, 5, 29, 37]
def subjectKeyIdId : Bytes := oidBody [2, 5, 29, 14]
def authorityKeyIdId : Bytes := oidBody [2, 5, 29, 35]
def subjectAltNameId : Bytes := oidBody [2, 5, 29, 17]
/-- tcg-dice-MultiTcbInfo. -/
def multiTcbInfoId : Bytes := oidBody [2, 23, 133, 5, 4, 5]
/-- tcg-dice-Ueid. -/
def ueidId : Bytes := oidBody [2, 23, 133, 5, 4, 4]

/-- There is such an extension, and it is critical or not as given. -/
def Has (id : Bytes) (critical : Bool) (es : List Ext) : Prop :=
  ∃ e, extOf id es = some e ∧ e.critical = critical

/-- There is at most one extension of each kind (4.2), which are all known ones: those of RFC 5280 with the
criticality that it asks for, and the two of DICE. -/
structure ExtsConform (es : List Ext) : Prop where
  once : (es.map Ext.oid).Nodup
  known : ∀ e ∈ es, e.oid ∈ [basicConstraintsId, keyUsageId, extKeyUsageId, subjectKeyIdId,
    authorityKeyIdId, subjectAltNameId, multiTcbInfoId, ueidId]
  /-- 4.2.1.9 -/
  constraints : Has basicConstraintsId true es
  /-- 4.2.1.3: critical, and at least one bit set. -/
  usage : Has keyUsageId true es ∧ ∃ l, keyUsages es = some l ∧ l ≠ []
  /-- 4.2.1.3, 4.2.1.9: keyCertSign exactly for a CA. -/
  signs : ∃ l, keyUsages es = some l ∧ (5 ∈ l ↔ isCa es = some true)
  /-- 4.2.1.12: at least one purpose. -/
  purpose : Has extKeyUsageId true es ∧ ∃ l, keyPurposes es = some l ∧ l ≠ []
  /-- 4.2.1.6: not critical, as there is a subject. -/
  altName : ∀ e ∈ es, e.oid = subjectAltNameId → e.critical = false

/-- The profile apart from the dates. -/
structure ConformsApart (x : Cert) : Prop where
  /-- 4.1.2.2: a positive number of at most 20 octets. -/
  serial : 0 < intValue x.serial ∧ x.serial.length ≤ 20
  /-- 4.1.2.6: not empty, and the attributes are as prescribed. -/
  subject : ∃ l, readName x.subject = some l ∧ l ≠ [] ∧ ∀ a ∈ l, a.Conforms
  exts : ExtsConform x.exts
  /-- 4.2.1.1: the key identifier of the issuer, not critical. -/
  authority : Has authorityKeyIdId false x.exts ∧ (akidOf x.exts).isSome = true
  /-- 4.2.1.2: the key identifier of a CA, not critical. -/
  identifier : (isCa x.exts = some true → (skidOf x.exts).isSome = true) ∧
    ∀ e ∈ x.exts, e.oid = subjectKeyIdId → e.critical = false

/-- The profile. -/
structure Conforms (x : Cert) : Prop where
  apart : ConformsApart x
  dates : DatesConform x

/-! ### What the certificates of DPE say in these places -/

/-- The DICE extensions are critical exactly if the instance is to mark them so; of the others exactly
those about the use of the key are. -/
def CriticalOnes (marked : Bool) (es : List Ext) : Prop :=
  ∀ e ∈ es, e.critical = true ↔ e.oid = basicConstraintsId ∨ e.oid = keyUsageId ∨ e.oid = extKeyUsageId ∨
    (marked = true ∧ (e.oid = multiTcbInfoId ∨ e.oid = ueidId))

/-- The subject: a fixed commonName, and as serialNumber the first 64 hexadecimal digits of the hash of the
public key. -/
def subjectFor (cn digest : Bytes) : List Attr :=
  [⟨commonNameId, 0x13, cn⟩, ⟨serialNumberId, 0x13, (hexText digest).take 64⟩]

/-- What a certificate with the commonName `cn` says; `marked`: the DICE extensions are to be critical.  The
serial number is the first 20 of the digits in the subject.  The dates are the platform's, always as
GeneralizedTime. -/
structure Follows (ops : Ops σ) (p : Profile) (marked : Bool) (cn : Bytes) (x : Cert) : Prop where
  apart : ConformsApart x
  critical : CriticalOnes marked x.exts
  subject : ∃ key d w w', Hashed ops (keyChunks key) w d w' ∧ x.key = (keyInfo p key).der ∧
    readName x.subject = some (subjectFor cn d) ∧ x.serial = (hexText d).take 20
  issuer : ∃ w w', IssuerGiven ops w x.issuer w'
  dates : ∃ v w w', ops.certValidity w = (.ok v, w') ∧
    readValidity x.validity = some ((0x18, v.notBefore), (0x18, v.notAfter)) ∧
    (Conforms x ↔ Late v.notBefore ∧ Late v.notAfter)

/-- A hash has at least 32 octets: `Digest`, crypto/src/lib.rs:207-210, is a SHA-256 or a SHA-384 one. -/
def HashesLong (ops : Ops σ) : Prop := ∀ w d w', ops.hashFinish w = (.ok d, w') → 32 ≤ d.length

end Dpe
