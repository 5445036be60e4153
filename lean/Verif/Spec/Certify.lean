import Verif.Spec.Issue
/-
What CertifyKey and an exporting DeriveContext ask the certificate generator for, and how the
certificate is delivered.
-/
namespace Dpe
variable {cfg : Cfg} {σ : Type}

/-- DICE extensions are marked critical if bit 15 of the instance's flags is set. -/
def marksCritical (st : State cfg) : Bool := st.flags.getLsbD 15

/-- The context string for the keys of a profile that Sign and CertifyKey use. -/
def keyPurpose : Profile → Bytes
  | .mldsa87 => ascii "MLDSA"
  | _ => ascii "ECC"

/-- Label and context string for the key of an exported CDI. -/
def exportPurpose : Profile → Bytes
  | .mldsa87 => ascii "Exported ML-DSA"
  | _ => ascii "Exported ECC"

/-- CertifyKey: the CDI of Sign, the caller's label as key label and as UEID. -/
def leafArgs (st : State cfg) (handle : Handle) (loc : U32) (label : Bytes) : CertArgs where
  handle := handle
  locality := loc
  cdiLabel := ascii "DPE"
  keyLabel := label
  context := keyPurpose cfg.profile
  ueid := label
  critDice := marksCritical st

/-- An exported CDI: fixed labels, and the platform's UEID. -/
def exportedArgs (st : State cfg) (handle : Handle) (loc : U32) (ueid : Bytes) : CertArgs where
  handle := handle
  locality := loc
  cdiLabel := ascii "Exported CDI"
  keyLabel := exportPurpose cfg.profile
  context := exportPurpose cfg.profile
  ueid := ueid
  critDice := marksCritical st

/-- The format field of CertifyKey: 0 for a certificate, 1 for a request. -/
def Format (format : U32) (kind : CertKind) : Prop :=
  (format = 0 ∧ kind = .leafX509) ∨ (format = 1 ∧ kind = .leafCsr)

/-- The header of a successful response: "DPER" (little endian), status 0, the profile. -/
def successBytes (p : Profile) : Bytes :=
  [0x52, 0x45, 0x50, 0x44, 0, 0, 0, 0,
    (match p with | .p256 => 3 | .p384 => 4 | .mldsa87 => 5), 0, 0, 0]

/-- The public key fields of a CertifyKey response. -/
def keyFields : PubKey → Bytes
  | .p256 x y => x.toList ++ y.toList
  | .p384 x y => x.toList ++ y.toList
  | .mldsa k => k.toList

/-- The kind of key that a CertifyKey command asks for. -/
def CertifyCmd.wants : CertifyCmd → PubKey → Prop
  | .p256 .., .p256 .. => True
  | .p384 .., .p384 .. => True
  | .mldsa87 .., .mldsa .. => True
  | _, _ => False

/-- A CertifyKey response. -/
def certifyReply (p : Profile) (h : Handle) (key : PubKey) (cert : Bytes) : Bytes :=
  successBytes p ++ h.toList ++ keyFields key ++ word (BitVec.ofNat 32 cert.length) ++ cert

/-- A response of an exporting DeriveContext: no new context, the parent's handle, the handle of the
exported CDI. -/
def exportReply (p : Profile) (parent : Handle) (cdi : BArr 32) (cert : Bytes) : Bytes :=
  successBytes p ++ List.replicate 16 0xFF ++ parent.toList ++ cdi.toList ++
    word (BitVec.ofNat 32 cert.length) ++ cert

/-- The number of octets in the public key fields of the response to a CertifyKey command. -/
def CertifyCmd.keyBytes : CertifyCmd → Nat
  | .p256 .. => 64
  | .p384 .. => 96
  | .mldsa87 .. => 2592

/-- The certificate in an `n`-byte CertifyKey response: what follows header (12), handle (16), key
and certificate size (4). -/
def certIn (c : CertifyCmd) (out : Bytes) (n : Nat) : Bytes := (out.take n).drop (32 + c.keyBytes)

/-- The certificate in an `n`-byte response of an exporting DeriveContext: what follows header (12),
two handles (32), exported CDI (32) and certificate size (4). -/
def exportedCertIn (out : Bytes) (n : Nat) : Bytes := (out.take n).drop 80

end Dpe
