import Verif.Spec.Issue
/-
How long certificates and requests can get: the advertised maximum, the limits of the platform's
data, and the lengths of the structures of Spec/Cert from the lengths of their ingredients.
-/
namespace Dpe
variable {cfg : Cfg} {σ : Type}

/-- The maximum certificate size for a number of contexts, dpe/build.rs. -/
def advertised (p : Profile) (handles : Nat) : Nat :=
  ((match p with
    | .p256 => 643 + 126 * handles
    | .p384 => 756 + 159 * handles
    | .mldsa87 => 12307 + 158 * handles) + 3) / 4 * 4

/-- The length of a digest. -/
def digestLength : Profile → Nat
  | .p256 => 32
  | _ => 48

/-- The key is of the profile's kind. -/
def KeyOf : Profile → PubKey → Prop
  | .p256, .p256 .. => True
  | .p384, .p384 .. => True
  | .mldsa87, .mldsa .. => True
  | _, _ => False

/-- The signature is of the profile's kind. -/
def SigOf : Profile → Sig → Prop
  | .p256, .p256 .. => True
  | .p384, .p384 .. => True
  | .mldsa87, .mldsa .. => True
  | _, _ => False

/-- The crypto implementation delivers keys and signatures of the profile's kind. -/
structure Genuine (p : Profile) (ops : Ops σ) : Prop where
  key : ∀ k w pk w', ops.publicKey k w = (.ok pk, w') → KeyOf p pk
  sign : ∀ k d w sig w', ops.sign k d w = (.ok sig, w') → SigOf p sig
  signAlias : ∀ d w sig w', ops.signAlias d w = (.ok sig, w') → SigOf p sig

/-! ### Lengths from lengths -/

/-- The lengths of the ingredients. -/
structure Sizes where
  /-- How many contexts. -/
  chain : Nat
  /-- The longest INTEGER body of an SVN. -/
  svn : Nat
  /-- TCI values. -/
  tci : Nat
  label : Nat
  /-- Object identifier and value of the alternative name. -/
  alt : Option (Nat × Nat)
  issuer : Nat
  validity : Nat
  /-- The whole encoded signer identifier. -/
  signer : Nat

/-- A value whose parts have these lengths. -/
def partsLen (parts : List Nat) : Nat := tlvLen parts.sum

/-- FWID. -/
def fwidLen (tci : Nat) : Nat := partsLen [11, tlvLen tci]

/-- TcbInfo. -/
def tcbLen (z : Sizes) (recursive : Bool) : Nat :=
  partsLen ([tlvLen z.svn, partsLen [fwidLen z.tci], 6, 6] ++
    if recursive then [partsLen [partsLen [3, partsLen [fwidLen z.tci]]]] else [])

/-- Extension with an identifier of the given length. -/
def extLen (id : Nat) (critical : Bool) (value : Nat) : Nat :=
  partsLen (id :: ((if critical then [3] else []) ++ [partsLen [value]]))

/-- Extensions. -/
def extsLen (z : Sizes) (ca cert : Bool) : Nat :=
  partsLen (extLen 8 true (tlvLen (z.chain * tcbLen z (!ca))) ::
    ([extLen 8 true (partsLen [tlvLen z.label]),
      extLen 5 true (partsLen (if ca then [3] else [])),
      extLen 5 true 4,
      extLen 5 true (partsLen [9])] ++
     (if ca && cert then [extLen 5 false 22] else []) ++
     (if cert then [extLen 5 false (partsLen [22])] else []) ++
     (match z.alt with
      | some (oid, name) => [extLen 5 false (partsLen [partsLen [tlvLen oid, partsLen [tlvLen name]]])]
      | none => [])))

/-- Subject name. -/
def nameLen (ca : Bool) : Nat :=
  partsLen [partsLen [partsLen [5, tlvLen (if ca then 16 else 8)]], partsLen [partsLen [5, tlvLen 64]]]

/-- SubjectPublicKeyInfo. -/
def keyLen : Profile → Nat
  | .p256 => partsLen [partsLen [9, 10], tlvLen 66]
  | .p384 => partsLen [partsLen [9, 7], tlvLen 98]
  | .mldsa87 => partsLen [partsLen [11], tlvLen 2593]

/-- Signature algorithm. -/
def sigAlgLen : Profile → Nat
  | .mldsa87 => partsLen [11]
  | _ => partsLen [10]

/-- Signature with `lead` leading octets in its string. -/
def sigLen (lead : Nat) : Profile → Nat
  | .p256 => tlvLen (lead + partsLen [tlvLen 33, tlvLen 33])
  | .p384 => tlvLen (lead + partsLen [tlvLen 49, tlvLen 49])
  | .mldsa87 => tlvLen (lead + 4627)

/-- Certificate. -/
def certLen (p : Profile) (z : Sizes) (ca : Bool) : Nat :=
  partsLen [partsLen [5, 22, sigAlgLen p, z.issuer, partsLen [tlvLen z.validity, tlvLen z.validity],
    nameLen ca, keyLen p, partsLen [extsLen z ca true]], sigAlgLen p, sigLen 1 p]

/-- CertificationRequest. -/
def requestLen (p : Profile) (z : Sizes) : Nat :=
  partsLen [partsLen [3, nameLen false, keyLen p, partsLen [partsLen [11,
    partsLen [extsLen z false false]]]], sigAlgLen p, sigLen 1 p]

/-- CMS message with a CertificationRequest. -/
def messageLen (p : Profile) (z : Sizes) : Nat :=
  partsLen [11, partsLen [partsLen [3, partsLen [partsLen [11]],
    partsLen [11, partsLen [partsLen [requestLen p z]]],
    partsLen [partsLen [3, z.signer, partsLen [11], sigAlgLen p, sigLen 0 p]]]]]

/-- What is issued. -/
def issuedLen (p : Profile) (z : Sizes) : CertKind → Nat
  | .leafX509 => certLen p z false
  | .exportedX509 => certLen p z true
  | .leafCsr => messageLen p z

/-! ### Platforms -/

/-- The platform's data have at most the given lengths. -/
structure PlatformData (ops : Ops σ) (z : Sizes) : Prop where
  issuer : ∀ w n b w', ops.issuerName w = (.ok (n, b), w') → n ≤ z.issuer
  validity : ∀ w v w', ops.certValidity w = (.ok v, w') →
    v.notBefore.length ≤ z.validity ∧ v.notAfter.length ≤ z.validity
  alt : ∀ w o w', ops.subjectAltName w = (.ok o, w') →
    ∃ a, z.alt = some a ∧ o.oid.length ≤ a.1 ∧ o.name.length ≤ a.2
  signer : ∀ w sid w', ops.signerId w = (.ok sid, w') → (signerIdentifier' sid).der.length ≤ z.signer

/-- The limits that the platform's interface sets (platform/src/lib.rs): issuer names of 128 octets,
times of 24, other names of 128, and signers named by an issuer of 128 octets and a serial number of
20 or by a key identifier of 20.  The interface sets no limit for the object identifier of the other
name; 64 octets are allowed for here. -/
def platformLimits (p : Profile) (handles label : Nat) : Sizes where
  chain := handles
  svn := 5
  tci := digestLength p
  label := label
  alt := some (64, 128)
  issuer := 128
  validity := 24
  signer := 154

/-- Tighter limits, under which the advertised maximum is enough. -/
def roomy (p : Profile) (kind : CertKind) (handles label : Nat) : Sizes :=
  match p, kind with
  | .mldsa87, .leafCsr =>
    { platformLimits p handles label with alt := none, signer := 24, svn := 4 }
  | .mldsa87, _ => platformLimits p handles label
  | _, .leafCsr => { platformLimits p handles label with alt := none, signer := 24 }
  | .p256, .leafX509 => { platformLimits p handles label with alt := none, issuer := 119, validity := 15 }
  | .p256, .exportedX509 =>
    { platformLimits p handles label with alt := none, issuer := 125, validity := 15 }
  | .p384, _ => { platformLimits p handles label with alt := none }

/-- The build is consistent: digests of the profile's length are stored, and certificates have the
advertised maximum size. -/
structure Cfg.Standard (cfg : Cfg) : Prop where
  tci : cfg.tciSize = digestLength cfg.profile
  cert : cfg.maxCertSize = advertised cfg.profile cfg.maxHandles

end Dpe
