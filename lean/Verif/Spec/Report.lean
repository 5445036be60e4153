import Verif.Spec.Parse
import Verif.Spec.Issue
/-
What a reader of an issued certificate or request should find in it.
-/
namespace Dpe
variable {cfg : Cfg} {σ : Type}

/-- The contents octets of the object identifier of the profile's hash algorithm: SHA-256, or
SHA-384. -/
def hashArcs : Profile → Bytes
  | .p256 => oidBody [2, 16, 840, 1, 101, 3, 4, 2, 1]
  | .p384 => oidBody [2, 16, 840, 1, 101, 3, 4, 2, 2]
  | .mldsa87 => oidBody [2, 16, 840, 1, 101, 3, 4, 2, 2]

/-- The TcbInfo of a context: its SVN, its current TCI, its locality (big endian), its type as given
by the caller (little endian), and with recursive measurements its cumulative TCI in register 0. -/
def reported (p : Profile) (recursive : Bool) (t : Tci cfg) : TcbFields where
  svn := t.svn.toNat
  fwids := [(hashArcs p, t.current.toList)]
  vendorInfo := (word t.locality).reverse
  type := word t.tciType
  registers := if recursive then [(0, [(hashArcs p, t.cumulative.toList)])] else []

/-- The octets of a signature: ECDSA-Sig-Value, or the ML-DSA signature. -/
def sigContents : Sig → Bytes
  | .p256 r s => (ecdsaSig r.toList s.toList).der
  | .p384 r s => (ecdsaSig r.toList s.toList).der
  | .mldsa s => s.toList

/-- The extensions that say what the certificate is about: identifier, critical, value. -/
def extSpecs (p : Profile) (a : Attested cfg) (cert : Bool) : List (Bytes × Bool × Asn) :=
  [(oidBody [2, 23, 133, 5, 4, 5], a.critical, multiTcbInfo p a),
   (oidBody [2, 23, 133, 5, 4, 4], a.critical, seqOf [octets a.label]),
   (oidBody [2, 5, 29, 19], true, basicConstraints a.ca),
   (oidBody [2, 5, 29, 15], true, keyUsage a.ca),
   (oidBody [2, 5, 29, 37], true, extKeyUsage a.ca)] ++
  (if a.ca && cert then [(oidBody [2, 5, 29, 14], false, octets a.subjectKeyId)] else []) ++
  (if cert then [(oidBody [2, 5, 29, 35], false, seqOf [implicit 0 a.authorityKeyId])] else []) ++
  (match a.altName with
    | some o => [(oidBody [2, 5, 29, 17], false, altNames o)]
    | none => [])

/-- The extensions as a reader finds them. -/
def foundExts (p : Profile) (a : Attested cfg) (cert : Bool) : List Ext :=
  (extSpecs p a cert).map fun e => ⟨e.1, e.2.1, e.2.2.der⟩

/-- The platform's issuer name is a DER SEQUENCE. -/
def IssuerNamed (ops : Ops σ) : Prop :=
  ∀ w n name w', ops.issuerName w = (.ok (n, name), w') → n ≤ 128 →
    ∃ x, name.toList.take n = tlv 0x30 x ∧ WellFormed (name.toList.take n)

/-- The issuer name in the platform's signer identifier is DER. -/
def SignerNamed (ops : Ops σ) : Prop :=
  ∀ w i sn w', ops.signerId w = (.ok (.issuerAndSerial i sn), w') → WellFormed i

/-- The measurements of a context and its ancestors, root first; `path` goes from the context to its
root. -/
def chainOf (st : State cfg) (path : List Nat) : List (Tci cfg) :=
  path.reverse.map fun i => (st.at i).tci

/-- The platform's issuer name. -/
def IssuerGiven (ops : Ops σ) (w : σ) (issuer : Bytes) (w' : σ) : Prop :=
  ∃ n name, ops.issuerName w = (.ok (n, name), w') ∧ n ≤ 128 ∧ issuer = name.toList.take n

/-- The object identifier of the key purpose: attestation of the local platform. -/
def attestLoc : Bytes := oidBody [2, 23, 133, 5, 4, 100, 9]

/-- The object identifier of the key purpose: embedded certificate authority. -/
def embeddedCa : Bytes := oidBody [2, 23, 133, 5, 4, 100, 12]

/-- What is assumed about crypto and platform where certificates are concerned. -/
structure Decent (cfg : Cfg) (ops : Ops σ) : Prop where
  fits : AlgorithmFits cfg ops
  serial : SerialGiven ops
  issuer : IssuerNamed ops
  signer : SignerNamed ops

end Dpe
