import Verif.Spec.Cert
import Verif.Spec.Vocab
import Verif.Spec.Digest
/-
What issuing a certificate or certification request means: which calls are made to the crypto
implementation and the platform, and which tree comes out.
-/
namespace Dpe
variable {cfg : Cfg} {σ : Type}

/-! ### Digests of public keys -/

/-- The octets of a public key in the pieces in which they are hashed. -/
def keyChunks : PubKey → List Bytes
  | .p256 x y => [[0x04], x.toList, y.toList]
  | .p384 x y => [[0x04], x.toList, y.toList]
  | .mldsa k => [k.toList]

/-- The key is an ML-DSA key. -/
def mldsaKey : PubKey → Bool
  | .mldsa _ => true
  | _ => false

/-- Hexadecimal digits. -/
def hexText (d : Bytes) : Bytes :=
  d.flatMap fun b => [(ascii "0123456789ABCDEF").getD (b.toNat / 16) 0,
    (ascii "0123456789ABCDEF").getD (b.toNat % 16) 0]

/-- The text of the subject's serialNumber: the first 64 of 96 characters, which are the digest in
hexadecimal followed by NULs. -/
def serialText (d : Bytes) : Bytes := (hexText d ++ List.replicate 96 0).take 64

/-! ### The key and the other ingredients -/

/-- The key pair whose public half is certified: derived from the CDI (or the exported CDI, whose
handle is then known) of the measurement digest. -/
def KeyPair (ops : Ops σ) (kind : CertKind) (a : CertArgs) (digest : Bytes) (w : σ) (key : ops.Key)
    (h : Option (BArr 32)) (w' : σ) : Prop :=
  match kind with
  | .exportedX509 => ∃ hd w1, h = some hd ∧ ops.deriveExportedCdi digest a.cdiLabel w = (.ok hd, w1) ∧
      ops.deriveKeyPairExported hd a.keyLabel a.context w1 = (.ok key, w')
  | _ => ∃ cdi w1, h = none ∧ ops.deriveCdi digest a.cdiLabel w = (.ok cdi, w1) ∧
      ops.deriveKeyPair cdi a.keyLabel a.context w1 = (.ok key, w')

/-- The ingredients of a certificate or request. -/
structure Draft where
  /-- The slot of the context. -/
  slot : Nat
  /-- The slots from the context to its root. -/
  path : List Nat
  /-- The measurement digest. -/
  digest : Bytes
  key : PubKey
  exportedCdi : Option (BArr 32)
  /-- The digest of the public key as used for the names. -/
  nameHash : Bytes
  /-- The digest of the public key as used for the key identifier. -/
  idHash : Bytes
  issuerKeyId : BArr 20
  altName : Option OtherName
  validity : Validity
  signer : SignerId

/-- What the platform says about an alternative name; a platform need not implement it. -/
def AltName (ops : Ops σ) (w : σ) (o : Option OtherName) (w' : σ) : Prop :=
  match o with
  | some n => ops.subjectAltName w = (.ok n, w')
  | none => ops.subjectAltName w = (.error .notImplemented, w')

/-- The ingredients are gathered from the state, the crypto implementation and the platform by these
calls, in this order. -/
def Drafted (ops : Ops σ) (kind : CertKind) (a : CertArgs) (st : State cfg) (w : σ) (D : Draft)
    (w' : σ) : Prop :=
  ∃ (key : ops.Key) (w1 w2 w3 w4 w5 w6 w7 w8 : σ),
    Resolves st a.handle a.locality D.slot ∧ Path st D.slot D.path ∧
    Measured ops st D.path w D.digest w1 ∧
    KeyPair ops kind a D.digest w1 key D.exportedCdi w2 ∧
    ops.publicKey key w2 = (.ok D.key, w3) ∧
    mldsaKey D.key = ops.sigAlgMldsa ∧ ops.digestSize ≤ 48 ∧
    Hashed ops (keyChunks D.key) w3 D.nameHash w4 ∧ D.nameHash.length ≤ 48 ∧
    Hashed ops (keyChunks D.key) w4 D.idHash w5 ∧ 20 ≤ D.idHash.length ∧
    ops.issuerKeyId w5 = (.ok D.issuerKeyId, w6) ∧
    AltName ops w6 D.altName w7 ∧
    ops.certValidity w7 = (.ok D.validity, w8) ∧
    ops.signerId w8 = (.ok D.signer, w')

instance (st : State cfg) (n : Nat) : Decidable (st.supports n) := inferInstanceAs (Decidable (Bit _ _))

/-- What the ingredients attest. -/
def Draft.subject (D : Draft) (kind : CertKind) (a : CertArgs) (st : State cfg) : Subject cfg where
  cn := if kind = .exportedX509 then ascii "DPE Exported CDI" else ascii "DPE Leaf"
  serialName := serialText D.nameHash
  key := D.key
  attested :=
    { chain := D.path.reverse.map fun i => (st.at i).tci
      label := a.ueid
      ca := decide (kind = .exportedX509)
      recursive := decide (kind ≠ .exportedX509 ∧ st.supports Feature.recursive)
      critical := a.critDice
      subjectKeyId := D.idHash.take 20
      authorityKeyId := D.issuerKeyId.toList
      altName := D.altName }

/-- The certificate to be signed; its serial number is the first 20 characters of the subject's. -/
def Draft.tbs (D : Draft) (kind : CertKind) (a : CertArgs) (st : State cfg) (issuer : Bytes) : Asn :=
  tbsCertificate cfg.profile ((serialText D.nameHash).take 20) issuer D.validity
    (D.subject kind a st)

/-- The request information to be signed. -/
def Draft.info (D : Draft) (a : CertArgs) (st : State cfg) : Asn :=
  requestInfo cfg.profile (D.subject .leafCsr a st)

/-- The tree `t` is issued, with exactly these signatures.  A certificate is signed with the alias
key.  A request is signed with the derived key, whose derivation is repeated, and the message around
it with the alias key. -/
inductive Issued (ops : Ops σ) (a : CertArgs) (st : State cfg) (D : Draft) :
    CertKind → σ → Asn → σ → Prop
  | certificate {kind : CertKind} {n : Nat} {name : BArr 128} {sig : Sig} {w w1 w' : σ} :
      kind ≠ .leafCsr → ops.issuerName w = (.ok (n, name), w1) → n ≤ 128 →
      ops.signAlias (.buffer (D.tbs kind a st (name.toList.take n)).written) w1 = (.ok sig, w') →
      Issued ops a st D kind w
        (certificate cfg.profile (D.tbs kind a st (name.toList.take n)) sig) w'
  | request {cdi : ops.Cdi} {key : ops.Key} {sig sig' : Sig} {w w1 w2 w3 w' : σ} :
      ops.deriveCdi D.digest a.cdiLabel w = (.ok cdi, w1) →
      ops.deriveKeyPair cdi a.keyLabel a.context w1 = (.ok key, w2) →
      ops.sign key (.buffer (D.info a st).written) w2 = (.ok sig, w3) →
      ops.signAlias (.buffer (request cfg.profile (D.info a st) sig).written) w3 = (.ok sig', w') →
      Issued ops a st D .leafCsr w
        (signedRequest cfg.profile (cmsVersionOf D.signer) (signerIdentifier' D.signer)
          (request cfg.profile (D.info a st) sig) sig') w'

/-- The platform never names the signer by an empty serial number. -/
def SerialGiven (ops : Ops σ) : Prop :=
  ∀ w i w', ops.signerId w ≠ (.ok (.issuerAndSerial i []), w')

/-- The crypto implementation signs with ML-DSA exactly under the ML-DSA profile. -/
def AlgorithmFits (cfg : Cfg) (ops : Ops σ) : Prop :=
  ops.sigAlgMldsa = true ↔ cfg.profile = .mldsa87

end Dpe
