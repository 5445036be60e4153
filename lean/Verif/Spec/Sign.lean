import Verif.Spec.Certify
/-
What Sign does, and what it shares with CertifyKey.
-/
namespace Dpe
variable {cfg : Cfg} {σ : Type}

/-- The key pair of a context for a label: the measurement digest over the ancestry `path` is turned
into a CDI, and the CDI, the label and the profile's purpose into a key pair. -/
def SigningKey (ops : Ops σ) (st : State cfg) (path : List Nat) (label : Bytes) (w : σ) (key : ops.Key)
    (w' : σ) : Prop :=
  ∃ d cdi w1 w2, Measured ops st path w d w1 ∧ ops.deriveCdi d (ascii "DPE") w1 = (.ok cdi, w2) ∧
    ops.deriveKeyPair cdi label (keyPurpose cfg.profile) w2 = (.ok key, w')

/-- What a Sign command asks to be signed. -/
def SignCmd.message : SignCmd → SignData
  | .p256 _ _ _ d => .digest d.toList
  | .p384 _ _ _ d => .digest d.toList
  | .mldsa87 _ _ _ d => .mu d
  | .mldsa87Raw _ _ _ n d => .raw (d.toList.take n.toNat)

/-- The signature fields of a Sign response; one octet of padding follows an ML-DSA signature. -/
def sigFields : Sig → Bytes
  | .p256 r s => r.toList ++ s.toList
  | .p384 r s => r.toList ++ s.toList
  | .mldsa s => s.toList ++ [0]

/-- A Sign response. -/
def signReply (p : Profile) (h : Handle) (sig : Sig) : Bytes :=
  successBytes p ++ h.toList ++ sigFields sig

/-- The handle in a response (after the header). -/
def handleIn (out : Bytes) : Bytes := (out.drop 12).take 16

/-- The public key in a response to the CertifyKey command. -/
def keyIn (c : CertifyCmd) (out : Bytes) : Bytes := (out.drop 28).take c.keyBytes

/-- The signature in an `n`-byte response to Sign. -/
def sigIn (out : Bytes) (n : Nat) : Bytes := (out.take n).drop 28

/-- The measurement-relevant part of a context. -/
def evidence (c : Context cfg) : Tci cfg × Bool × Bool × Bool :=
  (c.tci, c.allowX509, c.usesInfo, c.usesDice)

/-- Two ancestries (leaf first) carry the same evidence. -/
def SameEvidence (st : State cfg) (path : List Nat) (st' : State cfg) (path' : List Nat) : Prop :=
  st.support = st'.support ∧
    path.map (fun i => evidence (st.at i)) = path'.map (fun i => evidence (st'.at i))

/-- A platform whose identity and certificate chain do not change. -/
structure Steady {τ : Type} (plat : Ops τ) : Prop where
  vendorId : ∀ w w', (plat.vendorId w).1 = (plat.vendorId w').1
  vendorSku : ∀ w w', (plat.vendorSku w).1 = (plat.vendorSku w').1
  certChain : ∀ off size w w', (plat.certChain off size w).1 = (plat.certChain off size w').1

end Dpe
