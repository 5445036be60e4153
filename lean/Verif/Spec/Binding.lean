import Verif.Spec.Measure
/-
What is fed into the measurement hash of a context.
-/
namespace Dpe
variable {cfg : Cfg} {σ : Type}

/-- Run an operation beside a recording. -/
def pass {ε α : Type} (f : σ → Except ε α × σ) : σ × Bytes → Except ε α × (σ × Bytes) :=
  fun w => ((f w.1).1, ((f w.1).2, w.2))

/-- The same operations, with a record of the bytes fed into the current hash. -/
def record (ops : Ops σ) : Ops (σ × Bytes) where
  Cdi := ops.Cdi
  Key := ops.Key
  rand := pass ops.rand
  hasher := pass ops.hasher
  hashInit := fun w => ((ops.hashInit w.1).1, ((ops.hashInit w.1).2, []))
  hashUpdate := fun b w => ((ops.hashUpdate b w.1).1, ((ops.hashUpdate b w.1).2, w.2 ++ b))
  hashFinish := pass ops.hashFinish
  deriveCdi a b := pass (ops.deriveCdi a b)
  deriveKeyPair a b c := pass (ops.deriveKeyPair a b c)
  deriveExportedCdi a b := pass (ops.deriveExportedCdi a b)
  deriveKeyPairExported a b c := pass (ops.deriveKeyPairExported a b c)
  sign a b := pass (ops.sign a b)
  publicKey a := pass (ops.publicKey a)
  signAlias a := pass (ops.signAlias a)
  sigAlgMldsa := ops.sigAlgMldsa
  digestSize := ops.digestSize
  certChain a b := pass (ops.certChain a b)
  issuerName := pass ops.issuerName
  signerId := pass ops.signerId
  issuerKeyId := pass ops.issuerKeyId
  vendorId := pass ops.vendorId
  vendorSku := pass ops.vendorSku
  autoInitLocality := pass ops.autoInitLocality
  certValidity := pass ops.certValidity
  subjectAltName := pass ops.subjectAltName
  ueid := pass ops.ueid

/-- What a context contributes to the measurement hash of itself and of its descendants: type,
cumulative and current TCI, locality, SVN and the x509 permission. -/
def nodeBytes (c : Context cfg) : Bytes :=
  word c.tci.tciType ++ c.tci.cumulative.toList ++ c.tci.current.toList ++ word c.tci.locality ++
    word c.tci.svn ++ [if c.allowX509 then 1 else 0]

/-- The two contexts contribute alike. -/
def SameNode (c c' : Context cfg) : Prop :=
  c.tci.tciType = c'.tci.tciType ∧ c.tci.cumulative = c'.tci.cumulative ∧
  c.tci.current = c'.tci.current ∧ c.tci.locality = c'.tci.locality ∧ c.tci.svn = c'.tci.svn ∧
  c.allowX509 = c'.allowX509

/-- The internal-info input: the GetProfile reply (profile, DPE version, vendor, SKU, number of
slots, features) and the profile number. -/
def infoBytes (cfg : Cfg) (support vid sku : U32) : Bytes :=
  [0x52, 0x45, 0x50, 0x44, 0, 0, 0, 0] ++ word (wireProfile cfg.profile) ++ [0, 0, 13, 0] ++ word vid ++
    word sku ++ word (BitVec.ofNat 32 cfg.maxHandles) ++ word support ++ word (wireProfile cfg.profile)

/-- `Fed ops st i fed nodes info chain`: computing the measurement hash of context `i` succeeds
in some world and feeds exactly the bytes `fed`, which are the contributions of `nodes` (leaf
first), then the internal-info input, then the certificate chain as far as read. -/
structure Fed (ops : Ops σ) (st : State cfg) (i : Nat) (fed : Bytes) (nodes : List Nat)
    (info chain : Bytes) : Prop where
  ran : ∃ w out d s', computeMeasurementHash (record ops) i ⟨st, w, out⟩ = (.ok d, s') ∧ s'.w.2 = fed
  path : Path st i nodes
  split : fed = (nodes.map fun j => nodeBytes (st.at j)).flatten ++ info ++ chain
  infoIs : (info = [] ∧ ∀ j ∈ nodes, (st.at j).usesInfo = false) ∨
    ((∃ vid sku, info = infoBytes cfg st.support vid sku) ∧ ∃ j ∈ nodes, (st.at j).usesInfo = true)
  chainIs : (∀ j ∈ nodes, (st.at j).usesDice = false) → chain = []

/-- `Content st nodes info chain`: what is hashed for the ancestry `nodes` (leaf first) can consist of
the contributions of the nodes, then `info`, then `chain`: the internal-info input is there exactly if
some node asks for it, the certificate chain only if some node asks for it. -/
structure Content (st : State cfg) (nodes : List Nat) (info chain : Bytes) : Prop where
  infoIs : (info = [] ∧ ∀ j ∈ nodes, (st.at j).usesInfo = false) ∨
    ((∃ vid sku, info = infoBytes cfg st.support vid sku) ∧ ∃ j ∈ nodes, (st.at j).usesInfo = true)
  chainIs : (∀ j ∈ nodes, (st.at j).usesDice = false) → chain = []

/-- The bytes that are hashed: contributions of the nodes, internal-info input, certificate chain. -/
def contentBytes (st : State cfg) (nodes : List Nat) (info chain : Bytes) : Bytes :=
  (nodes.map fun j => nodeBytes (st.at j)).flatten ++ info ++ chain

/-- Bytes that are empty or begin as every DER certificate does, with the SEQUENCE tag. -/
def DerStart (chain : Bytes) : Prop := chain = [] ∨ chain.head? = some 0x30

/-- A context with a type whose cumulative TCI is spelled out by `input` from its fifth byte on. -/
def Imitated (st : State cfg) (j : Nat) (input : Bytes) : Prop :=
  (st.at j).tci.tciType ≠ 0 ∧ (st.at j).tci.cumulative.toList = (input.drop 4).take cfg.tciSize

end Dpe
