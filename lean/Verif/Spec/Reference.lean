import Verif.Spec.Complete
import Verif.Spec.Keys
import Verif.Spec.Limits
import Verif.Spec.Report
import Verif.Spec.Chain
import Verif.Model.Reference
/-
When the commands of the reference device succeed: the default platform with the software crypto back
end, as the simulator uses them.
-/
namespace Dpe
variable {cfg : Cfg}

/-- The built-in certificate is usable: it begins with the tag of a SEQUENCE and leaves room for the
arithmetic on offsets; the issuer name is a DER SEQUENCE of at most 128 octets; the serial number has 1 to
20 octets, and the subject key identifier at least 20. -/
structure Artifact.Fit (a : Artifact) : Prop where
  der : a.chain.head? = some 0x30
  short : a.chain.length + 2048 < 2 ^ 32
  issuer : a.issuer.length ≤ 128
  issuerDer : WellFormed a.issuer
  issuerSeq : ∃ x, a.issuer = tlv 0x30 x
  serial : a.serial ≠ []
  serialShort : a.serial.length ≤ 20
  keyId : 20 ≤ a.keyId.length

/-- The crates do what they promise: HKDF expands to 48 octets and less, ECDSA signs digests of 32 octets
and more with every valid key, and the built-in alias keys are valid. -/
structure Lib.Total (L : Lib) : Prop where
  expand : ∀ h prk info n, n ≤ 48 → ∃ x, L.expand h prk info n = some x
  sign256 : ∀ k d, 32 ≤ d.length → ∃ x, L.sign256 k d = some x
  sign384 : ∀ k d, 32 ≤ d.length → ∃ x, L.sign384 k d = some x
  alias256 : ∃ b k, L.alias256 = some b ∧ L.key256 b = some k
  alias384 : ∃ b k, L.alias384 = some b ∧ L.key384 b = some k
  alias87 : ∃ b, L.alias87 = some b ∧ b.length = 32

/-- The device is built consistently: TCIs have the size of the profile's digests, and the loop over the
certificate chain is given enough fuel (the code has no bound). -/
structure Built (cfg : Cfg) (a : Artifact) : Prop where
  tci : cfg.tciSize = digestLength cfg.profile
  fuel : a.chain.length / 2048 + 2 ≤ cfg.diceFuel

/-- From the generator state `r`, one of the next `n` values of the generator is a handle that is neither
the default handle nor in use; `h` is the first such value, and `r'` the state after it. -/
inductive Lands (P : Prims) (st : State cfg) : Nat → P.Rng → Handle → P.Rng → Prop
  | hit {n : Nat} {r : P.Rng} : Unused st (P.fill16 r).1 → Lands P st (n + 1) r (P.fill16 r).1 (P.fill16 r).2
  | miss {n : Nat} {r r' : P.Rng} {h : Handle} : ¬ Unused st (P.fill16 r).1 →
      Lands P st n (P.fill16 r).2 h r' → Lands P st (n + 1) r h r'

/-- Some handle can be drawn. -/
def CanDraw (P : Prims) (st : State cfg) (r : P.Rng) : Prop := ∃ h r', Lands P st 8 r h r'

/-- The context's handle needs no replacement or can be replaced. -/
def CanReplace (P : Prims) (st : State cfg) (i : Nat) (r : P.Rng) : Prop :=
  (st.at i).handle = Handle.default ∨ CanDraw P st r

/-- The bytes that are hashed for the ancestry `path` (leaf first): what the contexts contribute, then the
internal-info input with vendor and SKU 0 if some context asks for it, then the certificate chain if some
context asks for it. -/
def measuredBytes (a : Artifact) (st : State cfg) (path : List Nat) : Bytes :=
  contentBytes st path (if path.any fun i => (st.at i).usesInfo then infoBytes cfg st.support 0 0 else [])
    (if path.any fun i => (st.at i).usesDice then a.chain else [])

/-- The octets are a private key. -/
def ValidKey (P : Prims) (priv : Bytes) : Prop := ∃ pk, P.pub priv = .ok pk

/-- The private key of context `i` for the label is valid. -/
def LeafValid (P : Prims) (a : Artifact) (st : State cfg) (i : Nat) (label : Bytes) : Prop :=
  ∃ path cdi priv, Path st i path ∧ LeafKey P cfg.profile (measuredBytes a st path) label cdi priv ∧
    ValidKey P priv

/-- The private key of the exported CDI of context `i` is valid. -/
def ExportValid (P : Prims) (a : Artifact) (st : State cfg) (i : Nat) : Prop :=
  ∃ path cdi priv, Path st i path ∧ ExportedKey P cfg.profile (measuredBytes a st path) cdi priv ∧
    ValidKey P priv

/-- What a Sign command asks to be signed is for the profile's algorithm.  (Both kinds sign raw
messages.) -/
def SignCmd.Suits : SignCmd → Profile → Prop
  | .p256 .., p => p ≠ .mldsa87
  | .p384 .., p => p ≠ .mldsa87
  | .mldsa87 .., p => p = .mldsa87
  | .mldsa87Raw .., _ => True

/-- `Able P a st loc w c`: nothing stands in the way of command `c` from locality `loc`, not refused in
state `st`, on a reference device with crypto state `w`. -/
def Able (P : Prims) (a : Artifact) (st : State cfg) (loc : U32) (w : Soft P) : Cmd cfg → Prop
  | .getProfile => True
  | .destroy _ => True
  | .chain c => c.offset.toNat < a.chain.length
  | .init f => Bit f IFlag.default ∨ CanDraw P st w.rng
  | .rotate c => Bit c.flags RFlag.targetIsDefault ∨ CanDraw P st w.rng
  | .sign c => ∃ i, Resolves st c.handle loc i ∧ LeafValid P a st i c.label ∧ c.Suits cfg.profile ∧
      CanReplace P st i w.rng
  | .certify c => ∃ i, Resolves st c.handle loc i ∧ LeafValid P a st i c.label ∧
      c.variant = cfg.profile ∧ CanReplace P st i w.rng
  | .derive c => ∃ i, Resolves st c.handle loc i ∧
      if Bit c.flags DFlag.recursive then CanReplace P st i w.rng
      else if Bit c.flags DFlag.exportCdi then
        w.slots = [] ∧ ExportValid P a st i ∧
          (Bit c.flags DFlag.retainParent → CanReplace P st i w.rng)
      else ∃ r, (if Bit c.flags DFlag.retainParent ∧ (st.at i).handle ≠ Handle.default
          then ∃ h, Lands P st 8 w.rng h r else r = w.rng) ∧
        (Bit c.flags DFlag.makeDefault ∨ CanDraw P st r)
  | .update c => ∃ i k h r st', Resolves st c.parentHandle loc i ∧ ActiveChild st i c.tciType k ∧
      Lands P st 8 w.rng h r ∧ SetSlot st i { st.at i with handle := h } st' ∧
      ((st.at k).handle = Handle.default ∨ CanDraw P st' r)

end Dpe
