import Verif.Spec.Vocab
/-
Specification of handle lookup, support checks and the slots a command may touch.
-/
namespace Dpe
variable {cfg : Cfg} {σ : Type}

/-- Which DeriveContext flag needs which supported feature. -/
def deriveNeeds : List (Nat × Nat) :=
  [(DFlag.internalInfo, Feature.internalInfo), (DFlag.internalDice, Feature.internalDice),
   (DFlag.retainParent, Feature.retainParent), (DFlag.allowX509, Feature.x509),
   (DFlag.exportCdi, Feature.cdiExport), (DFlag.createCert, Feature.cdiExport),
   (DFlag.recursive, Feature.recursive)]

/-- A DeriveContext flag word asks for a feature the instance lacks. -/
def AsksUnsupported (st : State cfg) (flags : U32) : Prop :=
  ∃ p ∈ deriveNeeds, Bit flags p.1 ∧ ¬ st.supports p.2

/-- The checks that come before the handle is looked up: `EarlyError st c e` says that
command `c` must be refused with `e` whatever its handle. -/
def EarlyError (st : State cfg) : Cmd cfg → Err → Prop
  | .rotate _, e => ¬ st.supports Feature.rotate ∧ e = .invalidCommand
  | .derive c, e => AsksUnsupported st c.flags ∧ e = .argumentNotSupported
  | .sign (.mldsa87Raw _ _ _ size _), e => 1024 < size.toNat ∧ e = .invalidArgument
  | .update c, e => c.parentHandle = Handle.default ∧ e = .invalidArgument
  | _, _ => False

/-- The error of a failed lookup. -/
def LookupError (st : State cfg) (loc : U32) : Cmd cfg → Err → Prop
  | .update _, e => e = .invalidParentLocality
  | _, e => (LocalityInUse st loc ∧ e = .invalidHandle) ∨
            (¬ LocalityInUse st loc ∧ e = .invalidLocality)

/-- The slots destroyed together with slot `i`: itself, all descendants, and the chain of
Retired ancestors with a single child. -/
def DestroyedWith (st : State cfg) (i j : Nat) : Prop := j = i ∨ Desc st i j ∨ RetiredUp st i j

/-- The `n`-th 16-byte handle after the 12-byte header of a response. -/
def replyHandle (out : Bytes) (n : Nat) : Bytes := (out.drop (12 + 16 * n)).take 16

end Dpe
