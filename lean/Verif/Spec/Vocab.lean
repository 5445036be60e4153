import Verif.Spec.Words
import Verif.Spec.Forest
import Verif.Model.Commands
/-
Specification vocabulary shared by the property theorems: bit positions taken from the
DPE specification, name resolution, and histories.  Nothing here refers to the helper
functions of the command model; a history is made of calls of the modelled entry points.
-/
namespace Dpe
variable {cfg : Cfg} {σ : Type}

/-! Bit positions of the DeriveContext flags (dpe/src/commands/derive_context.rs:26-41). -/
namespace DFlag
def internalInfo : Nat := 31
def internalDice : Nat := 30
def retainParent : Nat := 29
def makeDefault : Nat := 28
def changeLocality : Nat := 27
def allowExport : Nat := 26
def allowX509 : Nat := 25
def recursive : Nat := 24
def exportCdi : Nat := 23
def createCert : Nat := 22
def allowRecursive : Nat := 21
end DFlag

/-! Bit positions of the InitializeContext and RotateContextHandle flags. -/
namespace IFlag
def simulation : Nat := 31
def default : Nat := 30
end IFlag
namespace RFlag
def targetIsDefault : Nat := 31
end RFlag

/-- The instance supports feature `n`. -/
def State.supports (st : State cfg) (n : Nat) : Prop := Bit st.support n

/-- `h` resolves to slot `i` in locality `loc`: `i` is the first slot it names. (When
handles are unique it is the only one.) -/
def Resolves (st : State cfg) (h : Handle) (loc : U32) (i : Nat) : Prop :=
  Names st h loc i ∧ ∀ j, j < i → ¬ Names st h loc j

/-- Some Active context belongs to locality `loc`. -/
def LocalityInUse (st : State cfg) (loc : U32) : Prop :=
  ∃ i, (st.at i).state = .active ∧ (st.at i).locality = loc

/-- The handle a command operates on. -/
def Cmd.usesHandle : Cmd cfg → Option Handle
  | .getProfile => none
  | .init _ => none
  | .chain _ => none
  | .derive c => some c.handle
  | .certify c => some c.handle
  | .sign c => some c.handle
  | .rotate c => some c.handle
  | .destroy h => some h
  | .update c => some c.parentHandle

/-- A handle carried by no slot and different from the default handle. -/
def Unused (st : State cfg) (h : Handle) : Prop :=
  h ≠ Handle.default ∧ ∀ i, i < cfg.maxHandles → (st.at i).handle ≠ h

/-- One call made by an operator, with its result. -/
inductive Event (cfg : Cfg)
  | auto (r : Except Err Unit)
  | create (r : Except Err Unit)
  | cmd (c : Cmd cfg) (loc : U32) (r : Except Err Nat)

/-- `History support flags evs st`: starting from `State::new(support, flags)`, the calls
`evs` (oldest first) with the results recorded in them can lead to state `st`.  Every call
may see a different environment, hidden world and response buffer. -/
inductive History (support : U32) (flags : BitVec 16) : List (Event cfg) → State cfg → Prop
  | new : History support flags [] (State.new cfg support flags)
  | auto {σ : Type} {ops : Ops σ} {ty : U32} {m : BArr cfg.tciSize} {w : σ} {out : Bytes}
      {r : Except Err Unit} {s' : Sys cfg σ} :
      dpeNewAutoInit ops ty m ⟨State.new cfg support flags, w, out⟩ = (r, s') →
      History support flags [.auto r] s'.st
  | create {σ : Type} {ops : Ops σ} {st : State cfg} {w : σ} {out : Bytes} {evs : List (Event cfg)}
      {r : Except Err Unit} {s' : Sys cfg σ} :
      History support flags evs st → dpeNew ops ⟨st, w, out⟩ = (r, s') →
      History support flags (evs ++ [.create r]) s'.st
  | cmd {σ : Type} {env : Env cfg σ} {c : Cmd cfg} {loc : U32} {st : State cfg} {w : σ}
      {out : Bytes} {evs : List (Event cfg)} {r : Except Err Nat} {s' : Sys cfg σ} :
      History support flags evs st → exec env c loc ⟨st, w, out⟩ = (r, s') →
      History support flags (evs ++ [.cmd c loc r]) s'.st

end Dpe
