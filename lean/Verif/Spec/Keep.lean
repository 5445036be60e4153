import Verif.Spec.Measure
import Verif.Spec.Handles
/-
How long a handle stays good.
-/
namespace Dpe
variable {cfg : Cfg}

/-- Command `c` from locality `loc` is about the context in slot `i`: its handle leads to that
context, or it destroys a context above it, or it extends it through its parent's handle. -/
def Meant (st : State cfg) (loc : U32) (c : Cmd cfg) (i : Nat) : Prop :=
  (∃ h, c.usesHandle = some h ∧ Resolves st h loc i) ∨
  (∃ h idx, c = .destroy h ∧ Resolves st h loc idx ∧ Desc st idx i) ∨
  (∃ u idx, c = .update u ∧ Resolves st u.parentHandle loc idx ∧ ActiveChild st idx u.tciType i)

/-- Any number of calls from `st` on: instance creations, and commands that satisfy `P` in the state
and the locality they are executed in.  They may succeed or fail, and every call may meet another
crypto implementation and platform. -/
inductive CallsWith (P : State cfg → U32 → Cmd cfg → Prop) (st : State cfg) : State cfg → Prop
  | refl : CallsWith P st st
  | cmd {σ : Type} {st1 : State cfg} (env : Env cfg σ) (c : Cmd cfg) (loc : U32) (w : σ) (out : Bytes) :
      CallsWith P st st1 → P st1 loc c → CallsWith P st (exec env c loc ⟨st1, w, out⟩).2.st
  | create {σ : Type} {st1 : State cfg} (ops : Ops σ) (w : σ) (out : Bytes) :
      CallsWith P st st1 → CallsWith P st (dpeNew ops ⟨st1, w, out⟩).2.st

/-- No command of these is about the context in slot `i`. -/
abbrev LeavesAlone (i : Nat) : State cfg → State cfg → Prop :=
  CallsWith fun st loc c => ¬ Meant st loc c i

/-- Nor does any of these measure into an ancestor of that context. -/
abbrev LeavesAncestry (i : Nat) : State cfg → State cfg → Prop :=
  CallsWith fun st loc c => ¬ Meant st loc c i ∧ ∀ j m, Anc st i j → ¬ Measures st loc c j m

/-- A caller cannot tell the two contexts apart by handle and locality.  (The default handle is
looked up per locality, any other handle is to be unique.) -/
def SameName (a b : Context cfg) : Prop :=
  b.handle = a.handle ∧ (a.handle = Handle.default → b.locality = a.locality)

/-- No other Active context has the name of the one in slot `i`. -/
def Sole (st : State cfg) (i : Nat) : Prop :=
  ∀ j, (st.at j).state = .active → SameName (st.at i) (st.at j) → j = i

end Dpe
