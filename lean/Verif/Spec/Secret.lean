import Verif.Spec.Isolation
import Verif.Spec.Keep
/-
Handles as secrets.  `V` is a set of handles.  Those who do not know them do not use them, and the question is
what they can find out about them, and what they can do to the contexts that carry them.
-/
namespace Dpe
variable {cfg : Cfg} {σ : Type}

/-- Neither the default handle nor the one that marks destroyed contexts is in `V`: everybody knows these. -/
structure Private (V : Handle → Prop) : Prop where
  dflt : ¬ V Handle.default
  ones : ¬ V Handle.invalid

/-- Other values for the handles in `V`, again in `V`.  All other handles stay as they are. -/
structure Disguise (V : Handle → Prop) where
  to : Handle → Handle
  other : ∀ h, ¬ V h → to h = h
  within : ∀ h, V h → V (to h)

namespace Disguise
variable {V : Handle → Prop} (D : Disguise V)

/-- The context with its handle changed accordingly. -/
def ctx (c : Context cfg) : Context cfg := { c with handle := D.to c.handle }

/-- The state with all handles changed accordingly. -/
def state (st : State cfg) : State cfg :=
  { st with contexts := st.contexts.map D.ctx, len_eq := by simp [st.len_eq] }

end Disguise

/-- The command does not use a handle in `V`. -/
def Ignorant (V : Handle → Prop) (c : Cmd cfg) : Prop := ∀ h, c.usesHandle = some h → ¬ V h

/-- The state in which the context in slot `i` has the handle `h` instead of its own. -/
def State.rehandled (st : State cfg) (i : Nat) (h : Handle) : State cfg :=
  st.setCtx i { st.at i with handle := h }

/-- `V` contains the handles of the context in slot `i` and of all its Active ancestors. -/
def Guarded (V : Handle → Prop) (st : State cfg) (i : Nat) : Prop :=
  ∀ j, (j = i ∨ Anc st i j) → (st.at j).state = .active → V (st.at j).handle

end Dpe
