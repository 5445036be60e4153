import Verif.Model.Commands
import Verif.Model.Validate
import Verif.Spec.Forest
import Verif.Spec.Vocab
/-
The states of an instance in service.  Besides the states reached from `State::new`, these are
the states restored from storage: any state at all, provided the validator accepted it and it
has no feature that this build excludes.
-/
namespace Dpe
variable {cfg : Cfg}

/-- States of an instance in service: reached from `State::new`, or restored from storage and
accepted by the validator (with whatever recursion depth it needs), then any sequence of
`DpeInstance::new` calls and of commands from any locality, each with an arbitrary environment,
hidden world and response buffer, whatever the outcome of each.  `State::new` never grants a
feature that the build excludes (dpe/src/support.rs:57-102).  The validator does not look at this,
and the model has the code of all features; so a restored state is asked to have none of the
excluded features, as it is when it was saved by the same build. -/
inductive InService : State cfg → Prop
  | reached {st : State cfg} : Reachable st → InService st
  | restored {st : State cfg} (fuel : Nat) : cfg.maxHandles ≤ fuel →
      validateDpe fuel st = .ok () → (∀ f, Bit cfg.disabled f → ¬ st.supports f) → InService st
  | create {σ : Type} (ops : Ops σ) (st : State cfg) (w : σ) (out : Bytes) :
      InService st → InService (dpeNew ops ⟨st, w, out⟩).2.st
  | step {σ : Type} (env : Env cfg σ) (c : Cmd cfg) (loc : U32) (st : State cfg) (w : σ)
      (out : Bytes) : InService st → InService (exec env c loc ⟨st, w, out⟩).2.st

/-- Every reachable state is one of an instance in service. -/
instance {st : State cfg} : Coe (Reachable st) (InService st) := ⟨.reached⟩

/-- What commands maintain and the validator does not look at: the children of a context have
different types, and each of the three privileges of a context is held by its parent too. -/
structure Rights (st : State cfg) : Prop where
  sib : ∀ i j k, Lists st i j → Lists st i k → (st.at j).tci.tciType = (st.at k).tci.tciType → j = k
  px509 : ∀ i j, Lists st i j → (st.at j).allowX509 = true → (st.at i).allowX509 = true
  pexport : ∀ i j, Lists st i j → (st.at j).allowExport = true → (st.at i).allowExport = true
  prec : ∀ i j, Lists st i j → (st.at j).allowRecursive = true → (st.at i).allowRecursive = true

end Dpe
