import Verif.Spec.Frame
import Verif.Spec.Complete
/-
Getting the table empty again.
-/
namespace Dpe
variable {cfg : Cfg} {σ : Type}

/-- The number of Active contexts in the localities `L`. -/
def activeIn (L : U32 → Bool) (st : State cfg) : Nat :=
  ((List.range cfg.maxHandles).filter fun i =>
    decide ((st.at i).state = .active) && L (st.at i).locality).length

/-- `n` DestroyContext commands, one after the other, each from a locality in `L` and with the handle
of a context that is Active in that locality at that time. -/
inductive Destroys (env : Env cfg σ) (L : U32 → Bool) (s : Sys cfg σ) : Nat → Sys cfg σ → Prop
  | zero : Destroys env L s 0 s
  | succ {n : Nat} {s1 s2 : Sys cfg σ} {r : Except Err Nat} {h : Handle} {loc : U32} :
      Destroys env L s n s1 → L loc = true → (∃ i, Names s1.st h loc i) →
      exec env (.destroy h) loc s1 = (r, s2) → Destroys env L s (n + 1) s2

/-- The table is empty. -/
def NoContexts (st : State cfg) : Prop := ∀ i, ¬ Live st i

/-- Nothing can be created any more: no context is left to derive from, the one default
initialisation is over, and there are no simulation contexts. -/
def SpentForGood (st : State cfg) : Prop :=
  NoContexts st ∧ st.hasInitialized = true ∧ ¬ st.supports Feature.simulation

end Dpe
