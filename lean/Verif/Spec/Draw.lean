import Verif.Spec.Vocab
/-
Drawing a new handle from the random source.
-/
namespace Dpe
variable {cfg : Cfg} {σ : Type}

/-- Within `n` draws the random source delivers a handle that is neither the default handle nor in
use, and `h` is the first such handle. -/
inductive GoodDraw (ops : Ops σ) (st : State cfg) : Nat → σ → Handle → σ → Prop
  | hit {n : Nat} {w w' : σ} {h : Handle} : ops.rand w = (.ok h, w') → Unused st h →
      GoodDraw ops st (n + 1) w h w'
  | miss {n : Nat} {w w1 w' : σ} {h h0 : Handle} : ops.rand w = (.ok h0, w1) → ¬ Unused st h0 →
      GoodDraw ops st n w1 h w' → GoodDraw ops st (n + 1) w h w'

/-- A used handle is replaced: the default handle stays, any other one is drawn anew, with at most
eight draws. -/
def Redrawn (ops : Ops σ) (st : State cfg) (old : Handle) (w : σ) (new : Handle) (w' : σ) : Prop :=
  (old = Handle.default ∧ new = Handle.default ∧ w' = w) ∨
  (old ≠ Handle.default ∧ GoodDraw ops st 8 w new w')

/-- How the random source is used for the parent of a derivation: a retained parent gets a new
handle. -/
def ParentDrawn (ops : Ops σ) (c : DeriveCmd cfg) (st : State cfg) (i : Nat) (w w' : σ) : Prop :=
  (¬ Bit c.flags DFlag.retainParent ∧ w' = w) ∨
  (Bit c.flags DFlag.retainParent ∧ ∃ hd, Redrawn ops st (st.at i).handle w hd w')

end Dpe
