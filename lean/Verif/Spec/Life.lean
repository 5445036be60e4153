import Verif.Spec.Frame
/-
Counting calls in a history, and random draws.
-/
namespace Dpe
variable {cfg : Cfg} {σ : Type}

/-- The call performed a default initialisation and reported success; `auto` says whether the
instance supports automatic initialisation. -/
def Event.initialised (auto : Bool) : Event cfg → Bool
  | .auto (.ok _) => auto
  | .create (.ok _) => auto
  | .cmd (.init f) _ (.ok _) => f.getLsbD IFlag.default
  | _ => false

/-- The number of slots destroyed together with slot `idx`. -/
noncomputable def destroyedCount (st : State cfg) (idx : Nat) : Nat :=
  ((List.range cfg.maxHandles).filter fun i => @decide (DestroyedWith st idx i) (Classical.propDecidable _)).length

/-- `Draws ops w l w'`: drawing `l.length` times from the random source in world `w` gives the
results `l` and ends in world `w'`. -/
inductive Draws (ops : Ops σ) : σ → List (Except CryptoErr Handle) → σ → Prop
  | nil {w : σ} : Draws ops w [] w
  | cons {w w1 w2 : σ} {x : Except CryptoErr Handle} {l : List (Except CryptoErr Handle)} :
      ops.rand w = (x, w1) → Draws ops w1 l w2 → Draws ops w (x :: l) w2

end Dpe
