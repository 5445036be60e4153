import Verif.Spec.Effects
/-
Construction of an instance.
-/
namespace Dpe
variable {cfg : Cfg}

/-- `st1` is the state in which a default InitializeContext from locality `loc` leaves a fresh
state, with any environment and any sufficient response buffer. -/
def AfterDefaultInit (support : U32) (flags : BitVec 16) (loc : U32) (st1 : State cfg) : Prop :=
  ∀ (τ : Type) (env : Env cfg τ) (w : τ) (out : Bytes), 28 ≤ out.length →
    ∃ n s', exec env (.init 0x40000000) loc ⟨State.new cfg support flags, w, out⟩ = (.ok n, s') ∧
      s'.st = st1

end Dpe
