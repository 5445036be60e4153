import Verif.Spec.Frame
/-
Uniqueness of handles and the rule that keeps default contexts alone in their locality.
-/
namespace Dpe
variable {cfg : Cfg} {σ : Type}

/-- Two different Active contexts never share a non-default handle. -/
def UniqueHandles (st : State cfg) : Prop :=
  ∀ i j, (st.at i).state = .active → (st.at j).state = .active →
    (st.at i).handle = (st.at j).handle → (st.at i).handle ≠ Handle.default → i = j

/-- A locality with a default-handle Active context has no other Active context. -/
def DefaultAlone (st : State cfg) : Prop :=
  ∀ i j, (st.at i).state = .active → (st.at j).state = .active →
    (st.at i).locality = (st.at j).locality → (st.at i).handle = Handle.default → i = j

/-- A DeriveContext that retained its parent left the parent and the new child with the same
non-default handle. -/
def Twins (st : State cfg) (c : Cmd cfg) (loc : U32) (st' : State cfg) : Prop :=
  ∃ k i j, c = .derive k ∧ Bit k.flags DFlag.retainParent ∧ Resolves st k.handle loc i ∧
    FirstFree st j ∧ (st'.at i).handle = (st'.at j).handle ∧ (st'.at i).handle ≠ Handle.default

/-- States reachable by histories in which no DeriveContext made twins. -/
inductive ReachableNoTwins : State cfg → Prop
  | new (support : U32) (flags : BitVec 16) : ReachableNoTwins (State.new cfg support flags)
  | create {σ : Type} (ops : Ops σ) (st : State cfg) (w : σ) (out : Bytes) :
      ReachableNoTwins st → ReachableNoTwins (dpeNew ops ⟨st, w, out⟩).2.st
  | autoInit {σ : Type} (ops : Ops σ) (ty : U32) (m : BArr cfg.tciSize) (support : U32)
      (flags : BitVec 16) (w : σ) (out : Bytes) :
      ReachableNoTwins (dpeNewAutoInit ops ty m ⟨State.new cfg support flags, w, out⟩).2.st
  | step {σ : Type} (env : Env cfg σ) (c : Cmd cfg) (loc : U32) (st : State cfg) (w : σ)
      (out : Bytes) : ReachableNoTwins st → ¬ Twins st c loc (exec env c loc ⟨st, w, out⟩).2.st →
      ReachableNoTwins (exec env c loc ⟨st, w, out⟩).2.st

end Dpe
