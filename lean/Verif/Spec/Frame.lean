import Verif.Spec.Effects
/-
Which slots a command may touch, and what may change in a slot.
-/
namespace Dpe
variable {cfg : Cfg} {σ : Type}

/-- Slots touched by destroying `idx`: the destroyed ones, and a survivor that listed a
destroyed child (the first surviving ancestor). -/
def DestroyTouches (st : State cfg) (idx i : Nat) : Prop :=
  DestroyedWith st idx i ∨ ∃ j, Lists st i j ∧ DestroyedWith st idx j

/-- The slots a command from locality `loc` is entitled to touch. -/
def MayTouch (st : State cfg) (loc : U32) : Cmd cfg → Nat → Prop
  | .getProfile, _ => False
  | .chain _, _ => False
  | .init _, i => FirstFree st i
  | .rotate c, i => Resolves st c.handle loc i
  | .sign c, i => Resolves st c.handle loc i
  | .certify c, i => Resolves st c.handle loc i
  | .destroy h, i => ∃ idx, Resolves st h loc idx ∧ DestroyTouches st idx i
  | .derive c, i => Resolves st c.handle loc i ∨
      (¬ Bit c.flags DFlag.recursive ∧ ¬ Bit c.flags DFlag.exportCdi ∧ FirstFree st i) ∨
      (Bit c.flags DFlag.exportCdi ∧ ¬ Bit c.flags DFlag.retainParent ∧
        ∃ idx, Resolves st c.handle loc idx ∧ (∀ j, ¬ Lists st idx j) ∧ DestroyTouches st idx i)
  | .update c, i => ∃ idx, Resolves st c.parentHandle loc idx ∧
      (i = idx ∨ ActiveChild st idx c.tciType i)

/-- The part of a context that never changes while it is live. -/
def SameIdentity (c c' : Context cfg) : Prop :=
  c'.parentIdx = c.parentIdx ∧ c'.locality = c.locality ∧ c'.ctype = c.ctype ∧
  c'.tci.tciType = c.tci.tciType ∧ c'.tci.locality = c.tci.locality ∧ c'.tci.svn = c.tci.svn ∧
  c'.usesInfo = c.usesInfo ∧ c'.usesDice = c.usesDice ∧ c'.allowX509 = c.allowX509 ∧
  c'.allowExport = c.allowExport ∧ c'.allowRecursive = c.allowRecursive ∧
  (c.state = .retired → c'.state = .retired)

/-- Number of live contexts. -/
def liveCount (st : State cfg) : Nat :=
  ((List.range cfg.maxHandles).filter fun i => decide ((st.at i).state ≠ .inactive)).length

/-- One call on an existing instance: a command or `DpeInstance::new`. -/
inductive Call : State cfg → State cfg → Prop
  | cmd {σ : Type} (env : Env cfg σ) (c : Cmd cfg) (loc : U32) (st : State cfg) (w : σ)
      (out : Bytes) : Call st (exec env c loc ⟨st, w, out⟩).2.st
  | create {σ : Type} (ops : Ops σ) (st : State cfg) (w : σ) (out : Bytes) :
      Call st (dpeNew ops ⟨st, w, out⟩).2.st

/-- Any number of calls during which slot `i` stays live. -/
inductive StaysLive (i : Nat) (st : State cfg) : State cfg → Prop
  | refl : Live st i → StaysLive i st st
  | step {st1 st2 : State cfg} : StaysLive i st st1 → Call st1 st2 → Live st2 i → StaysLive i st st2

/-- Any number of calls. -/
inductive Calls (st : State cfg) : State cfg → Prop
  | refl : Calls st st
  | step {st1 st2 : State cfg} : Calls st st1 → Call st1 st2 → Calls st st2

end Dpe
