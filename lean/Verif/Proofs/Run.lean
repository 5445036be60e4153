import Verif.Proofs.Reply
/-
Forward evaluation of the command monad.
-/
namespace Dpe
variable {cfg : Cfg} {σ α β : Type}

theorem run_pure (a : α) (s : Sys cfg σ) : (pure a : M cfg σ α) s = (.ok a, s) := rfl

theorem run_get (f : State cfg → M cfg σ β) (s : Sys cfg σ) : (M.get >>= f) s = f s.st s := rfl

theorem run_modify (g : State cfg → State cfg) (f : Unit → M cfg σ β) (s : Sys cfg σ) :
    (M.modify g >>= f) s = f () { s with st := g s.st } := rfl

theorem run_failIf (c : Bool) (e : Err) (f : Unit → M cfg σ β) (s : Sys cfg σ) :
    (M.failIf c e >>= f) s = if c then (.error e, s) else f () s := by
  cases c <;> rfl

theorem run_lift (x : Except Err α) (f : α → M cfg σ β) (s : Sys cfg σ) :
    (M.lift x >>= f) s = match x with | .ok a => f a s | .error e => (.error e, s) := by
  cases x <;> rfl

theorem run_okOr (x : Option α) (e : Err) (f : α → M cfg σ β) (s : Sys cfg σ) :
    (M.okOr x e >>= f) s = match x with | some a => f a s | none => (.error e, s) := by
  cases x <;> rfl

theorem run_bind (x : M cfg σ α) (f : α → M cfg σ β) (s : Sys cfg σ) :
    (x >>= f) s = match x s with | (.ok a, s') => f a s' | (.error e, s') => (.error e, s') := rfl

theorem run_writeAt0 (b : Bytes) (f : Unit → M cfg σ β) (s : Sys cfg σ) :
    (writeAt 0 b >>= f) s =
      if b.length ≤ s.out.length then f () { s with out := b ++ s.out.drop b.length }
      else (.error .invalidResponseBuf, s) := by
  rw [run_bind]
  unfold writeAt bufWrite
  by_cases h : b.length ≤ s.out.length
  · simp [h]
  · simp [h]

end Dpe
