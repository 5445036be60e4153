import Verif.Spec.Effects
import Verif.Spec.Frame
/-
The measurements each context received, as a log kept beside a history.
-/
namespace Dpe
variable {cfg : Cfg} {σ : Type}

/-- The measurement register obtained by extending zero with the measurements `ms`, in order,
with hash function `H`. -/
def hashChain (H : Bytes → Bytes) (n : Nat) (ms : List Bytes) : Bytes :=
  ms.foldl (fun acc m => H (acc ++ m)) (List.replicate n 0)

/-- The environment hashes with the function `H`. -/
def HashesWith (H : Bytes → Bytes) (ops : Ops σ) : Prop := Digests ops fun x y => y = H x

/-- Command `c`, executed in state `st` for a caller in `loc`, is meant to measure `m` into
slot `i`. -/
def Measures (st : State cfg) (loc : U32) : Cmd cfg → Nat → Bytes → Prop
  | .derive k, i, m => m = k.data.toList ∧
      if Bit k.flags DFlag.recursive then Resolves st k.handle loc i
      else ¬ Bit k.flags DFlag.exportCdi ∧ FirstFree st i
  | .update u, i, m => m = u.data.toList ∧
      ∃ idx, Resolves st u.parentHandle loc idx ∧ ActiveChild st idx u.tciType i
  | _, _, _ => False

/-- The command took effect: it succeeded, or only its reply did not fit. -/
def Took (r : Except Err Nat) (st st' : State cfg) : Prop :=
  (∃ n, r = .ok n) ∨ (r = .error .invalidResponseBuf ∧ st' ≠ st)

/-- How the log `lg` of a slot continues over one command. -/
def LogStep (st : State cfg) (loc : U32) (c : Cmd cfg) (r : Except Err Nat) (st' : State cfg)
    (i : Nat) (lg lg' : List Bytes) : Prop :=
  (¬ Live st' i ∧ lg' = []) ∨
  (Live st' i ∧ Took r st st' ∧ ∃ m, Measures st loc c i m ∧ lg' = lg ++ [m]) ∨
  (Live st' i ∧ ¬ (Took r st st' ∧ ∃ m, Measures st loc c i m) ∧ lg' = lg)

/-- `Logged H log st`: some history, all of whose environments hash with `H`, reaches `st`, and
`log i` are the measurements that commands of that history put into the context now in slot
`i`, oldest first. -/
inductive Logged (H : Bytes → Bytes) : (Nat → List Bytes) → State cfg → Prop
  | new (support : U32) (flags : BitVec 16) : Logged H (fun _ => []) (State.new cfg support flags)
  | auto {σ : Type} {ops : Ops σ} {ty : U32} {m : BArr cfg.tciSize} {support : U32}
      {flags : BitVec 16} {w : σ} {out : Bytes} {r : Except Err Unit} {s' : Sys cfg σ}
      {log : Nat → List Bytes} : HashesWith H ops →
      dpeNewAutoInit ops ty m ⟨State.new cfg support flags, w, out⟩ = (r, s') →
      (∀ i, i ≠ 0 → log i = []) → (r = .ok () → log 0 = [m.toList]) →
      (r ≠ .ok () → log 0 = []) →
      Logged H log s'.st
  | create {σ : Type} {ops : Ops σ} {st : State cfg} {w : σ} {out : Bytes} {r : Except Err Unit}
      {s' : Sys cfg σ} {log : Nat → List Bytes} : Logged H log st →
      dpeNew ops ⟨st, w, out⟩ = (r, s') → Logged H log s'.st
  | cmd {σ : Type} {env : Env cfg σ} {c : Cmd cfg} {loc : U32} {st : State cfg} {w : σ}
      {out : Bytes} {r : Except Err Nat} {s' : Sys cfg σ} {log log' : Nat → List Bytes} :
      Logged H log st → HashesWith H env.toOps → exec env c loc ⟨st, w, out⟩ = (r, s') →
      (∀ i, LogStep st loc c r s'.st i (log i) (log' i)) → Logged H log' s'.st

end Dpe
