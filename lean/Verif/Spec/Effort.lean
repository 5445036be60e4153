import Verif.Spec.Uses
/-
How much work a command causes outside: the number of its calls of the crypto implementation and of the platform.
-/
namespace Dpe
variable {cfg : Cfg} {σ : Type}

/-- The number of chunks of the certificate chain that are asked for. -/
def chainReads {ops : Ops σ} : List (Use ops) → Nat
  | [] => 0
  | .certChain .. :: us => chainReads us + 1
  | _ :: us => chainReads us

/-- The number of calls of a command that reads no certificate chain on the way, at most: eight draws for each
handle that may be replaced; five for a new cumulative measurement; for the measurement hash six and two for each
slot; three to get at a key; and for a certificate or a request twelve to hash the public key twice, four to ask
for its parts, and then two or four. -/
def Cmd.effort : Cmd cfg → Nat
  | .destroy _ => 0
  | .chain _ => 1
  | .getProfile => 2
  | .init _ | .rotate _ => 8
  | .update _ => 5 + 8 + 8
  | .sign _ => (2 * cfg.maxHandles + 6) + 3 + 8
  | .certify _ => (2 * cfg.maxHandles + 6) + 3 + (12 + 4 + 4) + 8
  | .derive _ => 8 + 1 + (2 * cfg.maxHandles + 6) + 3 + (12 + 4 + 2)

/-- The command hashes the ancestry of a context. -/
def Cmd.digests : Cmd cfg → Bool
  | .sign _ | .certify _ | .derive _ => true
  | _ => false

/-- The certificate chain of the platform has `n` bytes: past its end there is nothing, and the chunks of it are
full, except the last one. -/
def ChainSized (ops : Ops σ) (n : Nat) : Prop :=
  ∀ off w len chunk, (ops.certChain off 2048 w).1 = .ok (len, chunk) →
    off.toNat < n ∧ off.toNat + len.toNat ≤ n ∧ (len.toNat = 2048 ∨ off.toNat + len.toNat = n)

end Dpe
