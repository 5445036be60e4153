import Verif.Model.RespBuf
/-
Vocabulary for response buffers: the storage that is finally behind a buffer, where in it the
buffer's own offset 0 lies, and the history semantics "a byte holds what was last stored
there".
-/
namespace Dpe

/-- The storage behind a buffer, however many windows it is seen through. -/
def RBuf.store : RBuf → Bytes
  | .slice buf => buf
  | .offset inner _ => inner.store

/-- Position in the storage of the buffer's offset 0. -/
def RBuf.start : RBuf → Nat
  | .slice _ => 0
  | .offset inner base => inner.start + base

/-- What a caller can do to a buffer. -/
inductive BufOp
  | write (off : Nat) (data : Bytes)
  | clear

/-- Perform one operation. -/
def BufOp.run (W : Nat) (rb : RBuf) : BufOp → Bool × RBuf
  | .write off data => rb.writeAt W off data
  | .clear => rb.clear W

/-- The buffer after a sequence of operations. -/
def runOps (W : Nat) : RBuf → List BufOp → RBuf
  | rb, [] => rb
  | rb, op :: ops => runOps W (op.run W rb).2 ops

/-- The byte an operation stores at offset `i` of a buffer of `cap` bytes, if it stores one:
a write that fits stores its data, a write that does not fit stores nothing, clearing stores
zero everywhere. -/
def BufOp.stores (cap : Nat) (i : Nat) : BufOp → Option UInt8
  | .write off data =>
    if off + data.length ≤ cap ∧ off ≤ i then data[i - off]? else none
  | .clear => if i < cap then some 0 else none

/-- The byte at offset `i` after a history, given the byte before it. -/
def lastStored (cap : Nat) (i : Nat) (b : UInt8) : List BufOp → UInt8
  | [] => b
  | op :: ops => lastStored cap i ((op.stores cap i).getD b) ops

end Dpe
