import Verif.Model.Env
/-
The response buffers: response-buffer/src/lib.rs.  `Model/Env.lean` uses the byte list behind
a `SliceResponseBuffer` directly; this file models both implementations of the trait,
machine-word bound included, so that the simplification is itself proved
(`Props/RespBuf.lean`).
-/
namespace Dpe

/-- `SliceResponseBuffer` (response-buffer/src/lib.rs:96-104) and `OffsetResponseBuffer`
(response-buffer/src/lib.rs:45-55), the only implementations in the repository.  A window may
wrap any other buffer. -/
inductive RBuf
  | slice (buf : Bytes)
  | offset (inner : RBuf) (base : Nat)

/-- `usize::checked_add`; `W` is the number of values of a `usize` (`2^32` on the target,
`2^64` on a host). -/
def checkedAdd (W a b : Nat) : Option Nat := if a + b < W then some (a + b) else none

/-- `capacity`, response-buffer/src/lib.rs:89-91 (`saturating_sub`), 132-134. -/
def RBuf.capacity : RBuf → Nat
  | .slice buf => buf.length
  | .offset inner base => inner.capacity - base

/-- `<[u8]>::get_mut(off..end)` followed by `copy_from_slice`: `none` when `off > end` or
`end > len`. -/
def sliceStore (buf : Bytes) (off fin : Nat) (data : Bytes) : Option Bytes :=
  if off ≤ fin ∧ fin ≤ buf.length then some (buf.take off ++ data ++ buf.drop fin) else none

/-- `write_at`, response-buffer/src/lib.rs:65-71 and 112-121.  `true` is `Ok(())`, `false` is
`Err(Overflow)`; the buffer returned is the one left behind in either case. -/
def RBuf.writeAt (W : Nat) : RBuf → Nat → Bytes → Bool × RBuf
  | .slice buf, off, data =>
    match checkedAdd W off data.length with
    | none => (false, .slice buf)
    | some fin =>
      match sliceStore buf off fin data with
      | none => (false, .slice buf)
      | some buf' => (true, .slice buf')
  | .offset inner base, off, data =>
    match checkedAdd W base off with
    | none => (false, .offset inner base)
    | some adjusted =>
      let r := inner.writeAt W adjusted data
      (r.1, .offset r.2 base)

/-- `read_range`, response-buffer/src/lib.rs:73-87 and 123-130: the bytes handed to the
callback, in the one call that both implementations make; `none` is `Err(Overflow)` without a
call. -/
def RBuf.readRange (W : Nat) : RBuf → Nat → Nat → Option Bytes
  | .slice buf, a, b =>
    if a ≤ b ∧ b ≤ buf.length then some ((buf.drop a).take (b - a)) else none
  | .offset inner base, a, b =>
    match checkedAdd W base a with
    | none => none
    | some a' =>
      match checkedAdd W base b with
      | none => none
      | some b' => inner.readRange W a' b'

/-- The loop `for i in 0..capacity { self.write_at(i, &[0])?; }` of
`OffsetResponseBuffer::clear`, response-buffer/src/lib.rs:57-63: `todo` iterations left,
starting at `i`. -/
def RBuf.zeroLoop (W : Nat) : Nat → Nat → RBuf → Bool × RBuf
  | 0, _, rb => (true, rb)
  | todo + 1, i, rb =>
    match rb.writeAt W i [0] with
    | (true, rb') => RBuf.zeroLoop W todo (i + 1) rb'
    | (false, rb') => (false, rb')

/-- `clear`, response-buffer/src/lib.rs:57-63 and 107-110. -/
def RBuf.clear (W : Nat) : RBuf → Bool × RBuf
  | .slice buf => (true, .slice (List.replicate buf.length 0))
  | .offset inner base => RBuf.zeroLoop W (RBuf.capacity (.offset inner base)) 0 (.offset inner base)

end Dpe
