import Verif.Model.RespBuf
/-
The project's own unit tests of the response buffers (response-buffer/src/lib.rs:135-300), run on the model
with the expected values written there.  These are checks of the model against the code, not proofs of
properties.  Each example holds for a `usize` of 32 bits; those about overflow also for 64 bits.
-/
namespace Dpe.UnitRespBuf

deriving instance DecidableEq for RBuf

/-- `usize` on the target. -/
def W : Nat := 2 ^ 32
def mk (n : Nat) : RBuf := .slice (List.replicate n 0)
/-- `buf.write_at(off, data).unwrap()`, as far as the buffer goes. -/
def wr (b : RBuf) (off : Nat) (data : Bytes) : RBuf := (b.writeAt W off data).2
/-- The storage behind a buffer. -/
def bytes : RBuf → Bytes
  | .slice b => b
  | .offset i _ => bytes i

-- write_sequential
example : bytes (wr (wr (wr (wr (mk 4) 0 [0xAA]) 1 [0xBB]) 2 [0xCC]) 3 [0xDD]) = [0xAA, 0xBB, 0xCC, 0xDD] := by
  decide +kernel
-- write_overflow
example : (mk 1).writeAt W 1 [2] = (false, mk 1) := by decide +kernel
-- write_word_aligned
example : bytes (wr (wr (mk 8) 0 [1, 2, 3, 4]) 4 [5, 6, 7, 8]) = [1, 2, 3, 4, 5, 6, 7, 8] := by
  decide +kernel
-- write_multi_byte
example : bytes (wr (mk 7) 0 [0x10, 0x20, 0x30, 0x40, 0x50, 0x60, 0x70]) =
    [0x10, 0x20, 0x30, 0x40, 0x50, 0x60, 0x70] := by decide +kernel
-- overwrite_in_place
example : bytes (wr (wr (mk 4) 0 [0, 0, 0, 0]) 1 [0xAA, 0xBB]) = [0, 0xAA, 0xBB, 0] := by decide +kernel
-- write_past_end_rejected
example : (mk 4).writeAt W 0 [0, 0, 0, 0, 0] = (false, mk 4) := by decide +kernel
-- clear_zeroes
example : (wr (mk 8) 0 [1, 2, 3, 4, 5, 6, 7, 8]).clear W = (true, mk 8) := by decide +kernel
-- write_after_clear
example : (bytes (wr ((wr (mk 8) 0 (List.replicate 8 0xFF)).clear W).2 0 [0x42])).head? = some 0x42 := by
  decide +kernel

-- offset_response_buffer
example : (RBuf.offset (mk 8) 3).capacity = 5 := by decide +kernel
example : (bytes (wr (wr (.offset (mk 8) 3) 0 [0xAA, 0xBB]) 2 [0xCC])).extract 3 6 = [0xAA, 0xBB, 0xCC] := by
  decide +kernel
example : (wr (wr (.offset (mk 8) 3) 0 [0xAA, 0xBB]) 2 [0xCC]).readRange W 0 3 = some [0xAA, 0xBB, 0xCC] := by
  decide +kernel
example : bytes ((wr (.offset (wr (mk 8) 0 [0xAA, 0xBB, 0xCC]) 3) 0 [1, 2, 3, 4, 5]).clear W).2 =
    [0xAA, 0xBB, 0xCC, 0, 0, 0, 0, 0] := by decide +kernel
-- `usize::MAX` as the base: on the target and on a host
example : ((RBuf.offset (mk 8) (2 ^ 32 - 1)).writeAt W 1 [1]).1 = false := by decide +kernel
example : ((RBuf.offset (mk 8) (2 ^ 64 - 1)).writeAt (2 ^ 64) 1 [1]).1 = false := by decide +kernel
example : ((RBuf.offset (mk 8) 3).writeAt W 6 [1]).1 = false := by decide +kernel
example : (RBuf.offset (mk 8) (2 ^ 32 - 1)).readRange W 1 2 = none := by decide +kernel
example : (RBuf.offset (mk 8) (2 ^ 64 - 1)).readRange (2 ^ 64) 1 2 = none := by decide +kernel
example : (RBuf.offset (mk 8) (2 ^ 32 - 2)).readRange W 0 2 = none := by decide +kernel
example : (RBuf.offset (mk 8) 3).readRange W 0 6 = none := by decide +kernel

end Dpe.UnitRespBuf
