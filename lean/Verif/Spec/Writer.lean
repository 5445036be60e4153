import Verif.Model.X509
/-
What it means for an encoder of the certificate writer to emit bytes, and for a size to be foretold
correctly.
-/
namespace Dpe
variable {σ : Type}

/-- From writer `w` to writer `w'` exactly the bytes `bs` went out: the position moved by their
number, the buffer kept its size, and, if they fit, they are now at the old position and everything
else is as before. -/
structure Wrote (w w' : Writer) (bs : Bytes) : Prop where
  moves : w'.offset = w.offset + bs.length
  keeps : w'.buf.length = w.buf.length
  stores : w.offset + bs.length ≤ w.buf.length →
    w'.buf = w.buf.take w.offset ++ bs ++ w.buf.drop (w.offset + bs.length)

/-- Wherever it is run, the encoder emits exactly `bs` and reports their number. -/
def Puts (e : Enc) (bs : Bytes) : Prop := ∀ w, (e w).1 = bs.length ∧ Wrote w (e w).2 bs

/-- `size` is the number of bytes that the encoder emits. -/
def Foretold (size : Nat) (e : Enc) : Prop := ∃ bs, Puts e bs ∧ bs.length = size

/-- An encoder that may fail emits exactly `bs` and reports their number, or fails because they do
not fit.  No length is just being filled in, and at most ten are pending (as is the case whenever
such an encoder is run). -/
def PutsIfFits (m : W σ Nat) (bs : Bytes) : Prop :=
  ∀ w x, w.saved = none → w.backtracks.length ≤ 10 →
    (∃ w', m (w, x) = (.ok bs.length, (w', x)) ∧ Wrote w w' bs) ∨
    (∃ e w', m (w, x) = (.error e, (w', x)) ∧ w.buf.length < w.offset + bs.length)

/-- `size` is the number of bytes that the encoder emits when there is room. -/
def ForetoldIfFits (size : Except Err Nat) (m : W σ Nat) : Prop :=
  ∃ bs, PutsIfFits m bs ∧ size = .ok bs.length

end Dpe
