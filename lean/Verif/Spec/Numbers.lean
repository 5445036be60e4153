import Verif.Spec.Der
/-
Lengths and integers in BER (X.690 8.1.3 and 8.3), of which DER takes the shortest.
-/
namespace Dpe

/-- The length that definite-form length octets stand for, shortest or not (X.690 8.1.3). -/
def berLength : Bytes → Option Nat
  | [] => none
  | b :: ds =>
    if b.toNat < 128 then (if ds = [] then some b.toNat else none)
    else if b.toNat = 128 ∨ b.toNat = 255 ∨ ds.length ≠ b.toNat - 128 then none
    else some (beValue ds)

/-- The shortest length octets that stand for `n`. -/
def ShortestLength (n : Nat) (bs : Bytes) : Prop :=
  berLength bs = some n ∧ ∀ bs', berLength bs' = some n → bs.length ≤ bs'.length

/-- The shortest two's-complement octets that stand for `z`; there is at least one. -/
def ShortestInteger (z : Int) (bs : Bytes) : Prop :=
  bs ≠ [] ∧ intValue bs = z ∧ ∀ bs', bs' ≠ [] → intValue bs' = z → bs.length ≤ bs'.length

end Dpe
