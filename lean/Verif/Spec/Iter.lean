import Verif.Spec.Forest
import Verif.Model.Instance
/-
What a double-ended enumeration of a list must return.
-/
namespace Dpe
variable {cfg : Cfg}

/-- Which end is asked. -/
inductive End
  | front
  | back
  deriving DecidableEq, Repr

/-- Take items off a list from either end. -/
def takeEnds : List Nat → List End → List (Option Nat)
  | _, [] => []
  | l, .front :: ds => l.head? :: takeEnds l.tail ds
  | l, .back :: ds => l.getLast? :: takeEnds l.dropLast ds

/-- Call an enumeration repeatedly from the given ends and record the answers. -/
def callEnds (ctxs : List (Context cfg)) : ChainIter → List End →
    List (Option (Except Err (Context cfg)))
  | _, [] => []
  | it, .front :: ds => (it.next ctxs).1 :: callEnds ctxs (it.next ctxs).2 ds
  | it, .back :: ds => (it.nextBack ctxs).1 :: callEnds ctxs (it.nextBack ctxs).2 ds

end Dpe
