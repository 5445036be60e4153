import Verif.Model.TestsRecursive
/-
The error cases of the conformance suite's test of UpdateContextMeasurement (verification/testing/deriveContext.go).
-/
namespace Dpe.Suite
variable {τ : Type}

/-- `updateValue` of verification/testing/deriveContext.go:821-824. -/
def updateValue (n : Nat) : Bytes := (List.range n).map fun i => UInt8.ofNat (i + 100)

/-- The error cases at the end of `TestUpdateContextMeasurement`, verification/testing/deriveContext.go:858-876, with the
handle that the test holds for the parent: the default handle as parent, and a type of which there is no child.  The part
before them, which reads certificates, is left out (see C85). -/
def updateErrors (c : Client) (t : Transport τ) (parent : Handle) (x : τ) : Bool × τ :=
  expectsAll c t
    [(statusInvalidArgument, .update Handle.default (updateValue c.kind.digest) 0x12345678),
     (statusInvalidArgument, .update parent (updateValue c.kind.digest) otherType)] x

end Dpe.Suite
