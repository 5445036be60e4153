import Verif.Model.TestsMax
/-
The test case of the conformance suite that derives two children of one type (verification/testing/deriveContext.go).
-/
namespace Dpe.Suite
variable {τ : Type}

/-- The two types of verification/testing/deriveContext.go:680 and 700. -/
def firstType : U32 := 0xABCD1234
@[inherit_doc firstType] def otherType : U32 := 0xDEADBEEF

/-- `TestDeriveContextInputTypeUniqueness`, verification/testing/deriveContext.go:655-709.  The two deferred calls come
at the end in the reverse order; the errors of DestroyContext are ignored. -/
def testTypeUnique (c : Client) (t : Transport τ) (x : τ) : Bool × τ :=
  let restore (h : Handle) (x : τ) : Bool × τ :=
    match c.call t (.rotate h targetIsDefault) x with
    | (.ok _, x') => (true, x')
    | (.error _, x') => (false, x')
  withProfile t x fun x0 =>
    match c.call t (.rotate Handle.default 0) x0 with
    | (.ok (.handle h), x1) =>
      match c.call t (.derive h (zeros c.kind.digest) retainParentContext firstType 0) x1 with
      | (.ok (.derived c1 p1 _ _ _), x2) =>
        let r := expects c t statusInvalidArgument (.derive p1 (zeros c.kind.digest) retainParentContext firstType 0) x2
        match c.call t (.derive p1 (zeros c.kind.digest) retainParentContext otherType 0) r.2 with
        | (.ok (.derived c2 p2 _ _ _), x3) =>
          let e := restore p2 (c.call t (.destroy c1) (c.call t (.destroy c2) x3).2).2
          (r.1 && e.1, e.2)
        | (_, x3) => (false, (restore p1 (c.call t (.destroy c1) x3).2).2)
      | (_, x2) => (false, (restore h x2).2)
    | (_, x1) => (false, x1)

end Dpe.Suite
