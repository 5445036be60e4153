import Verif.Model.TestsUnique
/-
The test case of the conformance suite about the right to be extended (verification/testing/deriveContext.go).
-/
namespace Dpe.Suite
variable {τ : Type}

/-- Flags of DeriveContext, verification/client/abi.go:237,242. -/
def recursiveFlag : U32 := 0x01000000
@[inherit_doc recursiveFlag] def allowRecursiveFlag : U32 := 0x00200000

/-- `TestDeriveContextAllowRecursive`, verification/testing/deriveContext.go:713-779.  The three deferred calls come at the
end in the reverse order; the errors of DestroyContext are ignored; the second child is destroyed by the handle that the
test wrote through the pointer. -/
def testAllowRecursive (c : Client) (t : Transport τ) (x : τ) : Bool × τ :=
  let z := zeros c.kind.digest
  let restore (h : Handle) (x : τ) : Bool × τ :=
    match c.call t (.rotate h targetIsDefault) x with
    | (.ok _, x') => (true, x')
    | (.error _, x') => (false, x')
  withProfile t x fun x0 =>
    match c.call t (.rotate Handle.default 0) x0 with
    | (.ok (.handle h), x1) =>
      match c.call t (.derive h z retainParentContext 1 0) x1 with
      | (.ok (.derived c1 p1 _ _ _), x2) =>
        let r := expects c t statusInvalidArgument (.derive c1 z recursiveFlag 1 0) x2
        match c.call t (.derive p1 z (retainParentContext ||| allowRecursiveFlag) 2 0) r.2 with
        | (.ok (.derived c2 p2 _ _ _), x3) =>
          let q : Bool × Handle × τ :=
            match c.call t (.derive c2 z recursiveFlag 2 0) x3 with
            | (.ok (.derived c3 _ _ _ _), x4) => (true, c3, x4)
            | (_, x4) => (false, c2, x4)
          let f := expects c t statusInvalidArgument (.derive q.2.1 z (allowRecursiveFlag ||| recursiveFlag) 2 0) q.2.2
          let e := restore p2 (c.call t (.destroy c1) (c.call t (.destroy q.2.1) f.2).2).2
          (r.1 && q.1 && f.1 && e.1, e.2)
        | (_, x3) => (false, (restore p1 (c.call t (.destroy c1) x3).2).2)
      | (_, x2) => (false, (restore h x2).2)
    | (_, x1) => (false, x1)

end Dpe.Suite
