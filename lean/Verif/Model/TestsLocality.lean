import Verif.Model.TestsDerive
/-
The test case of the conformance suite that moves a context to another locality and back
(verification/testing/deriveContext.go).
-/
namespace Dpe.Suite
variable {τ : Type}

/-- `TestChangeLocality`, verification/testing/deriveContext.go:213-254, over one transport for the locality `loc` and one
for the next.  The deferred DestroyContext has the handle returned last and the locality set last; where the test has
failed before, its outcome does not matter and its effect is left out. -/
def testChangeLocality (c : Client) (t t' : Transport τ) (loc : U32) (x : τ) : Bool × τ :=
  withProfile t x fun x0 =>
    match c.call t (.derive Handle.default (zeros c.kind.digest) changeLocality 0 (loc + 1)) x0 with
    | (.ok (.derived h1 _ _ _ _), x1) =>
      match c.call t' (.derive h1 (zeros c.kind.digest) changeLocality 0 loc) x1 with
      | (.ok (.derived h2 _ _ _ _), x2) =>
        match c.call t (.destroy h2) x2 with
        | (.ok _, x3) => (true, x3)
        | (.error _, x3) => (false, x3)
      | (_, x2) => (false, x2)
    | (_, x1) => (false, x1)

end Dpe.Suite
