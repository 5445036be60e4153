import Verif.Model.TestsLocality
/-
The test case of the conformance suite that derives contexts with internal inputs (verification/testing/deriveContext.go).
-/
namespace Dpe.Suite
variable {τ : Type}

/-- `TestInternalInputFlags`, verification/testing/deriveContext.go:258-291; `dice` and `info` are what the target says it
supports.  A test that is skipped does not fail.  The error of the deferred DestroyContext, which has the handle returned
last, is ignored.  (After a derivation that fails the Go code reads the handle of a reply that it does not have, and
panics; the panic is a failure here.) -/
def testInputFlags (c : Client) (t : Transport τ) (dice info : Bool) (x : τ) : Bool × τ :=
  withProfile t x fun x0 =>
    if dice then
      match c.call t (.derive Handle.default (zeros c.kind.digest) internalInputDice 0 0) x0 with
      | (.ok (.derived h1 _ _ _ _), x1) =>
        if info then
          match c.call t (.derive h1 (zeros c.kind.digest) internalInputInfo 0 0) x1 with
          | (.ok (.derived h2 _ _ _ _), x2) => (true, (c.call t (.destroy h2) x2).2)
          | (_, x2) => (false, (c.call t (.destroy h1) x2).2)
        else (true, (c.call t (.destroy h1) x1).2)
      | (_, x1) => (false, (c.call t (.destroy Handle.default) x1).2)
    else (true, (c.call t (.destroy Handle.default) x0).2)

end Dpe.Suite
