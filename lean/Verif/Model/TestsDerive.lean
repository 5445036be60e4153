import Verif.Model.Tests
/-
Test cases of the conformance suite about what derived contexts may do (verification/testing/deriveContext.go).
-/
namespace Dpe.Suite
variable {τ : Type}

/-- More flags that the tests use, verification/client/abi.go:230-245. -/
def retainParentContext : U32 := 0x20000000
def makeDefault : U32 := 0x10000000
def changeLocality : U32 := 0x08000000
def cdiExport : U32 := 0x00800000
def createCertificate : U32 := 0x00400000

/-- `TestPrivilegesEscalation`, verification/testing/deriveContext.go:295-336. -/
def testPrivileges (c : Client) (t : Transport τ) (x : τ) : Bool × τ :=
  withProfile t x fun x0 =>
    match c.call t (.derive Handle.default (zeros c.kind.digest) 0 0 0) x0 with
    | (.ok (.derived h _ _ _ _), x1) =>
      expectsAll c t
        [(statusInvalidArgument, .derive h (zeros c.kind.digest) inputAllowX509 0 0),
         (statusInvalidArgument, .certifyKey h (zeros c.kind.digest) 0 0)] x1
    | (_, x1) => (false, x1)

/-- `TestDeriveContextDisallowedChildCdiExport`, verification/testing/deriveContext.go:130-152: any error of the second
call will do.  The deferred DestroyContext still has the default handle. -/
def testDisallowedExport (c : Client) (t : Transport τ) (x : τ) : Bool × τ :=
  let r := withProfile t x fun x0 =>
    match c.call t (.derive Handle.default (zeros c.kind.digest) 0 0 0) x0 with
    | (.ok (.derived h _ _ _ _), x1) =>
      match c.call t (.derive h (zeros c.kind.digest) (cdiExport ||| createCertificate) 0 0) x1 with
      | (.error _, x2) => (true, x2)
      | (.ok _, x2) => (false, x2)
    | (_, x1) => (false, x1)
  (r.1, (c.call t (.destroy Handle.default) r.2).2)

/-- `TestDeriveContextSimulation`, verification/testing/deriveContext.go:391-468, over one transport for the locality
`loc` and one for the next.  (The deferred clean-up, which can only add failures, is left out.) -/
def testDeriveSimulation (c : Client) (t t' : Transport τ) (loc : U32) (sim : Bool) (x : τ) : Bool :=
  if sim then
    match c.call t (.initialize initIsSimulation) x with
    | (.ok (.handle h), x1) =>
      if h = Handle.default then false
      else
        match goGetProfile t x1 with
        | (.ok _, x2) =>
          match c.call t (.derive h (zeros c.kind.digest) (changeLocality ||| retainParentContext ||| makeDefault) 0 (loc + 1))
              (expects c t statusInvalidArgument (.derive h (zeros c.kind.digest) makeDefault 0 0) x2).2 with
          | (.ok (.derived h1 _ _ _ _), x3) =>
            match c.call t' (.derive h1 (zeros c.kind.digest) retainParentContext 0 0)
                (expects c t' statusInvalidArgument (.derive h1 (zeros c.kind.digest) retainParentContext 0 0) x3).2 with
            | (.ok _, _) =>
              (expects c t statusInvalidArgument (.derive h (zeros c.kind.digest) makeDefault 0 0) x2).1 &&
              (expects c t' statusInvalidArgument (.derive h1 (zeros c.kind.digest) retainParentContext 0 0) x3).1
            | _ => false
          | _ => false
        | _ => false
    | _ => false
  else false

end Dpe.Suite
