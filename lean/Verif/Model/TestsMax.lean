import Verif.Model.TestsFlags
/-
The test case of the conformance suite that fills the device with contexts (verification/testing/deriveContext.go).
-/
namespace Dpe.Suite
variable {τ : Type}

/-- verification/client/errors.go:31. -/
def statusMaxTcis : U32 := 0x91

/-- The loop of verification/testing/deriveContext.go:356-362: `n` derivations, each from the context that the last one
made; `none` where one fails. -/
def deriveLine (c : Client) (t : Transport τ) : Nat → Handle → τ → Option Handle × τ
  | 0, h, x => (some h, x)
  | n + 1, h, x =>
    match c.call t (.derive h (zeros c.kind.digest) inputAllowX509 0 0) x with
    | (.ok (.derived h' _ _ _ _), x') => deriveLine c t n h' x'
    | (_, x') => (none, x')

/-- `TestMaxTCIs`, verification/testing/deriveContext.go:339-388, for a target that is said to have room for `maxTci`
contexts; `parses` stands for Go's `x509.ParseCertificate`.  (The deferred DestroyContext, whose error is ignored, is left
out.) -/
def testMaxTcis (c : Client) (t : Transport τ) (maxTci : Nat) (parses : Bytes → Bool) (x : τ) : Bool :=
  match goGetProfile t x with
  | (.ok _, x0) =>
    match deriveLine c t (maxTci - 1) Handle.default x0 with
    | (some h, x1) =>
      match c.call t (.certifyKey h (zeros c.kind.digest) 0 0) x1 with
      | (.ok (.key h' _ _ cert), x2) =>
        parses cert && (expects c t statusMaxTcis (.derive h' (zeros c.kind.digest) 0 0 0) x2).1
      | _ => false
    | _ => false
  | _ => false

end Dpe.Suite
