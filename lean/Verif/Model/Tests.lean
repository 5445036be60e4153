import Verif.Model.Client
/-
Test cases of the conformance suite that look at refusals (verification/testing): what they do with a client and
whether they pass.  `t.Errorf` marks a test as failed and goes on, `t.Fatalf` stops it; deferred calls are made in
either case.
-/
namespace Dpe.Suite
variable {τ : Type}

/-- Does the call return exactly this status?  The pattern `if _, err := c.F(…); err == nil { t.Errorf(…) } else if
!errors.Is(err, w) { t.Errorf(…) }`, e.g. verification/testing/negativeCases.go:30-34. -/
def expects (c : Client) (t : Transport τ) (w : U32) (k : GoCall) (x : τ) : Bool × τ :=
  match c.call t k x with
  | (.error (.status v), x') => (v == w, x')
  | (_, x') => (false, x')

/-- One such check after the other. -/
def expectsAll (c : Client) (t : Transport τ) : List (U32 × GoCall) → τ → Bool × τ
  | [], x => (true, x)
  | (w, k) :: l, x =>
    ((expects c t w k x).1 && (expectsAll c t l (expects c t w k x).2).1,
      (expectsAll c t l (expects c t w k x).2).2)

/-- `make([]byte, n)`. -/
def zeros (n : Nat) : Bytes := List.replicate n 0

/-- `InvalidHandle`, verification/testing/negativeCases.go:13. -/
def invalidHandle : Handle := Vector.ofFn fun i => UInt8.ofNat i.val

/-- The status words of verification/client/errors.go:13-34 that the tests name. -/
def statusInvalidCommand : U32 := 0x2
def statusInvalidArgument : U32 := 0x3
def statusInvalidHandle : U32 := 0x80
def statusInvalidLocality : U32 := 0x81
def statusArgumentNotSupported : U32 := 0x83

/-- The flags that the tests use, verification/client/abi.go:135-136, 211, 230-236. -/
def initIsSimulation : U32 := 0x80000000
def initIsDefault : U32 := 0x40000000
def targetIsDefault : U32 := 0x80000000
def internalInputInfo : U32 := 0x80000000
def internalInputDice : U32 := 0x40000000
def inputAllowX509 : U32 := 0x02000000

/-- `GetTransportProfile` at the start of a test, verification/client/abi.go:464-471; the test stops if it fails.
(The sizes that belong to the profile are taken from the client, which was made for it.) -/
def withProfile (t : Transport τ) (x : τ) (f : τ → Bool × τ) : Bool × τ :=
  match goGetProfile t x with
  | (.ok _, x') => f x'
  | (.error _, x') => (false, x')

/-- The five calls of verification/testing/negativeCases.go:29-63 and 98-131, all with one handle and one expected
status. -/
def fiveCalls (c : Client) (w : U32) (h : Handle) : List (U32 × GoCall) :=
  [(w, .derive h (zeros c.kind.digest) 0 0 0), (w, .certifyKey h (zeros c.kind.digest) 0 0),
   (w, .sign h (zeros c.kind.digest) 0 (zeros c.kind.signData)), (w, .rotate h targetIsDefault), (w, .destroy h)]

/-- `getInitialContextHandle` for a simulation context, verification/testing/initializeContext.go:77-96, then `f`
with the handle, then the deferred DestroyContext of the handle that `f` ends with.  `sim` is
`d.GetSupport().Simulation`. -/
def withSimulation (c : Client) (t : Transport τ) (sim : Bool) (x : τ) (f : Handle → τ → (Bool × Handle) × τ) :
    Bool × τ :=
  if sim then
    match c.call t (.initialize initIsSimulation) x with
    | (.ok (.handle h), x1) =>
      if h = Handle.default then (false, x1)
      else ((f h x1).1.1, (c.call t (.destroy (f h x1).1.2) (f h x1).2).2)
    | (_, x1) => (false, x1)
  else (false, x)

/-- `TestInvalidHandle`, verification/testing/negativeCases.go:19-64. -/
def testInvalidHandle (c : Client) (t : Transport τ) (sim : Bool) (x : τ) : Bool × τ :=
  withSimulation c t sim x fun h x1 =>
    (((withProfile t x1 (expectsAll c t (fiveCalls c statusInvalidHandle invalidHandle))).1, h),
      (withProfile t x1 (expectsAll c t (fiveCalls c statusInvalidHandle invalidHandle))).2)

/-- `TestWrongLocality`, verification/testing/negativeCases.go:70-132, over the transport that speaks for the next
locality (:76-78; a target without control of the locality is skipped). -/
def testWrongLocality (c : Client) (t : Transport τ) (x : τ) : Bool × τ :=
  withProfile t x (expectsAll c t (fiveCalls c statusInvalidLocality Handle.default))

/-- `TestUnsupportedCommand`, verification/testing/negativeCases.go:138-147. -/
def testUnsupportedCommand (c : Client) (t : Transport τ) (x : τ) : Bool × τ :=
  expectsAll c t [(statusInvalidCommand, .rotate Handle.default targetIsDefault)] x

/-- `TestUnsupportedCommandFlag`, verification/testing/negativeCases.go:158-208. -/
def testUnsupportedCommandFlag (c : Client) (t : Transport τ) (x : τ) : Bool × τ :=
  withProfile t x (expectsAll c t
    [(statusArgumentNotSupported, .initialize initIsSimulation),
     (statusArgumentNotSupported, .certifyKey Handle.default (zeros c.kind.digest) 1 0),
     (statusArgumentNotSupported, .certifyKey Handle.default (zeros c.kind.digest) 0 0),
     (statusArgumentNotSupported, .derive Handle.default (zeros c.kind.digest) internalInputInfo 0 0),
     (statusArgumentNotSupported, .derive Handle.default (zeros c.kind.digest) internalInputDice 0 0),
     (statusArgumentNotSupported, .derive Handle.default (zeros c.kind.digest) inputAllowX509 0 0)])

/-- `testInitContext` from line 42 on, verification/testing/initializeContext.go:42-60: there is a default context
already.  The first of the two checks allows two status words. -/
def testInitAgain (c : Client) (t : Transport τ) (x : τ) : Bool × τ :=
  match c.call t (.initialize initIsDefault) x with
  | (.error (.status v), x1) =>
    ((v == statusArgumentNotSupported || v == statusInvalidArgument) &&
      (expects c t statusInvalidArgument (.initialize 0) x1).1,
     (expects c t statusInvalidArgument (.initialize 0) x1).2)
  | (_, x1) => (false, (expects c t statusInvalidArgument (.initialize 0) x1).2)

/-- `testInitContext` without simulation, verification/testing/initializeContext.go:29-60; `isInit` is
`d.GetIsInitialized()`. -/
def testInitContext (c : Client) (t : Transport τ) (isInit : Bool) (x : τ) : Bool × τ :=
  if isInit then testInitAgain c t x
  else
    match c.call t (.initialize initIsDefault) x with
    | (.ok (.handle h), x1) => if h = Handle.default then testInitAgain c t x1 else (false, x1)
    | (_, x1) => (false, x1)

/-- `TestRotateContextHandle`, verification/testing/rotateContextHandle.go:13-43. -/
def testRotate (c : Client) (t : Transport τ) (x : τ) : Bool × τ :=
  match c.call t (.rotate Handle.default 0) x with
  | (.ok (.handle h1), x1) =>
    match c.call t (.rotate h1 targetIsDefault) x1 with
    | (.ok (.handle h2), x2) =>
      (h1 != Handle.default && h2 == Handle.default &&
        (expects c t statusInvalidArgument (.rotate h2 targetIsDefault) x2).1,
       (expects c t statusInvalidArgument (.rotate h2 targetIsDefault) x2).2)
    | (_, x2) => (false, x2)
  | (_, x1) => (false, x1)

/-- `TestRotateContextHandleSimulation`, verification/testing/rotateContextHandle.go:47-73.  (A failing rotation
leaves a null handle to the deferred DestroyContext, which then panics; here the old handle is destroyed.) -/
def testRotateSimulation (c : Client) (t : Transport τ) (sim : Bool) (x : τ) : Bool × τ :=
  withSimulation c t sim x fun h x1 =>
    match c.call t (.rotate h 0) x1 with
    | (.ok (.handle h1), x2) =>
      ((h1 != Handle.default && (expects c t statusInvalidArgument (.rotate h1 targetIsDefault) x2).1, h1),
        (expects c t statusInvalidArgument (.rotate h1 targetIsDefault) x2).2)
    | (_, x2) => ((false, h), x2)

end Dpe.Suite
