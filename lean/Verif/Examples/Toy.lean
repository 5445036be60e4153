import Verif.Model.Commands
/-
A small concrete environment and some states reached in it, used by the examples that show
that the theorems' hypotheses are met by real executions.
-/
namespace Dpe.Toy

deriving instance DecidableEq for Except

/-- Four slots, 2-byte measurements, P-256. -/
def cfg : Cfg :=
  { maxHandles := 4, tciSize := 2, profile := .p256, disabled := 0, maxCertSize := 100,
    diceFuel := 5, pos := by decide, le64 := by decide }

/-- The handle whose first byte is `n`. -/
def hd (n : Nat) : Handle := (Handle.default).set 0 (UInt8.ofNat n)

/-- Operations over a counter: the random source counts up from 1, the hash of anything is
`[7, 7]`. -/
def ops : Ops Nat where
  Cdi := Unit
  Key := Unit
  rand n := (.ok (hd (n + 1)), n + 1)
  hasher n := (.ok (), n)
  hashInit n := (.ok (), n)
  hashUpdate _ n := (.ok (), n)
  hashFinish n := (.ok [7, 7], n)
  deriveCdi _ _ n := (.ok (), n)
  deriveKeyPair _ _ _ n := (.ok (), n)
  deriveExportedCdi _ _ n := (.ok (Vector.replicate 32 9), n)
  deriveKeyPairExported _ _ _ n := (.ok (), n)
  sign _ _ n := (.ok (.p256 (Vector.replicate 32 1) (Vector.replicate 32 2)), n)
  publicKey _ n := (.ok (.p256 (Vector.replicate 32 3) (Vector.replicate 32 4)), n)
  signAlias _ n := (.ok (.p256 (Vector.replicate 32 5) (Vector.replicate 32 6)), n)
  sigAlgMldsa := false
  digestSize := 2
  certChain off _ n :=
    if off = 0 then (.ok (3, Vector.replicate 2048 8), n) else (.error .certificateChainError, n)
  issuerName n := (.ok (4, Vector.replicate 128 1), n)
  signerId n := (.ok (.issuerAndSerial [1, 2, 3, 4] [5]), n)
  issuerKeyId n := (.ok (Vector.replicate 20 7), n)
  vendorId n := (.ok 0x11, n)
  vendorSku n := (.ok 0x22, n)
  autoInitLocality n := (.ok 0, n)
  certValidity n := (.ok ⟨[1], [2]⟩, n)
  subjectAltName n := (.error .notImplemented, n)
  ueid n := (.ok (Vector.replicate 48 3, 4), n)

/-- A certificate generator that stores three bytes. -/
def env : Env cfg Nat where
  toOps := ops
  certGen _ _ _ n win :=
    ((.ok ⟨3, .p256 (Vector.replicate 32 3) (Vector.replicate 32 4), Vector.replicate 32 9⟩, n),
      [1, 2, 3] ++ win.drop 3)

/-- Every feature supported, except automatic initialisation. -/
def support : U32 := 0xDFFFFFFF

/-- A response buffer of 200 zero bytes. -/
def buf : Bytes := List.replicate 200 0

def data (a b : UInt8) : BArr cfg.tciSize := #v[a, b]

/-- Run one command on a state and a counter. -/
def run (c : Cmd cfg) (loc : U32) (p : State cfg × Nat) : Except Err Nat × (State cfg × Nat) :=
  match exec env c loc ⟨p.1, p.2, buf⟩ with
  | (r, s') => (r, (s'.st, s'.w))

theorem run_reach (c : Cmd cfg) (loc : U32) {p : State cfg × Nat} (h : Reachable p.1) :
    Reachable (run c loc p).2.1 := Reachable.step env c loc p.1 p.2 buf h

/-- A reachable state together with the counter. -/
structure R where
  p : State cfg × Nat
  reach : Reachable p.1

/-- The state. -/
abbrev R.st (x : R) : State cfg := x.p.1

/-- The state, world and buffer handed to the next command. -/
abbrev R.sys (x : R) : Sys cfg Nat := ⟨x.p.1, x.p.2, buf⟩

theorem R.sys_reach (x : R) : Reachable x.sys.st := x.reach

/-- One more command. -/
def R.step (x : R) (c : Cmd cfg) (loc : U32) : R := ⟨(run c loc x.p).2, run_reach c loc x.reach⟩

/-- DeriveContext flags used below. -/
def fRetain : U32 := 0x20000000
def fMakeDefault : U32 := 0x10000000
def fChangeLoc : U32 := 0x08000000
def fAllowExport : U32 := 0x04000000
def fX509 : U32 := 0x02000000
def fRecursive : U32 := 0x01000000
def fExport : U32 := 0x00C00000
def fAllowRec : U32 := 0x00200000

/-- A fresh state. -/
def s0 : R := ⟨(State.new cfg support 0, 0), .new _ _⟩

/-- Default initialisation in locality 0: slot 0 is the root. -/
def s1 : R := s0.step (.init 0x40000000) 0

/-- The root is made non-default (handle 1). -/
def s2 : R := s1.step (.rotate ⟨Handle.default, 0⟩) 0

/-- The root (handle 1) derives a child of type 5 in slot 1 and is retained: root handle 2,
child handle 3. -/
def s3cmd : Cmd cfg :=
  .derive ⟨hd 1, data 1 2, fRetain ||| fX509 ||| fAllowExport ||| fAllowRec, 5, 0, 9⟩
@[inherit_doc s3cmd] def s3 : R := s2.step s3cmd 0

/-- The child (handle 3, slot 1) derives a grandchild (type 6, slot 2, handle 4) and is
retired. -/
def s4cmd : Cmd cfg := .derive ⟨hd 3, data 3 4, fX509, 6, 0, 0⟩
@[inherit_doc s4cmd] def s4 : R := s3.step s4cmd 0

/-- A short description of a state: lifecycle, parent, children bitmap and handle byte of
each slot. -/
def shape (st : State cfg) : List (CtxState × Nat × Nat × UInt8) :=
  st.contexts.map fun c => (c.state, c.parentIdx, c.children.toNat, c.handle[0])

theorem s4_shape : shape s4.st =
    [(.active, 255, 2, 2), (.retired, 0, 4, 255), (.active, 1, 0, 4), (.inactive, 255, 0, 0)] := by
  decide +kernel

attribute [irreducible] s0 s1 s2 s3 s4

end Dpe.Toy
