import Verif.Model.Wire
import Verif.Model.Reference
/-
The simulator, simulator/src/main.rs: a process that serves the commands of one DPE instance over a
socket.  Not modelled: the socket itself (opening, writing, its errors), signals and logging.  The
duplicate `deserialize_command` for the log (lines 61-67, 71-86) has no effect.
-/
namespace Dpe

/-- `Args`, simulator/src/main.rs:98-145. -/
structure SimArgs where
  simulation : Bool
  recursive : Bool
  autoInit : Bool
  rotate : Bool
  x509 : Bool
  csr : Bool
  internalInfo : Bool
  internalDice : Bool
  retainParent : Bool
  cdiExport : Bool
  critical : Bool

/-- `set` of the crate bitflags. -/
def setFlag {n : Nat} (x mask : BitVec n) (v : Bool) : BitVec n := if v then x ||| mask else x &&& ~~~mask

/-- The features, simulator/src/main.rs:165-178 with the constants of dpe/src/support.rs:10-23. -/
def SimArgs.support (a : SimArgs) : U32 :=
  let s : U32 := 0
  let s := setFlag s 0x80000000 a.simulation
  let s := setFlag s 0x20000000 a.autoInit
  let s := setFlag s 0x04000000 a.x509
  let s := setFlag s 0x02000000 a.csr
  let s := setFlag s 0x40000000 a.recursive
  let s := setFlag s 0x08000000 a.rotate
  let s := setFlag s 0x00200000 a.internalDice
  let s := setFlag s 0x00400000 a.internalInfo
  let s := setFlag s 0x00080000 a.retainParent
  setFlag s 0x00040000 a.cdiExport

/-- The flags, simulator/src/main.rs:180-184 (`MARK_DICE_EXTENSIONS_CRITICAL`, dpe/src/state.rs). -/
def SimArgs.flags (a : SimArgs) : BitVec 16 := setFlag 0 0x8000 a.critical

/-- The start of the simulator up to the loop, simulator/src/main.rs:186-195.  An error ends the
program.  (The instance keeps no buffer between commands: the buffer is empty.) -/
def simStart (cfg : Cfg) (L : Lib) (a : Artifact) (args : SimArgs) :
    Except Err Unit × Sys cfg (Soft (L.crypto cfg.profile) × Unit) :=
  dpeNew (device L a cfg.profile) ⟨State.new cfg args.support args.flags, (Soft.new _, ()), []⟩

variable {cfg : Cfg} {σ : Type}

/-- `handle_request`, simulator/src/main.rs:51-90: the bytes that are written back, or `none` if one of
the `unwrap`s or the slice `buf[4..len]` panics.  `addr` is the address of the array `buf`, which the
compiler may place anywhere.  `sent` is what the client has sent; one `read` is assumed to deliver it up
to the size of the array. -/
def handleRequest (env : Env cfg σ) (addr : Nat) (sent : Bytes) : Sys cfg σ → Option Bytes × Sys cfg σ :=
  fun s =>
    match getU32 (sent.take 4096) with
    | none => (none, s)
    | some (loc, cmd) =>
      match executeSerialized env loc (addr + 4) cmd s with
      | (.error _, s') => (none, s')
      | (.ok r, s') =>
        match r.asBytesPartial with
        | .error _ => (none, s')
        | .ok b => (some b, s')

/-- The loop of `main`, simulator/src/main.rs:199-210, over the requests of successive connections, each
with the address of its array: the answers up to the first panic, which ends the process; whether the
process is still alive; and the state. -/
def simLoop (env : Env cfg σ) : List (Nat × Bytes) → Sys cfg σ → List Bytes × Bool × Sys cfg σ
  | [], s => ([], true, s)
  | (addr, sent) :: reqs, s =>
    match handleRequest env addr sent s with
    | (none, s') => ([], false, s')
    | (some b, s') =>
      let (bs, alive, s'') := simLoop env reqs s'
      (b :: bs, alive, s'')

end Dpe
