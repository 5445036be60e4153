import Verif.Examples.Anchor
import Verif.Props.Cfi
import Verif.Props.Erase
import Verif.Props.Recover
import Verif.Props.RespBuf
import Verif.Props.Suite
import Verif.Props.Iter
import Verif.Props.Isolation
import Verif.Props.Peer
import Verif.Props.Effort
import Verif.Props.Secret
import Verif.Props.Reboot
import Verif.Props.Access
import Verif.Examples.UnitState
import Verif.Examples.UnitX509
import Verif.Examples.UnitRespBuf
import Verif.Examples.UnitCommands
/-
A conversation for the examples of C85.  It takes the kernel nearly ten gigabytes of memory.  All imports but the first
are there only for those modules to be built before, so that this one is built alone.
-/
namespace Dpe.Ref

/-- A client connects, creates the default context, gives it another handle, derives a child of it, has the
child's key certified, adds a measurement to the child with `k` and has the key certified again. -/
def flow (k : Handle → Handle → GoCall) (new : GoValue → Option Handle) : Bool :=
  match newClient anchorWires 3 (some (simStart std lib anchor features.args).2) with
  | (.ok c, some s) =>
    match c.call anchorWires (.initialize 0x40000000) (some s) with
    | (.ok _, some s) =>
      match c.call anchorWires (.rotate Handle.default 0) (some s) with
      | (.ok (.handle h), some s) =>
        decide (s.st.supports Feature.recursive) &&
        match c.call anchorWires (.derive h (List.replicate 32 7) 0x22200000 9 0) (some s) with
        | (.ok (.derived h hp _ _ _), some s) =>
          h != hp && h != Handle.default &&
          (match s.st.findActive h 3 with | .ok i => i == 1 | _ => false) &&
          match c.call anchorWires (.certifyKey h (List.replicate 32 1) 0 0) (some s) with
          | (.ok (.key h _ _ crt), some s) =>
            (readCert crt).isSome &&
            (match s.st.findActive hp 3 with | .ok i => i == 0 | _ => false) &&
            (s.st.at 0).children.getLsbD 1 && !(s.st.at 0).children.getLsbD 0 &&
            (s.st.at 1).state == .active && (s.st.at 1).tci.tciType == 9 &&
            match c.call anchorWires (k h hp) (some s) with
            | (.ok v, some s) =>
              match new v with
              | some h =>
                match c.call anchorWires (.certifyKey h (List.replicate 32 1) 0 0) (some s) with
                | (.ok (.key _ _ _ crt), some _) => (readCert crt).isSome
                | _ => false
              | none => false
            | _ => false
          | _ => false
        | _ => false
      | _ => false
    | _ => false
  | _ => false

/-- The new handle in a result of DeriveContext. -/
def derivedHandle : GoValue → Option Handle
  | .derived h _ _ _ _ => some h
  | _ => none

/-- The new handle in a result of UpdateContextMeasurement. -/
def updatedHandle : GoValue → Option Handle
  | .updated h _ => some h
  | _ => none

theorem flowed : flow (fun h _ => .derive h (List.replicate 32 8) 0x01000000 9 0) derivedHandle = true := by
  decide +kernel

end Dpe.Ref
