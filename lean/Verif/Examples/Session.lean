import Verif.Examples.Flow1
import Verif.Spec.Session
/-
Conversations for the examples of C86.  They take the kernel some memory; see `Examples/Talk.lean`.
-/
namespace Dpe.Ref

/-- One slot, P-256. -/
def one : Cfg := { cfg with maxHandles := 1, maxCertSize := 772, diceFuel := 2, pos := by decide, le64 := by decide }

/-- A client connects, creates the default context and has its key certified; it uses the context with `k`, gives
it another handle, and uses it with `k'`, which may depend on the key; then it has the key certified again. -/
def usage (cfg : Cfg) (L : Lib) (p : U32) (k : Handle → GoCall) (k' : Handle → Bytes → GoCall) : Bool :=
  let wires := simSend ((device L cert cfg.profile).env cfg) 3 8
  match newClient wires p (some (simStart cfg L cert features.args).2) with
  | (.ok c, some s) =>
    match c.call wires (.initialize 0x40000000) (some s) with
    | (.ok _, some s) =>
      (match s.st.findActive Handle.default 3 with | .ok i => i == 0 | _ => false) &&
      (List.range cfg.maxHandles).all (fun j => j == 0 || (s.st.at j).state == .inactive) && s.st.hasInitialized &&
      match c.call wires (.certifyKey Handle.default (List.replicate cfg.tciSize 1) 0 0) (some s) with
      | (.ok (.key h kx _ _), some s) =>
        match c.call wires (k h) (some s) with
        | (.ok (.signature h _ _ _), some s) =>
          match c.call wires (.rotate h 0) (some s) with
          | (.ok (.handle h), some s) =>
            match c.call wires (k' h kx) (some s) with
            | (.ok (.signature h _ _ _), some s) =>
              match c.call wires (.certifyKey h (List.replicate cfg.tciSize 1) 0 0) (some s) with
              | (.ok (.key _ _ _ _), some _) => true
              | _ => false
            | _ => false
          | _ => false
        | _ => false
      | _ => false
    | _ => false
  | _ => false

theorem used256 : usage one lib 3 (fun h => .sign h (List.replicate 32 1) 0 (List.replicate 32 5))
    (fun h _ => .sign h (List.replicate 32 1) 0 (List.replicate 32 5)) = true := by decide +kernel

end Dpe.Ref
