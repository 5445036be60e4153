import Verif.Props.Client
import Verif.Props.Uses
/-
A conversation of the Go client with the simulator, for the examples about remote attestation (C76).  The two runs
are in modules of their own, one after the other, because each takes the kernel some gigabytes of memory; so do the
examples in `Props/Uses.lean`, which is imported only for it to be built before.
-/
namespace Dpe.Ref

/-- A client connects, creates the default context, derives a context, has its key certified and a digest
signed; `P` looks at the state before the certification. -/
def talk (format : U32) (P : Handle → State std → Bool) : Bool :=
  match newClient wires 3 (some (simStart std lib cert features.args).2) with
  | (.ok c, some s) =>
    match c.call wires (.initialize 0x40000000) (some s) with
    | (.ok _, some s) =>
      match c.call wires (.derive Handle.default (List.replicate 32 7) 0x02000000 9 0) (some s) with
      | (.ok (.derived h _ _ _ _), some s) =>
        P h s.st && match c.call wires (.certifyKey h (List.replicate 32 1) format 0) (some s) with
          | (.ok (.key h' _ _ _), some s) =>
            match c.call wires (.sign h' (List.replicate 32 1) 0 (List.replicate 32 5)) (some s) with
            | (.ok _, _) => true
            | _ => false
          | _ => false
      | _ => false
    | _ => false
  | _ => false

/-- The derived context is in slot 1, its parent in slot 0, and it measures 32 sevens. -/
def derived (h : Handle) (st : State std) : Bool :=
  (match st.findActive h 3 with | .ok i => i == 1 | _ => false) && h != Handle.default && (st.at 1).parentIdx == 0 && (st.at 0).parentIdx == 255 &&
    (st.at 0).state != .inactive && (st.at 1).tci.svn == 0 && (st.at 0).tci.svn == 0 &&
    (st.at 1).tci.current.toList == List.replicate 32 7 && (st.at 0).tci.current.toList == List.replicate 32 0 &&
    (st.at 1).ctype != .simulation

end Dpe.Ref
