import Verif.Model.Image
import Verif.Model.Commands
/-
The project's own unit tests of states, contexts, chains and the validator (dpe/src/state.rs, context.rs,
support.rs, validation.rs, `mod tests`), run on the model with the expected values written there.  These
are checks of the model against the code, not proofs of properties.
-/
namespace Dpe.UnitState

deriving instance DecidableEq for Except

/-- The test builds: 64 slots, measurements as large as the hash. -/
def cfgOf (p : Profile) (n : Nat) : Cfg :=
  { maxHandles := 64, tciSize := n, profile := p, disabled := 0, maxCertSize := 2048, diceFuel := 5,
    pos := by decide, le64 := by decide }
def c256 : Cfg := cfgOf .p256 32
def c384 : Cfg := cfgOf .p384 48

/-- `state.contexts[i] = f(state.contexts[i])`. -/
def upd (i : Nat) (f : Context c256 → Context c256) (st : State c256) : State c256 :=
  st.setCtx i (f (st.contexts.getD i Context.new))

/-- The fields that the tests assign. -/
def state (s : CtxState) (c : Context c256) : Context c256 := { c with state := s }
def parent (i : Nat) (c : Context c256) : Context c256 := { c with parentIdx := i }
def children (b : Children) (c : Context c256) : Context c256 := { c with children := b }
def handle (h : Handle) (c : Context c256) : Context c256 := { c with handle := h }
def ctype (t : CtxType) (c : Context c256) : Context c256 := { c with ctype := t }

/-- `State::default()`. -/
def dflt : State c256 := State.new c256 0 0

/-! ## dpe/src/state.rs -/

/-- `SIMULATION_HANDLE`, dpe/src/dpe_instance.rs:467-468. -/
def simHandle : Handle := #v[1, 2, 3, 4, 5, 6, 7, 8, 9, 10, 11, 12, 13, 14, 15, 16]

/-! `test_get_active_context_index`, 206-238 -/

def s0 := upd 7 (handle simHandle) dflt
def s1 := upd 7 (state .retired) s0
def s2 := upd 7 (state .active) s1
def s3 := upd 7 ({ · with locality := 2 }) s2
example : s0.findActive simHandle 0 = .error .invalidLocality := by decide +kernel
example : s1.findActive simHandle 0 = .error .invalidLocality := by decide +kernel
example : s2.findActive simHandle 2 = .error .invalidLocality := by decide +kernel
example : s3.findActive simHandle 2 = .ok 7 := by decide +kernel

/-! `test_get_descendants`, 240-303 -/

def desc (st : State c256) (i : Nat) : Except Err Children :=
  st.getDescendants 65 (st.contexts.getD i Context.new)
def g1 := upd 7 (state .active) dflt
def g2 := upd 7 (children (1#64 <<< 3)) g1
def g3 := upd 3 (state .active) g2
def kids : Children := 1#64 <<< 0 ||| 1#64 <<< 63 ||| 1#64 <<< 62
def g4 := upd 3 (children kids) (upd 62 (state .active) (upd 63 (state .active) (upd 0 (state .active) g3)))
def g5 := upd 63 (children (1#64 <<< 1)) (upd 1 (state .active) g4)
example : desc dflt 7 = .error .invalidHandle := by decide +kernel
example : desc g1 7 = .ok 0 := by decide +kernel
example : desc g2 7 = .error .invalidHandle := by decide +kernel
example : desc g3 7 = .ok (1#64 <<< 3) := by decide +kernel
example : desc g4 7 = .ok (1#64 <<< 3 ||| kids) := by decide +kernel
example : desc g5 63 = .ok (1#64 <<< 1) ∧ desc g5 7 = .ok (1#64 <<< 3 ||| kids ||| 1#64 <<< 1) := by
  decide +kernel

/-! `test_state_size`, `test_state_offsets` and `test_context_offsets`, 305-390: sizes, and the fields at
the offsets given there -/

example : (State.new c256 0 0).image.length = 7184 ∧ (State.new c384 0 0).image.length = 9232 := by
  decide +kernel

/-- The bytes at an offset. -/
def slice (b : Bytes) (off n : Nat) : Bytes := (b.drop off).take n

/-- A state with a recognisable value in every field. -/
def marked (cfg : Cfg) : State cfg :=
  { State.new cfg 0x01020304 0x0506 with hasInitialized := true }

example : slice (marked c256).image 0 4 = le32 State.magic ∧ slice (marked c256).image 4 4 = le32 1 ∧
    slice (marked c256).image 7176 4 = [4, 3, 2, 1] ∧ slice (marked c256).image 7180 2 = [6, 5] ∧
    slice (marked c256).image 7182 2 = [1, 0] := by decide +kernel
example : slice (marked c384).image 0 4 = le32 State.magic ∧ slice (marked c384).image 4 4 = le32 1 ∧
    slice (marked c384).image 9224 4 = [4, 3, 2, 1] ∧ slice (marked c384).image 9228 2 = [6, 5] ∧
    slice (marked c384).image 9230 2 = [1, 0] := by decide +kernel

def markedCtx (cfg : Cfg) : Context cfg :=
  { handle := simHandle, tci := { (Tci.new : Tci cfg) with tciType := 0x0A0B0C0D },
    children := 0x1112131415161718, locality := 0x21222324, parentIdx := 77, ctype := .simulation,
    state := .retired, usesInfo := true, usesDice := false, allowX509 := true, allowExport := false,
    allowRecursive := true }

/-- Handle, measurements, children, locality, and eight fields of one byte. -/
def fieldsAt (b : Bytes) (tci kids loc bytes : Nat) : Prop :=
  slice b 0 16 = simHandle.toList ∧ slice b tci 4 = [0x0D, 0x0C, 0x0B, 0x0A] ∧
  slice b kids 8 = [0x18, 0x17, 0x16, 0x15, 0x14, 0x13, 0x12, 0x11] ∧
  slice b loc 4 = [0x24, 0x23, 0x22, 0x21] ∧ slice b bytes 8 = [77, 1, 2, 1, 0, 1, 0, 1] ∧
  b.length = bytes + 8
instance (b : Bytes) (t k l x : Nat) : Decidable (fieldsAt b t k l x) := by unfold fieldsAt; infer_instance

example : fieldsAt (markedCtx c384).image 16 124 132 136 ∧ fieldsAt (markedCtx c256).image 16 92 100 104 := by
  decide +kernel

/-! ## dpe/src/context.rs -/

/-- The first item of the iterator at a leaf, or the error of `ChildToRootIter::new`. -/
def chain (st : State c256) (leaf : Nat) : Except Err (List (Except Err (Context c256))) :=
  (ChainIter.new leaf st.contexts).map (fun it => it.items st.contexts 66)

/-- The handle that the tests write into slot `i`. -/
def numbered (i : Nat) : Handle := Vector.replicate 16 (UInt8.ofNat i)

/-! `test_child_to_root_iter`, 529-566, with one permutation of all slots: 0, 37, 74, ... modulo 64 -/

def perm : List Nat := (List.range 64).map (· * 37 % 64)
def permuted : State c256 :=
  (perm.zip (ROOT :: perm)).foldl (fun st (i, p) =>
    upd i (fun c => { c with handle := numbered i, parentIdx := p,
                             state := if p = ROOT then .retired else .active }) st) dflt
example : perm.Nodup := by decide +kernel
example : (chain permuted (perm.getLast!)).map (·.map fun x => (x.toOption.map (·.handle))) =
    .ok (perm.reverse.map fun i => some (numbered i)) := by decide +kernel

/-! `test_child_to_root_overflow`, 568-580, and `test_add_child_overflow`, 582-589 -/

example : chain (upd 1 (parent 0 ∘ state .active) (upd 0 (parent 1 ∘ state .active) dflt)) 0 =
    .error (.internal .tciNodeCountExceeded) := by decide +kernel
example : (Context.new : Context c256).addChild 65 = .error (.internal .childIndexOob) := by decide +kernel

/-! `test_child_to_root_check_parent_and_state`, 591-622, and `test_child_to_root_iter_infinite_loop`,
624-629 -/

example : chain (upd 0 (parent 64 ∘ state .retired) dflt) 0 = .error .invalidHandle := by decide +kernel
example : chain (upd 0 (parent 0 ∘ state .inactive) dflt) 0 = .error .invalidHandle := by decide +kernel
example : chain (upd 0 (parent 0 ∘ state .retired) dflt) 0 = .error (.internal .tciNodeCountExceeded) := by
  decide +kernel
example : chain (upd 0 (parent 63 ∘ state .active) dflt) 0 = .error .invalidHandle := by decide +kernel
example : (chain (upd 0 (parent ROOT ∘ state .active) dflt) 0).map (·.length) = .ok 1 := by decide +kernel
example : chain dflt 30 = .error .invalidHandle := by decide +kernel

/-! `test_child_to_root_iter_backwards`, 631-663: front and back alternate on ROOT <- 0 <- 1 <- 2 <- 3 <- 4 -/

def five : State c256 :=
  (List.range 5).foldl (fun st i =>
    upd i (fun c => { c with state := .active, parentIdx := if i = 0 then ROOT else i - 1,
                             children := if i < 4 then 1#64 <<< (i + 1) else 0 }) st) dflt
/-- The parents of the contexts yielded, from the back where `true`. -/
def walk (st : State c256) : List Bool → ChainIter → List (Option (Except Err Nat))
  | [], _ => []
  | b :: l, it =>
    let r := if b then it.nextBack st.contexts else it.next st.contexts
    r.1.map (·.map (·.parentIdx)) :: walk st l r.2
example : (ChainIter.new 4 five.contexts).map (walk five [true, false, true, false, true, false]) =
    .ok [some (.ok ROOT), some (.ok 3), some (.ok 0), some (.ok 2), some (.ok 1), none] := by decide +kernel

/-! `test_child_to_root_iter_multiple_children`, 665-713: the tree is changed behind the iterator's back -/

def tree : State c256 :=
  [(0, ROOT, 0), (1, ROOT, 0b110100), (2, 1, 0b1000), (3, 2, 0b1000000), (4, 1, 0), (5, 1, 0), (6, 3, 0)].foldl
    (fun st (i, p, k) => upd i (fun c => { c with state := .active, parentIdx := p, children := k }) st) dflt
def cut : State c256 := upd 2 (parent ROOT) (upd 1 (fun c => children (removeChildren c.children 0b100) c) tree)
example : (ChainIter.new 3 tree.contexts).map (fun it => (it.pathLen, walk cut [true] it)) =
    .ok (3, [some (.error (.internal .parentChainIndexOob))]) := by decide +kernel

/-! ## `test_get_support_flags`, dpe/src/support.rs:119-165 -/

example : simBit (1#32 <<< 31) ∧ recursiveBit (1#32 <<< 30) ∧ autoInitBit (1#32 <<< 29) ∧
    rotateBit (1#32 <<< 27) ∧ x509Bit (1#32 <<< 26) ∧ csrBit (1#32 <<< 25) ∧ infoBit (1#32 <<< 22) ∧
    diceBit (1#32 <<< 21) ∧ retainBit (1#32 <<< 19) ∧ exportBit (1#32 <<< 18) := by decide +kernel

/-! ## dpe/src/validation.rs -/

/-- `SUPPORT`, dpe/src/support.rs:111-117. -/
def SUPPORT : U32 := 1#32 <<< 31 ||| 1#32 <<< 29 ||| 1#32 <<< 27 ||| 1#32 <<< 26 ||| 1#32 <<< 19

def test : State c256 := State.new c256 SUPPORT 0
def forest (st : State c256) : Except Err Unit := validateForest 65 st

/-! `test_validate_context_forest`, 362-420 -/

def f1 := upd 2 (state .active) (upd 1 (children 0b100 ∘ state .active) (upd 0 (children 0b100 ∘ state .active) test))
def f2 := upd 0 (children 0b10) f1
def f3 := upd 2 (children 0b1) f2
def f4 := upd 2 (children 0) (upd 1 (children 0) (upd 0 (fun c => children (addChildren c.children 0b100) c) f3))
def f5 := upd 12 (state .active) (upd 11 (state .active) (upd 10 (children 0b1100000000000 ∘ state .active) f4))
def f6 := upd 12 (ctype .simulation) (upd 11 (ctype .simulation) (upd 10 (ctype .simulation) f5))
def f7 := upd 11 (ctype .normal) f6
example : forest f1 = .error (.validation .childWithMultipleParents) := by decide +kernel
example : forest f2 = .ok () := by decide +kernel
example : forest f3 = .error (.validation .cyclesInTree) := by decide +kernel
example : forest f4 = .ok () := by decide +kernel
example : forest f5 = .error (.validation .multipleNormalConnectedComponents) := by decide +kernel
example : forest f6 = .ok () := by decide +kernel
example : forest f7 = .error (.validation .mixedContextTypeConnectedComponents) := by decide +kernel

/-! `test_support_validation`, 423-461 -/

example : validateState (upd 0 (ctype .simulation) dflt) = .error (.validation .simulationNotSupported) := by
  decide +kernel
example : validateState (upd 0 ({ · with usesDice := true }) dflt) =
    .error (.validation .internalDiceNotSupported) := by decide +kernel
example : validateState (upd 0 ({ · with usesInfo := true }) dflt) =
    .error (.validation .internalInfoNotSupported) := by decide +kernel
example : validateState (upd 0 ({ · with parentIdx := 1, allowX509 := true }) dflt) =
    .error (.validation .allowX509NotSupported) := by decide +kernel

/-! `test_context_specific_validation`, 463-569 -/

/-- `Support::all().difference(Support::AUTO_INIT)`. -/
def all : State c256 :=
  State.new c256 (1#32 <<< 31 ||| 1#32 <<< 30 ||| 1#32 <<< 27 ||| 1#32 <<< 26 ||| 1#32 <<< 25 |||
    1#32 <<< 22 ||| 1#32 <<< 21 ||| 1#32 <<< 19 ||| 1#32 <<< 18) 0

example : validateState (upd 0 (parent 0) all) = .error (.validation .inactiveContextInvalidParent) := by
  decide +kernel
example : validateState (upd 0 (children (BitVec.allOnes 64)) all) =
    .error (.validation .inactiveContextWithChildren) := by decide +kernel
example : validateState (upd 0 (fun c => { c with tci := { c.tci with current := Vector.replicate _ 1 } }) all) =
    .error (.validation .inactiveContextWithMeasurement) := by decide +kernel
def flagSet := upd 0 ({ · with allowX509 := true }) all
example : validateState flagSet = .error (.validation .inactiveContextWithFlagSet) := by decide +kernel

def live := upd 0 (state .active) { flagSet with hasInitialized := true }
example : validateState (upd 0 (parent 250) live) = .error (.validation .parentDoesNotExist) := by decide +kernel
example : validateState (upd 0 (children (1#64 <<< 30)) live) = .error (.validation .inactiveChild) := by
  decide +kernel
example : validateState (upd 0 (children (1#64 <<< 10)) live) = .error (.validation .inactiveChild) := by
  decide +kernel
example : validateState (upd 0 (parent 10) live) = .error (.validation .inactiveParent) := by decide +kernel
def two := upd 10 (state .active) live
example : validateState (upd 0 (children (1#64 <<< 10) ∘ parent 10) two) =
    .error (.validation .parentChildLinksCorrupted) := by decide +kernel
example : validateState (upd 0 (parent 10) two) = .error (.validation .parentChildLinksCorrupted) := by
  decide +kernel
example : validateState { two with hasInitialized := false } = .error (.validation .dpeNotMarkedInitialized) := by
  decide +kernel
example : validateState (upd 0 (state .retired) two) = .error (.validation .danglingRetiredContext) := by
  decide +kernel
example : validateState (upd 0 (fun c => { c with tci := { c.tci with locality := 1 } }) two) =
    .error (.validation .localityMismatch) := by decide +kernel

/-! `test_contexts_within_same_locality_validation`, 571-597 -/

def pair := upd 1 (state .active) (upd 0 (state .active) { dflt with hasInitialized := true })
example : validateState pair = .error (.validation .multipleDefaultContexts) := by decide +kernel
example : validateState (upd 1 (handle (Vector.replicate 16 1)) pair) =
    .error (.validation .mixedContextLocality) := by decide +kernel

/-! `test_invalid_marker` and `test_version_mismatch`, 599-629 -/

example : validateState dflt = .ok () := by decide +kernel
example : validateState { dflt with marker := 0 } = .error (.validation .invalidMarker) := by decide +kernel
example : validateState { dflt with version := 0 } = .error (.validation .versionMismatch) := by decide +kernel

end Dpe.UnitState
