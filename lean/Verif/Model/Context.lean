import Verif.Model.Base
/-
Contexts, child bitmaps and the persisted DPE state.
-/
namespace Dpe

/-- `ContextHandle`, dpe/src/context.rs:185-218. -/
abbrev Handle := BArr 16

/-- `ContextHandle::default`, dpe/src/context.rs:189-195. -/
def Handle.default : Handle := Vector.replicate 16 0

/-- `ContextHandle::new_invalid`, dpe/src/context.rs:190-200. -/
def Handle.invalid : Handle := Vector.replicate 16 0xFF

/-- `ContextHandle::is_default`, dpe/src/context.rs:203-205 (constant-time equality is
plain equality here). -/
def Handle.isDefault (h : Handle) : Bool := h == Handle.default

/-- `Children`, dpe/src/context.rs:224-279: a 64-bit bitmap. -/
abbrev Children := BitVec 64

/-- `u64::trailing_zeros`: the index of the lowest set bit (64 if there is none). -/
def trailingZeros (x : BitVec 64) : Nat :=
  ((List.range 64).find? (fun i => x.getLsbD i)).getD 64

/-- Items yielded by repeated `FlagsIter::next`, dpe/src/dpe_instance.rs:414-427: return the
lowest set bit and clear it, stop when no bit is set. `fuel` counts calls of `next`; 64 calls
always exhaust the iterator (proved in `Verif.Proofs.Bits`). -/
def flagsIterGo : Nat → BitVec 64 → List Nat
  | 0, _ => []
  | fuel + 1, x =>
    if x = 0 then []
    else
      let idx := trailingZeros x
      idx :: flagsIterGo fuel (x &&& ~~~(1#64 <<< idx))

/-- `flags_iter`, dpe/src/dpe_instance.rs:405-411, as the list of all items.  The Rust
assertion `1 ≤ max ≤ 64` holds for every caller because of `Cfg.pos` and `Cfg.le64`. -/
def flagsIter (flags : BitVec 64) (max : Nat) : List Nat :=
  flagsIterGo 64 (flags &&& (BitVec.allOnes 64 >>> (64 - max)))

/-- `ContextState`, dpe/src/context.rs:309-320. -/
inductive CtxState
  | inactive
  | active
  | retired
  deriving DecidableEq, Repr

/-- `ContextType`, dpe/src/context.rs:322-330. -/
inductive CtxType
  | normal
  | simulation
  deriving DecidableEq, Repr

/-- `TciNodeData`, dpe/src/tci.rs:10-16. -/
structure Tci (cfg : Cfg) where
  tciType : U32
  cumulative : BArr cfg.tciSize
  current : BArr cfg.tciSize
  locality : U32
  svn : U32
  deriving DecidableEq

/-- `TciNodeData::new`, dpe/src/tci.rs:19-27 (also the derived `Default`). -/
def Tci.new {cfg : Cfg} : Tci cfg :=
  { tciType := 0, cumulative := Vector.replicate _ 0, current := Vector.replicate _ 0,
    locality := 0, svn := 0 }

/-- `Context`, dpe/src/context.rs:24-52.  Simplifications: `parent_idx : u8` is a `Nat`
(values stored are always below 256), the `U8Bool` bytes are `Bool` (`U8Bool::get`,
dpe/src/lib.rs:68-86, only distinguishes zero from non-zero). -/
structure Context (cfg : Cfg) where
  handle : Handle
  tci : Tci cfg
  children : Children
  locality : U32
  parentIdx : Nat
  ctype : CtxType
  state : CtxState
  usesInfo : Bool
  usesDice : Bool
  allowX509 : Bool
  allowExport : Bool
  allowRecursive : Bool
  deriving DecidableEq

/-- `Context::ROOT_INDEX`, dpe/src/context.rs:80. -/
def ROOT : Nat := 255

/-- `Context::new`, dpe/src/context.rs:82-99. -/
def Context.new {cfg : Cfg} : Context cfg :=
  { handle := Handle.default, tci := Tci.new, children := 0, locality := 0, parentIdx := ROOT,
    ctype := .normal, state := .inactive, usesInfo := false, usesDice := false,
    allowX509 := false, allowExport := true, allowRecursive := false }

/-- `ActiveContextArgs`, dpe/src/context.rs:332-345. -/
structure ActivateArgs where
  ctype : CtxType
  locality : U32
  handle : Handle
  tciType : U32
  parentIdx : Nat
  allowX509 : Bool
  usesInfo : Bool
  usesDice : Bool
  allowExport : Bool
  svn : U32
  allowRecursive : Bool

/-- `Context::activate`, dpe/src/context.rs:121-137.  All fields are overwritten. -/
def Context.activate {cfg : Cfg} (_c : Context cfg) (a : ActivateArgs) : Context cfg :=
  { handle := a.handle,
    tci := { (Tci.new : Tci cfg) with tciType := a.tciType, locality := a.locality, svn := a.svn },
    children := 0, locality := a.locality, parentIdx := a.parentIdx, ctype := a.ctype,
    state := .active, usesInfo := a.usesInfo, usesDice := a.usesDice, allowX509 := a.allowX509,
    allowExport := a.allowExport, allowRecursive := a.allowRecursive }

/-- `Context::destroy`, dpe/src/context.rs:141-152.  `context_type` and
`allow_export_cdi` keep their old values. -/
def Context.destroy {cfg : Cfg} (c : Context cfg) : Context cfg :=
  { c with tci := Tci.new, state := .inactive, usesInfo := false, usesDice := false,
           allowX509 := false, parentIdx := ROOT, locality := 0, children := 0,
           handle := Handle.invalid, allowRecursive := false }

/-- `Children::add_child`, dpe/src/context.rs:233-239. -/
def addChildBit (cfg : Cfg) (ch : Children) (idx : Nat) : Except Err Children :=
  if idx ≥ cfg.maxHandles then .error (.internal .childrenBitmapIndexOob)
  else .ok (ch ||| (1#64 <<< idx))

/-- `Context::add_child`, dpe/src/context.rs:156-163. -/
def Context.addChild {cfg : Cfg} (c : Context cfg) (idx : Nat) : Except Err Children :=
  if idx ≥ cfg.maxHandles then .error (.internal .childIndexOob)
  else addChildBit cfg c.children idx

/-- `Children::has_children`, dpe/src/context.rs:242-249. -/
def Context.hasChildren {cfg : Cfg} (c : Context cfg) : Bool := c.children != 0

/-- `Children::has_child`, dpe/src/context.rs:252-258. -/
def hasChild (cfg : Cfg) (ch : Children) (idx : Nat) : Bool :=
  if idx ≥ cfg.maxHandles then false else (ch &&& (1#64 <<< idx)) != 0

/-- `Children::add_children`, dpe/src/context.rs:261-263. -/
def addChildren (a b : Children) : Children := a ||| b

/-- `Children::remove_children`, dpe/src/context.rs:266-268. -/
def removeChildren (a b : Children) : Children := a &&& ~~~b

/-- `Children::iter`, dpe/src/context.rs:271-273. -/
def childList (cfg : Cfg) (ch : Children) : List Nat := flagsIter ch cfg.maxHandles

/-- `State`, dpe/src/state.rs:26-40.  The `reserved` byte is dropped (never read). The
length proof reflects the Rust type `[Context; MAX_HANDLES]`. -/
structure State (cfg : Cfg) where
  marker : U32
  version : U32
  contexts : List (Context cfg)
  support : U32
  flags : BitVec 16
  hasInitialized : Bool
  len_eq : contexts.length = cfg.maxHandles

/-- `State::MAGIC`, dpe/src/state.rs:59 (`b"DPES"`, big-endian). -/
def State.magic : U32 := 0x44504553

/-- `State::VERSION`, dpe/src/state.rs:60. -/
def State.currentVersion : U32 := 1

/-- `State::new`, dpe/src/state.rs:62-74 with `Support::preprocess_support`,
dpe/src/support.rs:57-102. -/
def State.new (cfg : Cfg) (support : U32) (flags : BitVec 16) : State cfg :=
  { marker := State.magic, version := State.currentVersion,
    contexts := List.replicate cfg.maxHandles Context.new,
    support := support &&& ~~~cfg.disabled, flags := flags, hasInitialized := false,
    len_eq := by simp }

/-- Assignment to one context slot (`state.contexts[idx] = ctx`); out of range indices
leave the state unchanged (callers check the range first, as the Rust code does). -/
def State.setCtx {cfg : Cfg} (st : State cfg) (i : Nat) (c : Context cfg) : State cfg :=
  { st with contexts := st.contexts.set i c, len_eq := by simp [st.len_eq] }

/-- Support bits, dpe/src/support.rs:10-23 and the accessors 26-55. -/
def simBit (s : U32) : Bool := s.getLsbD 31
@[inherit_doc simBit] def recursiveBit (s : U32) : Bool := s.getLsbD 30
@[inherit_doc simBit] def autoInitBit (s : U32) : Bool := s.getLsbD 29
@[inherit_doc simBit] def rotateBit (s : U32) : Bool := s.getLsbD 27
@[inherit_doc simBit] def x509Bit (s : U32) : Bool := s.getLsbD 26
@[inherit_doc simBit] def csrBit (s : U32) : Bool := s.getLsbD 25
@[inherit_doc simBit] def infoBit (s : U32) : Bool := s.getLsbD 22
@[inherit_doc simBit] def diceBit (s : U32) : Bool := s.getLsbD 21
@[inherit_doc simBit] def retainBit (s : U32) : Bool := s.getLsbD 19
@[inherit_doc simBit] def exportBit (s : U32) : Bool := s.getLsbD 18

/-- `State::get_active_context_pos` with `get_active_context_pos_internal`,
dpe/src/state.rs:89-155. The final range check (95-97) cannot fail because the index
comes from the array itself; it is kept implicit. -/
def State.findActive {cfg : Cfg} (st : State cfg) (h : Handle) (loc : U32) : Except Err Nat :=
  let here := fun (c : Context cfg) => c.state == .active && c.locality == loc
  if st.contexts.any here then
    match st.contexts.findIdx? (fun c => here c && c.handle == h) with
    | some i => .ok i
    | none => .error .invalidHandle
  else .error .invalidLocality

/-- `State::get_next_inactive_context_pos`, dpe/src/state.rs:157-161. -/
def State.nextInactive {cfg : Cfg} (st : State cfg) : Option Nat :=
  st.contexts.findIdx? (fun c => c.state == .inactive)

/-- `State::count_contexts`, dpe/src/state.rs:191-193. -/
def State.countContexts {cfg : Cfg} (st : State cfg) (f : Context cfg → Bool) : Nat :=
  (st.contexts.filter f).length

/-- `State::get_descendants`, dpe/src/state.rs:170-184.  The Rust recursion has no bound;
`fuel` exhaustion stands for stack overflow on cyclic link data. -/
def State.getDescendants {cfg : Cfg} (st : State cfg) : Nat → Context cfg → Except Err Children
  | 0, _ => .error .panic
  | fuel + 1, c =>
    if c.state == .inactive then .error .invalidHandle
    else
      (childList cfg c.children).foldlM (init := c.children) fun acc idx =>
        match st.contexts[idx]? with
        | none => .error (.internal .descendantIndexOob)
        | some ctx => do
          let d ← st.getDescendants fuel ctx
          pure (addChildren acc d)

end Dpe
