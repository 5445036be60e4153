import Verif.Model.Wire
import Verif.Model.Validate
/-
The memory image of the persisted state: the layout given by `repr(C)` and the derived
`IntoBytes` and `FromZeros` (which includes `TryFromBytes`) of zerocopy.
-/
namespace Dpe
variable {cfg : Cfg}

/-! ### Saving -/

/-- `ContextType` is `repr(u8)`, dpe/src/context.rs:322-330. -/
def CtxType.byte : CtxType → UInt8
  | .normal => 0
  | .simulation => 1

/-- `ContextState` is `repr(u8)`, dpe/src/context.rs:306-320. -/
def CtxState.byte : CtxState → UInt8
  | .inactive => 0
  | .active => 1
  | .retired => 2

/-- Little-endian bytes of a `u64` (`zerocopy::little_endian::U64`). -/
def le64 (x : BitVec 64) : Bytes :=
  [⟨x.extractLsb' 0 8⟩, ⟨x.extractLsb' 8 8⟩, ⟨x.extractLsb' 16 8⟩, ⟨x.extractLsb' 24 8⟩,
   ⟨x.extractLsb' 32 8⟩, ⟨x.extractLsb' 40 8⟩, ⟨x.extractLsb' 48 8⟩, ⟨x.extractLsb' 56 8⟩]

/-- `Context::as_bytes`, dpe/src/context.rs:22-52. -/
def Context.image (c : Context cfg) : Bytes :=
  c.handle.toList ++ (c.tci.bytes ++ (le64 c.children ++ (le32 c.locality ++
    [UInt8.ofNat c.parentIdx, c.ctype.byte, c.state.byte, boolByte c.usesInfo, boolByte c.usesDice,
     boolByte c.allowX509, boolByte c.allowExport, boolByte c.allowRecursive])))

/-- `State::as_bytes`, dpe/src/state.rs:24-40, for the states the code makes itself: `U8Bool`
bytes are 0 or 1, and the reserved byte, which `State` of the model leaves out, is 0. -/
def State.image (st : State cfg) : Bytes :=
  le32 st.marker ++ (le32 st.version ++ (st.contexts.flatMap Context.image ++ (le32 st.support ++
    (le16 st.flags ++ [boolByte st.hasInitialized, 0]))))

/-! ### Loading -/

/-- A `u8` field. -/
def getByte : Bytes → Option (UInt8 × Bytes)
  | a :: r => some (a, r)
  | _ => none

/-- A `u64` field, little-endian. -/
def getU64 (b : Bytes) : Option (BitVec 64 × Bytes) := do
  let (lo, b) ← getU32 b
  let (hi, b) ← getU32 b
  pure (hi ++ lo, b)

/-- `U8Bool::get`, dpe/src/lib.rs:77-79. -/
def byteBool (b : UInt8) : Bool := b != 0

/-- The bytes that are a `ContextType`. -/
def CtxType.ofByte (b : UInt8) : Option CtxType :=
  if b = 0 then some .normal else if b = 1 then some .simulation else none

/-- The bytes that are a `ContextState`. -/
def CtxState.ofByte (b : UInt8) : Option CtxState :=
  if b = 0 then some .inactive else if b = 1 then some .active else if b = 2 then some .retired
  else none

/-- A `TciNodeData` field, dpe/src/tci.rs:6-16. -/
def loadTci (b : Bytes) : Option (Tci cfg × Bytes) := do
  let (ty, b) ← getU32 b
  let (cum, b) ← getArr cfg.tciSize b
  let (cur, b) ← getArr cfg.tciSize b
  let (loc, b) ← getU32 b
  let (svn, b) ← getU32 b
  pure (⟨ty, cum, cur, loc, svn⟩, b)

/-- A `Context` field, dpe/src/context.rs:22-52. -/
def loadContext (b : Bytes) : Option (Context cfg × Bytes) := do
  let (handle, b) ← getArr 16 b
  let (tci, b) ← loadTci b
  let (children, b) ← getU64 b
  let (loc, b) ← getU32 b
  let (parent, b) ← getByte b
  let (ty, b) ← getByte b
  let ty ← CtxType.ofByte ty
  let (state, b) ← getByte b
  let state ← CtxState.ofByte state
  let (info, b) ← getByte b
  let (dice, b) ← getByte b
  let (x509, b) ← getByte b
  let (exp, b) ← getByte b
  let (recu, b) ← getByte b
  pure (⟨handle, tci, children, loc, parent.toNat, ty, state, byteBool info, byteBool dice,
    byteBool x509, byteBool exp, byteBool recu⟩, b)

/-- A `[Context; n]` field. -/
def loadContexts : Nat → Bytes → Option (List (Context cfg) × Bytes)
  | 0, b => some ([], b)
  | n + 1, b => do
    let (c, b) ← loadContext b
    let (l, b) ← loadContexts n b
    pure (c :: l, b)

/-- `State::try_ref_from_bytes` on the bytes at address `addr`: they must be aligned and of the
right length, and every field must be a value of its type (dpe/src/state.rs:24-40).  Native integers
are little-endian, as on every target of the project.  The `U8Bool` bytes are abstracted to what `U8Bool::get` says about them. -/
def loadState (addr : Nat) (b : Bytes) : Option (State cfg) := do
  guard (addr % 4 = 0)
  let (marker, b) ← getU32 b
  let (version, b) ← getU32 b
  let (contexts, b) ← loadContexts cfg.maxHandles b
  let (support, b) ← getU32 b
  let (flags, b) ← getU16 b
  let (ini, b) ← getByte b
  let (_, b) ← getByte b
  guard (b = [])
  if h : contexts.length = cfg.maxHandles then
    some ⟨marker, version, contexts, support, flags, byteBool ini, h⟩
  else none

end Dpe
