import Verif.Model.Resp
/-
Chain iterator and the `DpeInstance` helper functions.
-/
namespace Dpe
variable {cfg : Cfg} {σ : Type}

/-- `ChildToRootIter`, dpe/src/context.rs:347-354 (the borrowed slice is passed separately). -/
structure ChainIter where
  front : Nat
  back : Nat
  pathLen : Nat
  done : Bool
  count : Nat

/-- `ChildToRootIter::get_context`, dpe/src/context.rs:395-410, without the `done` side
effect, which the callers below apply. -/
def getCtx (ctxs : List (Context cfg)) (idx : Nat) : Except Err (Context cfg) :=
  match ctxs[idx]? with
  | none => .error (.internal .contextIndexOob)
  | some c =>
    if !(decide (c.parentIdx ≤ cfg.maxHandles - 1) || c.parentIdx == ROOT) || c.state == .inactive
    then .error .invalidHandle
    else .ok c

/-- The path-length loop of `ChildToRootIter::new`, dpe/src/context.rs:370-381: returns
`(back_idx, path_len)`.  `fuel` is `MAX_HANDLES + 1 - path_len`; the Rust loop stops with
`TciNodeCountExceeded` exactly when it runs out. -/
def pathLenLoop (ctxs : List (Context cfg)) : Nat → Nat → Nat → Except Err (Nat × Nat)
  | 0, _, _ => .error .panic
  | fuel + 1, curr, len =>
    match getCtx ctxs curr with
    | .error e => .error e
    | .ok c =>
      if len + 1 > cfg.maxHandles then .error (.internal .tciNodeCountExceeded)
      else if c.parentIdx == ROOT then .ok (curr, len + 1)
      else pathLenLoop ctxs fuel c.parentIdx (len + 1)

/-- `ChildToRootIter::new`, dpe/src/context.rs:358-384. -/
def ChainIter.new (leaf : Nat) (ctxs : List (Context cfg)) : Except Err ChainIter :=
  match pathLenLoop ctxs (cfg.maxHandles + 1) leaf 0 with
  | .error e => .error e
  | .ok (back, len) => .ok { front := leaf, back := back, pathLen := len, done := false, count := 0 }

/-- `ChildToRootIter::is_node_on_path`, dpe/src/context.rs:413-431.  The Rust loop has no
bound; `fuel` exhaustion stands for non-termination. -/
def isNodeOnPath (ctxs : List (Context cfg)) (target : Nat) : Nat → Nat → Except Err Bool
  | 0, _ => .error .panic
  | fuel + 1, curr =>
    if curr == target then .ok true
    else
      match getCtx ctxs curr with
      | .error e => .error e
      | .ok c => if c.parentIdx == ROOT then .ok false else isNodeOnPath ctxs target fuel c.parentIdx

/-- `ChildToRootIter::next`, dpe/src/context.rs:436-460. -/
def ChainIter.next (ctxs : List (Context cfg)) (it : ChainIter) :
    Option (Except Err (Context cfg)) × ChainIter :=
  if it.done then (none, it)
  else if it.count ≥ it.pathLen then (none, { it with done := true })
  else if it.count ≥ cfg.maxHandles then (some (.error .maxTcis), { it with done := true })
  else
    match getCtx ctxs it.front with
    | .error e => (some (.error e), { it with done := true })
    | .ok c =>
      (some (.ok c),
        { it with done := c.parentIdx == ROOT, front := c.parentIdx, count := it.count + 1 })

/-- The search for the next back index in `next_back`, dpe/src/context.rs:488-497: the first
child that is on the path from `front` to the root. -/
def findOnPath (ctxs : List (Context cfg)) (front : Nat) : List Nat → Except Err (Option Nat)
  | [] => .ok none
  | k :: ks =>
    match isNodeOnPath ctxs k (cfg.maxHandles + 1) front with
    | .error e => .error e
    | .ok true => .ok (some k)
    | .ok false => findOnPath ctxs front ks

/-- `ChildToRootIter::next_back`, dpe/src/context.rs:464-506. An error of
`is_node_on_path` sets `done` through `get_context`; a missing child does not. -/
def ChainIter.nextBack (ctxs : List (Context cfg)) (it : ChainIter) :
    Option (Except Err (Context cfg)) × ChainIter :=
  if it.done then (none, it)
  else if it.count ≥ it.pathLen then (none, { it with done := true })
  else if it.count ≥ cfg.maxHandles then (some (.error .maxTcis), { it with done := true })
  else
    match getCtx ctxs it.back with
    | .error e => (some (.error e), { it with done := true })
    | .ok c =>
      if it.front == it.back then
        (some (.ok c), { it with done := true, count := it.count + 1 })
      else
        match findOnPath ctxs it.front (childList cfg c.children) with
        | .error e => (some (.error e), { it with done := true })
        | .ok none => (some (.error (.internal .parentChainIndexOob)), it)
        | .ok (some k) => (some (.ok c), { it with back := k, count := it.count + 1 })

/-- The items of a `for` loop over the iterator (forward). `fuel` bounds the number of
calls of `next`; `MAX_HANDLES + 2` calls always exhaust it because each successful call
increments `count` (proved in `Verif.Proofs.Iter`). -/
def ChainIter.items (ctxs : List (Context cfg)) : Nat → ChainIter → List (Except Err (Context cfg))
  | 0, _ => []
  | fuel + 1, it =>
    match it.next ctxs with
    | (none, _) => []
    | (some x, it') => x :: ChainIter.items ctxs fuel it'

/-- `TciNodeData::as_bytes`, layout of dpe/src/tci.rs:10-16 (`repr(C)`, no padding). -/
def Tci.bytes (t : Tci cfg) : Bytes :=
  le32 t.tciType ++ t.cumulative.toList ++ t.current.toList ++ le32 t.locality ++ le32 t.svn

/-- `bool::as_bytes`. -/
def boolByte (b : Bool) : UInt8 := if b then 1 else 0

/-- `ContextHandle` draw loop of `DpeInstance::generate_new_handle`,
dpe/src/dpe_instance.rs:205-223, `n` = remaining attempts. -/
def genHandleLoop (ops : Ops σ) : Nat → M cfg σ Handle
  | 0 => M.fail (.internal .handleGenerationExhausted)
  | n + 1 => do
    let h ← M.crypto ops.rand
    let st ← M.get
    if !h.isDefault && !st.contexts.any (fun c => c.handle == h) then pure h
    else genHandleLoop ops n

/-- `DpeInstance::generate_new_handle`, dpe/src/dpe_instance.rs:205-223
(`MAX_NEW_HANDLE_ATTEMPTS` = 8, line 63). -/
def generateNewHandle (ops : Ops σ) : M cfg σ Handle := genHandleLoop ops 8

/-- `DpeInstance::roll_onetime_use_handle`, dpe/src/dpe_instance.rs:231-243 (returns the
updated copy of the context). -/
def rollHandle (ops : Ops σ) (c : Context cfg) : M cfg σ (Context cfg) :=
  if c.handle.isDefault then pure c
  else do
    let h ← generateNewHandle ops
    pure { c with handle := h }

/-- `Hasher::update` on each chunk in turn. -/
def hashChunks (ops : Ops σ) : List Bytes → M cfg σ Unit
  | [] => pure ()
  | b :: bs => do
    M.crypto (ops.hashUpdate b)
    hashChunks ops bs

/-- `Crypto::hash_all` (default method), crypto/src/lib.rs: `with_hasher`. -/
def hashAll (ops : Ops σ) (chunks : List Bytes) : M cfg σ Bytes := do
  M.crypto ops.hasher
  M.crypto ops.hashInit
  hashChunks ops chunks
  M.crypto ops.hashFinish

/-- `copy_from_slice` of a digest into the TCI buffer after the length check,
dpe/src/dpe_instance.rs:278-283. -/
def digestToTci (d : Bytes) : Except Err (BArr cfg.tciSize) :=
  if h : d.length = cfg.tciSize then .ok ⟨d.toArray, by simpa using h⟩
  else .error (.internal .digestLengthMismatch)

/-- `DpeInstance::add_tci_measurement`, dpe/src/dpe_instance.rs:255-286 (returns the updated
copy of the context). -/
def addTci (ops : Ops σ) (c : Context cfg) (m : BArr cfg.tciSize) (loc : U32) :
    M cfg σ (Context cfg) := do
  M.failIf (c.state != .active) .invalidHandle
  M.failIf (c.locality != loc) .invalidLocality
  let d ← hashAll ops [c.tci.cumulative.toList, m.toList]
  let v ← M.lift (digestToTci d)
  pure { c with tci := { c.tci with cumulative := v, current := m } }

/-- `DpeInstance::get_profile`, dpe/src/dpe_instance.rs:137-150, as the response bytes. -/
def getProfile (ops : Ops σ) (support : U32) : M cfg σ Bytes := do
  let vid ← M.platform ops.vendorId
  let sku ← M.platform ops.vendorSku
  pure (profileBytes cfg support vid sku)

/-- `DpeInstance::serialize_internal_input_info`, dpe/src/dpe_instance.rs:296-320 (the two
slice errors cannot occur, the buffer is exactly 32 + 4 bytes). -/
def internalInfo (ops : Ops σ) (support : U32) : M cfg σ Bytes := do
  let p ← getProfile ops support
  pure (p ++ le32 cfg.profile.code)

/-- The node loop of `compute_measurement_hash`, dpe/src/dpe_instance.rs:344-360; returns
the accumulated `(uses_internal_input_info, uses_internal_input_dice)`. -/
def hashNodes (ops : Ops σ) : List (Except Err (Context cfg)) → Bool → Bool → M cfg σ (Bool × Bool)
  | [], i, d => pure (i, d)
  | x :: xs, i, d => do
    let c ← M.lift x
    M.crypto (ops.hashUpdate c.tci.bytes)
    M.crypto (ops.hashUpdate [boolByte c.allowX509])
    hashNodes ops xs (i || c.usesInfo) (d || c.usesDice)

/-- The certificate-chain loop of `compute_measurement_hash`,
dpe/src/dpe_instance.rs:380-391.  The loop ends at the first platform error (which is
swallowed).  It has no bound in Rust: `fuel` (`Cfg.diceFuel`, arbitrary) exhaustion stands
for non-termination.  `offset += len` wraps (release build). -/
def diceLoop (ops : Ops σ) : Nat → U32 → M cfg σ Unit
  | 0, _ => M.fail .panic
  | fuel + 1, off => fun s =>
    match ops.certChain off 2048 s.w with
    | (.error _, w') => (.ok (), { s with w := w' })
    | (.ok (len, chunk), w') =>
      (do M.failIf (decide (2048 < len.toNat)) (.internal .certChainChunkSliceOob)
          M.crypto (ops.hashUpdate (chunk.toList.take len.toNat))
          diceLoop ops fuel (off + len)) { s with w := w' }

/-- Conditional effect. -/
def M.when {α : Type} (c : Bool) (x : M cfg σ α) (dflt : α) : M cfg σ α :=
  if c then x else pure dflt

/-- `DpeInstance::compute_measurement_hash`, dpe/src/dpe_instance.rs:331-395. -/
def computeMeasurementHash (ops : Ops σ) (start : Nat) : M cfg σ Bytes := do
  M.crypto ops.hasher
  M.crypto ops.hashInit
  let st ← M.get
  let it ← M.lift (ChainIter.new start st.contexts)
  let (info, dice) ← hashNodes ops (it.items st.contexts (cfg.maxHandles + 2)) false false
  M.when info (do
    let b ← internalInfo ops st.support
    M.crypto (ops.hashUpdate b)) ()
  M.when dice (diceLoop ops cfg.diceFuel 0) ()
  M.crypto ops.hashFinish

end Dpe
