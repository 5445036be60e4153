import Verif.Model.Context
/-
The state validator, dpe/src/validation.rs.  `MAX_HANDLES` and the array lengths are
`cfg.maxHandles`; the counters of the Rust code are `Nat` (they are bounded by the number of
slots, so the Rust integers cannot overflow).
-/
namespace Dpe
variable {cfg : Cfg}

/-- A validation error as a DPE error code (`map_err(DpeErrorCode::Validation)`,
dpe/src/validation.rs:101-105). -/
def vErr {α : Type} (e : ValErr) : Except Err α := .error (.validation e)

/-- `check_support`, dpe/src/validation.rs:158-177. -/
def checkSupport (st : State cfg) (c : Context cfg) : Except Err Unit :=
  if !simBit st.support && c.ctype == .simulation then vErr .simulationNotSupported
  else if !diceBit st.support && c.usesDice then vErr .internalDiceNotSupported
  else if !infoBit st.support && c.usesInfo then vErr .internalInfoNotSupported
  else if c.parentIdx != ROOT && !x509Bit st.support && c.allowX509 then
    vErr .allowX509NotSupported
  else .ok ()

/-- `validate_inactive_context`, dpe/src/validation.rs:180-195. -/
def validateInactive (c : Context cfg) : Except Err Unit :=
  if c.parentIdx != ROOT then vErr .inactiveContextInvalidParent
  else if c.hasChildren then vErr .inactiveContextWithChildren
  else if c.tci ≠ Tci.new then vErr .inactiveContextWithMeasurement
  else if c.usesDice || c.allowX509 || c.usesInfo then vErr .inactiveContextWithFlagSet
  else .ok ()

/-- The parent half of `check_children_and_parent`, dpe/src/validation.rs:205-222. -/
def checkParent (st : State cfg) (idx : Nat) (c : Context cfg) : Except Err Unit :=
  if decide (c.parentIdx ≥ cfg.maxHandles) && c.parentIdx != ROOT then vErr .parentDoesNotExist
  else if c.parentIdx != ROOT then
    match st.contexts[c.parentIdx]? with
    | none => vErr .parentDoesNotExist
    | some p =>
      if p.state == .inactive then vErr .inactiveParent
      else if !hasChild cfg p.children idx then vErr .parentChildLinksCorrupted
      else .ok ()
  else .ok ()

/-- The body of the loop of `check_children_and_parent`, dpe/src/validation.rs:224-236. -/
def checkChild (st : State cfg) (idx child : Nat) : Except Err Unit :=
  match st.contexts[child]? with
  | none => vErr .childDoesNotExist
  | some c =>
    if c.state == .inactive then vErr .inactiveChild
    else if c.parentIdx != idx then vErr .parentChildLinksCorrupted
    else .ok ()

/-- `check_children_and_parent`, dpe/src/validation.rs:198-238.  The child bits are
enumerated up to bit 63, not up to `MAX_HANDLES`. -/
def checkLinks (st : State cfg) (idx : Nat) : Except Err Unit :=
  match st.contexts[idx]? with
  | none => vErr .badContextState
  | some c => do
    checkParent st idx c
    (flagsIter c.children 64).forM (checkChild st idx)

/-- The `match` on the context state in `validate_dpe_state`,
dpe/src/validation.rs:121-140. -/
def validateByState (st : State cfg) (i : Nat) (c : Context cfg) : Except Err Unit :=
  match c.state with
  | .inactive => validateInactive c
  | .active =>
    if c.ctype == .normal && !st.hasInitialized then vErr .dpeNotMarkedInitialized
    else checkLinks st i
  | .retired => do
    checkLinks st i
    if (childList cfg c.children).length == 0 then vErr .danglingRetiredContext else .ok ()

/-- One round of the loop of `validate_dpe_state`, dpe/src/validation.rs:118-150.  The test
at 142-146 (`BadContextType`) cannot fail for a two-valued enumeration and is left out. -/
def validateSlot (st : State cfg) (i : Nat) (c : Context cfg) : Except Err Unit := do
  checkSupport st c
  validateByState st i c
  if c.locality != c.tci.locality then vErr .localityMismatch else .ok ()

/-- The inner loop of `check_context_handles_per_locality`, dpe/src/validation.rs:246-261:
the contexts left to look at and the two counters. -/
def countHandles (loc : U32) : List (Context cfg) → Nat → Nat → Except Err Unit
  | [], _, _ => .ok ()
  | c :: l, d, n =>
    let here := c.locality == loc && c.state == .active
    let d' := if here && c.handle.isDefault then d + 1 else d
    let n' := if here && !c.handle.isDefault then n + 1 else n
    if d' > 1 then vErr .multipleDefaultContexts
    else if d' > 0 && n' > 0 then vErr .mixedContextLocality
    else countHandles loc l d' n'

/-- `check_context_handles_per_locality`, dpe/src/validation.rs:242-264. -/
def checkLocalities (st : State cfg) : Except Err Unit :=
  st.contexts.forM fun c => countHandles c.locality st.contexts 0 0

/-- `validate_dpe_state`, dpe/src/validation.rs:110-155. -/
def validateState (st : State cfg) : Except Err Unit :=
  if st.marker ≠ State.magic then vErr .invalidMarker
  else if st.version ≠ State.currentVersion then vErr .versionMismatch
  else do
    st.contexts.zipIdx.forM fun p => validateSlot st p.2 p.1
    checkLocalities st

/-- The in-degree counts, dpe/src/validation.rs:272-279. -/
def inDegrees (st : State cfg) : Except Err (List Nat) :=
  st.contexts.foldlM (init := List.replicate cfg.maxHandles 0) fun deg c =>
    (childList cfg c.children).foldlM (init := deg) fun deg child =>
      match deg[child]? with
      | none => vErr .childDoesNotExist
      | some n => .ok (deg.set child (n + 1))

/-- `detect_invalid_subtree`, dpe/src/validation.rs:314-346, returning the updated `seen`
array.  The Rust recursion has no explicit bound; running out of `fuel` stands for stack
overflow. -/
def detectSubtree (st : State cfg) (ty : CtxType) : Nat → Nat → List Bool →
    Except Err (List Bool)
  | 0, _, _ => .error .panic
  | fuel + 1, i, seen =>
    match st.contexts[i]? with
    | none => vErr .badContextState
    | some c =>
      match seen[i]? with
      | none => vErr .badContextState
      | some b =>
        if decide (i ≥ cfg.maxHandles) || c.state == .inactive || b then vErr .cyclesInTree
        else if c.ctype ≠ ty then vErr .mixedContextTypeConnectedComponents
        else (childList cfg c.children).foldlM (init := seen.set i true) fun seen child =>
          detectSubtree st ty fuel child seen

/-- The depth-first searches from all live contexts of in-degree zero,
dpe/src/validation.rs:288-298; the result is `normal_tree_count` and `seen`. -/
def searchRoots (fuel : Nat) (st : State cfg) (deg : List Nat) : Except Err (Nat × List Bool) :=
  ((st.contexts.zip deg).zipIdx).foldlM (init := (0, List.replicate cfg.maxHandles false))
    fun acc p =>
      if p.1.2 == 0 && p.1.1.state != .inactive then do
        let seen ← detectSubtree st p.1.1.ctype fuel p.2 acc.2
        .ok (if p.1.1.ctype == .normal then acc.1 + 1 else acc.1, seen)
      else .ok acc

/-- `validate_context_forest`, dpe/src/validation.rs:268-312. -/
def validateForest (fuel : Nat) (st : State cfg) : Except Err Unit := do
  let deg ← inDegrees st
  deg.forM fun n => if n > 1 then vErr .childWithMultipleParents else .ok ()
  let r ← searchRoots fuel st deg
  if r.1 > 1 then vErr .multipleNormalConnectedComponents
  else (st.contexts.zip r.2).forM fun p =>
    if p.1.state != .inactive && !p.2 then vErr .cyclesInTree else .ok ()

/-- `DpeValidator::validate_dpe`, dpe/src/validation.rs:100-106.  `fuel` is the recursion
depth available to `detect_invalid_subtree`. -/
def validateDpe (fuel : Nat) (st : State cfg) : Except Err Unit := do
  validateState st
  validateForest fuel st

end Dpe
