import Verif.Model.Commands
/-
The commands as built with the feature `cfi` (control flow integrity): assertions repeat the decisions
that the code has just taken, in case a hardware glitch made one of them go the wrong way.  Every
function takes the glitches, `g`: the decisions that go the wrong way.

Which decisions are modelled: the refusals and the branches of the commands' own code (dpe/src/commands,
and of dpe/src/dpe_instance.rs the functions `new`, `new_auto_init`, `roll_onetime_use_handle`,
`add_tci_measurement`).  Not modelled: glitches in lookups, loops' bounds, the hash of the
measurements, the certificate writer, the crypto and the platform; `cfi_launder`, which returns its
argument; the counters of `cfi_impl_fn`; the assertions on `pub_key` (dpe/src/x509.rs:2695-2705) and
`key_pair` (dpe/src/commands/sign.rs:276-285), each of which compares the outcome of a call with itself.
A failing assertion ends in a panic.
-/
namespace Dpe
variable {cfg : Cfg} {σ : Type}

/-- A decision. -/
inductive Site
  | autoInit | newAutoInit
  | roll (n : Nat) | tciState | tciLocality
  | initArgs | initFlags | initPick
  | rotateSupport | rotateTarget | rotateClash | rotatePick
  | destroyLocality | destroyRetired (fuel : Nat) | destroyClear (i : Nat)
  | deriveSupport | deriveArgs | deriveTarget | deriveRecursive | deriveType | deriveUnique
  | deriveRetain | deriveDefault | deriveExport | deriveDestroy | deriveClash | derivePick
  | certIsX509 | certX509 | certAllow | certCsr | certLocality | certFormat0 | certFormat1
  | signSimulation | updateDefault | chainSize
  deriving DecidableEq, Repr

/-- The outcome of the decision at a site. -/
def dec (g : Site → Bool) (k : Site) (b : Bool) : Bool := if g k then !b else b

/-- `if b { return Err(e) }`. -/
def M.refuse (g : Site → Bool) (k : Site) (b : Bool) (e : Err) : M cfg σ Unit := M.failIf (dec g k b) e

/-- `cfi_assert!`, `cfi_assert_eq`, `cfi_assert_ne`. -/
def M.assert (b : Bool) : M cfg σ Unit := M.failIf (!b) .panic

/-- `cfi_assert!` in a function that does not use the environment. -/
def assertE (b : Bool) : Except Err Unit := if b then .ok () else .error .panic

/-- `roll_onetime_use_handle`, dpe/src/dpe_instance.rs:231-243 (`n`: the how-manieth call of a command). -/
def rollHandleCfi (g : Site → Bool) (n : Nat) (ops : Ops σ) (c : Context cfg) : M cfg σ (Context cfg) :=
  if dec g (.roll n) (!c.handle.isDefault) then do
    let h ← generateNewHandle ops
    pure { c with handle := h }
  else do
    M.assert c.handle.isDefault
    pure c

/-- `add_tci_measurement`, dpe/src/dpe_instance.rs:255-286. -/
def addTciCfi (g : Site → Bool) (ops : Ops σ) (c : Context cfg) (m : BArr cfg.tciSize) (loc : U32) :
    M cfg σ (Context cfg) := do
  M.refuse g .tciState (c.state != .active) .invalidHandle
  M.refuse g .tciLocality (c.locality != loc) .invalidLocality
  M.assert (c.state == .active)
  M.assert (c.locality == loc)
  let d ← hashAll ops [c.tci.cumulative.toList, m.toList]
  let v ← M.lift (digestToTci d)
  pure { c with tci := { c.tci with cumulative := v, current := m } }

/-- Handle selection of InitializeContext, dpe/src/commands/initialize_context.rs:91-97.  The type of the
context is chosen in the same branch. -/
def initHandleCfi (g : Site → Bool) (ops : Ops σ) (flags : U32) : M cfg σ (Bool × Handle) :=
  if dec g .initPick (initDefaultFlag flags) then do
    M.modify (fun st => { st with hasInitialized := true })
    pure (true, Handle.default)
  else do
    let h ← generateNewHandle ops
    pure (false, h)

/-- `InitCtxCmd::execute_serialized`, dpe/src/commands/initialize_context.rs:58-130.  The permission for
recursion is computed from the flags. -/
def initCtxCfi (g : Site → Bool) (ops : Ops σ) (flags loc : U32) : M cfg σ Nat := do
  let st ← M.get
  M.refuse g .initArgs ((initDefaultFlag flags && st.hasInitialized) ||
    (initSimFlag flags && !simBit st.support)) .argumentNotSupported
  M.refuse g .initFlags (!(initDefaultFlag flags ^^ initSimFlag flags)) .invalidArgument
  M.assert (!initDefaultFlag flags || !st.hasInitialized)
  M.assert (!initSimFlag flags || simBit st.support)
  M.assert (initDefaultFlag flags ^^ initSimFlag flags)
  let idx ← M.okOr st.nextInactive .maxTcis
  let (d, h) ← initHandleCfi g ops flags
  M.modify (fun st => st.setCtx idx (Context.new.activate
    { initArgs flags loc h with ctype := if d then .normal else .simulation }))
  writeAt 0 (newHandleBytes cfg.profile h)
  pure (newHandleBytes cfg.profile h).length

/-- The check for a default target, dpe/src/commands/rotate_context.rs:100-118. -/
def rotateGuardCfi (g : Site → Bool) (target clash : Bool) : M cfg σ Unit :=
  if dec g .rotateTarget target then do
    M.refuse g .rotateClash clash .invalidArgument
    M.assert (!clash)
  else M.assert (!target)

/-- `RotateCtxCmd::execute_serialized`, dpe/src/commands/rotate_context.rs:85-138. -/
def rotateCtxCfi (g : Site → Bool) (ops : Ops σ) (c : RotateCmd) (loc : U32) : M cfg σ Nat := do
  let st ← M.get
  M.refuse g .rotateSupport (!rotateBit st.support) .invalidCommand
  M.assert (rotateBit st.support)
  let idx ← M.lift (st.findActive c.handle loc)
  rotateGuardCfi g c.targetDefault
    ((okOpt (st.findActive Handle.default loc)).isSome || nonDefaultExists st loc idx)
  let h ← pickHandle ops (dec g .rotatePick c.targetDefault)
  let old ← M.okOr st.contexts[idx]? (.internal .contextIndexOob)
  M.modify (fun st => st.setCtx idx { old with handle := h })
  writeAt 0 (newHandleBytes cfg.profile h)
  pure (newHandleBytes cfg.profile h).length

/-- The loop over retired ancestors, dpe/src/commands/destroy_context.rs:46-71. -/
def retiredChainCfi (g : Site → Bool) (st : State cfg) : Nat → Nat → Children → Except Err Children
  | 0, _, _ => .error .panic
  | fuel + 1, p, acc =>
    if p == ROOT then .ok acc
    else
      match st.contexts[p]? with
      | none => .error (.internal .destroyParentIndexOob)
      | some pc =>
        let lone := pc.state == .retired && (childList cfg pc.children).length == 1
        if dec g (.destroyRetired fuel) lone then
          match addChildBit cfg acc p with
          | .error e => .error e
          | .ok acc' => retiredChainCfi g st fuel pc.parentIdx acc'
        else do
          assertE (pc.state != .retired || (childList cfg pc.children).length != 1)
          pure acc

/-- The set of slots to destroy, dpe/src/commands/destroy_context.rs:35-77. -/
def destroySetCfi (g : Site → Bool) (st : State cfg) (h : Handle) (loc : U32) : Except Err Children := do
  let idx ← st.findActive h loc
  match st.contexts[idx]? with
  | none => .error (.internal .contextIndexOob)
  | some c =>
    if dec g .destroyLocality (c.locality != loc) then .error .invalidLocality
    else do
      assertE (c.locality == loc)
      let r ← retiredChainCfi g st (cfg.maxHandles + 1) c.parentIdx 0
      let d ← st.getDescendants (cfg.maxHandles + 1) c
      let d ← addChildBit cfg d idx
      pure (addChildren d r)

/-- The clearing loop, dpe/src/commands/destroy_context.rs:79-88: the table, if no assertion fails.  (If
one fails, the device has panicked within the loop; the model then leaves the state alone.) -/
def clearCfi (g : Site → Bool) (st : State cfg) (s : Children) : Except Err (State cfg) := do
  assertE ((List.range cfg.maxHandles).all fun i => dec g (.destroyClear i) (hasChild cfg s i) || !hasChild cfg s i)
  pure { st with
    contexts := st.contexts.mapIdx fun i c =>
      let c' := { c with children := removeChildren c.children s }
      if dec g (.destroyClear i) (hasChild cfg s i) then c'.destroy else c'
    len_eq := by simp [st.len_eq] }

/-- `destroy_context`, dpe/src/commands/destroy_context.rs:30-88. -/
def destroyContextCfi (g : Site → Bool) (st : State cfg) (h : Handle) (loc : U32) : Except Err (State cfg) := do
  let s ← destroySetCfi g st h loc
  clearCfi g st s

/-- `DestroyCtxCmd::execute_serialized`, dpe/src/commands/destroy_context.rs:92-106. -/
def destroyCtxCfi (g : Site → Bool) (h : Handle) (loc : U32) : M cfg σ Nat := do
  let st ← M.get
  let st' ← M.lift (destroyContextCfi g st h loc)
  M.modify (fun _ => st')
  writeAt 0 (hdrBytes cfg.profile .noError)
  pure (hdrBytes cfg.profile .noError).length

/-- The recursive branch, dpe/src/commands/derive_context.rs:301-337. -/
def deriveRecursiveCfi (g : Site → Bool) (ops : Ops σ) (c : DeriveCmd cfg) (idx : Nat) (p : Context cfg)
    (tl : U32) : M cfg σ Nat := do
  M.refuse g .deriveType (p.tci.tciType != c.tciType) .invalidArgument
  M.assert (p.tci.tciType == c.tciType)
  let p1 ← addTciCfi g ops p c.data tl
  let p2 ← rollHandleCfi g 0 ops p1
  M.modify (fun st => st.setCtx idx p2)
  writeAt 0 (deriveBytes cfg.profile p2.handle Handle.default)
  pure (deriveBytes cfg.profile p2.handle Handle.default).length

/-- The updated parent, dpe/src/commands/derive_context.rs:352-370. -/
def deriveParentCfi (g : Site → Bool) (ops : Ops σ) (c : DeriveCmd cfg) (p : Context cfg) :
    M cfg σ (Context cfg) :=
  if dec g .deriveRetain c.retain then
    if dec g .deriveDefault (!p.handle.isDefault) then do
      let h ← generateNewHandle ops
      pure { p with handle := h }
    else do
      M.assert c.retain
      M.assert p.handle.isDefault
      pure p
  else do
    M.assert (!c.retain)
    pure { p with state := .retired, handle := Handle.invalid }

/-- The exported-CDI branch, dpe/src/commands/derive_context.rs:372-437. -/
def deriveExportCfi (g : Site → Bool) (env : Env cfg σ) (c : DeriveCmd cfg) (loc : U32) (idx : Nat)
    (p' : Context cfg) : M cfg σ Nat := do
  let u ← M.platform env.ueid
  let ueid ← M.lift (ueidGet u)
  let st ← M.get
  let r ← runCert env .exportedX509 (exportArgs st c loc ueid) exportHdrSize
  let st ← M.get
  let old ← M.okOr st.contexts[idx]? (.internal .contextIndexOob)
  let st' ← M.lift (if dec g .deriveDestroy (!c.retain && !old.hasChildren) then
      destroyContextCfi g st c.handle loc
    else .ok (st.setCtx idx p'))
  M.modify (fun _ => st')
  let now ← M.okOr st'.contexts[idx]? .panic
  writeAt 0 (exportHdrBytes cfg.profile Handle.invalid now.handle r.exportedCdi r.certSize)
  pure (exportHdrSize + r.certSize.toNat)

/-- Handle selection for the child, dpe/src/commands/derive_context.rs:449-457. -/
def pickHandleCfi (g : Site → Bool) (ops : Ops σ) (dflt : Bool) : M cfg σ Handle :=
  if dec g .derivePick dflt then do
    M.assert dflt
    pure Handle.default
  else do
    M.assert (!dflt)
    generateNewHandle ops

/-- The child branch, dpe/src/commands/derive_context.rs:438-509. -/
def deriveChildCfi (g : Site → Bool) (ops : Ops σ) (c : DeriveCmd cfg) (tl : U32) (idx : Nat)
    (p p' : Context cfg) : M cfg σ Nat := do
  let st ← M.get
  let k ← M.okOr st.nextInactive .maxTcis
  M.refuse g .deriveClash (!safeToMakeChild st c idx tl) .invalidArgument
  M.assert (safeToMakeChild st c idx tl)
  let h ← pickHandleCfi g ops c.makeDefault
  let child ← addTciCfi g ops (Context.new.activate (deriveArgs c tl idx p h)) c.data tl
  let kids ← M.lift (p'.addChild k)
  M.modify (fun st => (st.setCtx k child).setCtx idx { p' with children := kids })
  writeAt 0 (deriveBytes cfg.profile h p'.handle)
  pure (deriveBytes cfg.profile h p'.handle).length

/-- The target locality, dpe/src/commands/derive_context.rs:279-287. -/
def deriveTargetCfi (g : Site → Bool) (c : DeriveCmd cfg) (loc : U32) : M cfg σ U32 :=
  if dec g .deriveTarget (!c.changeLoc) then do
    M.assert (!c.changeLoc)
    pure loc
  else do
    M.assert c.changeLoc
    pure c.targetLocality

/-- `DeriveContextCmd::execute_serialized`, dpe/src/commands/derive_context.rs:228-510. -/
def deriveCtxCfi (g : Site → Bool) (env : Env cfg σ) (c : DeriveCmd cfg) (loc : U32) : M cfg σ Nat := do
  let st ← M.get
  M.refuse g .deriveSupport (deriveUnsupported st.support c) .argumentNotSupported
  let idx ← M.lift (st.findActive c.handle loc)
  let p ← M.okOr st.contexts[idx]? (.internal .contextIndexOob)
  M.refuse g .deriveArgs (deriveBadArgs p c) .invalidArgument
  let tl ← deriveTargetCfi g c loc
  M.assert (infoBit st.support || !c.info)
  M.assert (diceBit st.support || !c.dice)
  M.assert (retainBit st.support || !c.retain)
  M.assert (x509Bit st.support || !c.allowX509)
  M.assert (p.allowX509 || !c.allowX509)
  M.assert (!c.recursive || !c.retain)
  if dec g .deriveRecursive c.recursive then deriveRecursiveCfi g env.toOps c idx p tl
  else do
    let u ← M.lift (typeUnique st c.tciType (childList cfg p.children))
    M.refuse g .deriveUnique (!u) .invalidArgument
    let p' ← deriveParentCfi g env.toOps c p
    if dec g .deriveExport (c.createCert && c.exportCdi) then deriveExportCfi g env c loc idx p'
    else deriveChildCfi g env.toOps c tl idx p p'

/-- `UpdateContextMeasurementCmd::execute_serialized`,
dpe/src/commands/update_context_measurement.rs:50-136. -/
def updateCtxCfi (g : Site → Bool) (ops : Ops σ) (c : UpdateCmd cfg) (loc : U32) : M cfg σ Nat := do
  M.refuse g .updateDefault c.parentHandle.isDefault .invalidArgument
  let st ← M.get
  let idx ← M.lift (mapParentErr (st.findActive c.parentHandle loc))
  let p ← M.okOr st.contexts[idx]? (.internal .contextIndexOob)
  let k ← M.okOr (findChildOfType st c.tciType (childList cfg p.children)) .invalidArgument
  let ch ← M.okOr st.contexts[k]? (.internal .childIndexOob)
  let ch1 ← addTciCfi g ops ch c.data ch.locality
  let p1 ← rollHandleCfi g 0 ops p
  M.modify (fun st => st.setCtx idx p1)
  let ch2 ← rollHandleCfi g 1 ops ch1
  M.modify (fun st => st.setCtx k ch2)
  writeAt 0 (updateBytes cfg.profile ch2.handle p1.handle)
  pure (updateBytes cfg.profile ch2.handle p1.handle).length

/-- The format switch of `run_cert_format`, dpe/src/commands/certify_key.rs:211-243. -/
def certKindCfi (g : Site → Bool) (format : U32) : Except Err CertKind :=
  if dec g .certFormat0 (decide (format = 0)) then do
    assertE (decide (format = 0))
    pure .leafX509
  else if dec g .certFormat1 (decide (format = 1)) then do
    assertE (decide (format = 1))
    pure .leafCsr
  else .error .invalidArgument

/-- The checks of the format, dpe/src/commands/certify_key.rs:155-164. -/
def certifyGuardCfi (g : Site → Bool) (format : U32) (x509 allow csr : Bool) : M cfg σ Unit :=
  if dec g .certIsX509 (format == 0) then do
    M.refuse g .certX509 (!x509) .argumentNotSupported
    M.refuse g .certAllow (!allow) .invalidArgument
  else M.refuse g .certCsr (format == 1 && !csr) .argumentNotSupported

/-- `CertifyKeyCommand::execute_serialized`, dpe/src/commands/certify_key.rs:132-207. -/
def certifyKeyCfi (g : Site → Bool) (env : Env cfg σ) (c : CertifyCmd) (loc : U32) : M cfg σ Nat := do
  let st ← M.get
  let idx ← M.lift (st.findActive c.handle loc)
  let ctx ← M.okOr st.contexts[idx]? (.internal .contextIndexOob)
  certifyGuardCfi g c.format (x509Bit st.support) ctx.allowX509 (csrBit st.support)
  M.refuse g .certLocality (ctx.locality != loc) .invalidLocality
  M.assert (c.format != 0 || x509Bit st.support)
  M.assert (c.format != 0 || ctx.allowX509)
  M.assert (c.format != 1 || csrBit st.support)
  M.assert (ctx.locality == loc)
  let kind ← M.lift (certKindCfi g c.format)
  let r ← runCert env kind (certifyArgs st c loc) (certifyHdrSize c.variant)
  let ctx' ← rollHandleCfi g 0 env.toOps ctx
  M.modify (fun st => st.setCtx idx ctx')
  let hdr ← M.okOr (certifyHdrBytes c.variant cfg.profile ctx'.handle r.certSize r.pubKey)
    .invalidArgument
  writeAt 0 hdr
  pure (certifyHdrSize c.variant + r.certSize.toNat)

/-- `SignCommand::execute_serialized`, dpe/src/commands/sign.rs:138-252. -/
def signCmdCfi (g : Site → Bool) (ops : Ops σ) (c : SignCmd) (loc : U32) : M cfg σ Nat := do
  let data ← M.lift c.data
  let st ← M.get
  let idx ← M.lift (st.findActive c.handle loc)
  let ctx ← M.okOr st.contexts[idx]? (.internal .contextIndexOob)
  M.refuse g .signSimulation (ctx.ctype == .simulation) .invalidArgument
  M.assert (ctx.ctype != .simulation)
  let sig ← signWith ops idx c.label data
  let ctx' ← rollHandleCfi g 0 ops ctx
  M.modify (fun st => st.setCtx idx ctx')
  writeAt 0 (signBytes cfg.profile ctx'.handle sig)
  pure (signBytes cfg.profile ctx'.handle sig).length

/-- `GetCertificateChainCmd::execute_serialized`, dpe/src/commands/get_certificate_chain.rs:32-56. -/
def getCertChainCfi (g : Site → Bool) (ops : Ops σ) (c : ChainCmd) : M cfg σ Nat := do
  M.refuse g .chainSize (decide (2048 < c.size.toNat)) .invalidArgument
  let (len, chunk) ← M.platform (ops.certChain c.offset c.size)
  writeAt 0 (certChainBytes cfg.profile len chunk)
  pure (certChainBytes cfg.profile len chunk).length

/-- `Command::execute_serialized`, dpe/src/commands/mod.rs:309-325. -/
def execCfi (g : Site → Bool) (env : Env cfg σ) (c : Cmd cfg) (loc : U32) : M cfg σ Nat :=
  match c with
  | .getProfile => getProfileCmd env.toOps
  | .init f => initCtxCfi g env.toOps f loc
  | .derive c => deriveCtxCfi g env c loc
  | .certify c => certifyKeyCfi g env c loc
  | .sign c => signCmdCfi g env.toOps c loc
  | .rotate c => rotateCtxCfi g env.toOps c loc
  | .destroy h => destroyCtxCfi g h loc
  | .chain c => getCertChainCfi g env.toOps c
  | .update c => updateCtxCfi g env.toOps c loc

/-- `DpeInstance::new`, dpe/src/dpe_instance.rs:78-96. -/
def dpeNewCfi (g : Site → Bool) (ops : Ops σ) : M cfg σ Unit := do
  let st ← M.get
  if dec g .autoInit (autoInitBit st.support) then do
    let loc ← M.platform ops.autoInitLocality
    let _ ← withBuf 28 (initCtxCfi g ops 0x40000000 loc)
    pure ()
  else M.assert (!autoInitBit st.support)

/-- `DpeInstance::new_auto_init`, dpe/src/dpe_instance.rs:109-135. -/
def dpeNewAutoInitCfi (g : Site → Bool) (ops : Ops σ) (ty : U32) (m : BArr cfg.tciSize) : M cfg σ Unit := do
  let st ← M.get
  M.refuse g .newAutoInit (!autoInitBit st.support) .argumentNotSupported
  M.assert (autoInitBit st.support)
  dpeNewCfi g ops
  let loc ← M.platform ops.autoInitLocality
  let st ← M.get
  let idx ← M.lift (st.findActive Handle.default loc)
  let c ← M.okOr st.contexts[idx]? (.internal .initContextIndexOob)
  let c1 ← addTciCfi g ops c m loc
  M.modify (fun st => st.setCtx idx { c1 with tci := { c1.tci with tciType := ty } })

end Dpe
