import Verif.Model.Instance
/-
The DPE commands, function by function.  Each returns the number of response bytes.
-/
namespace Dpe
variable {cfg : Cfg} {σ : Type}

/-! ### InitializeContext -/

/-- `flag_is_simulation`, dpe/src/commands/initialize_context.rs:32, 42-44. -/
def initSimFlag (f : U32) : Bool := f.getLsbD 31
/-- `flag_is_default`, dpe/src/commands/initialize_context.rs:33, 46-48. -/
def initDefaultFlag (f : U32) : Bool := f.getLsbD 30

/-- Arguments passed to `activate` by InitializeContext,
dpe/src/commands/initialize_context.rs:103-121. -/
def initArgs (flags loc : U32) (h : Handle) : ActivateArgs :=
  { ctype := if initDefaultFlag flags then .normal else .simulation, locality := loc, handle := h,
    tciType := 0, parentIdx := ROOT, allowX509 := true, usesInfo := false, usesDice := false,
    allowExport := true, svn := 0, allowRecursive := initDefaultFlag flags }

/-- Handle selection of InitializeContext with the `has_initialized` side effect,
dpe/src/commands/initialize_context.rs:91-97. -/
def initHandle (ops : Ops σ) (flags : U32) : M cfg σ Handle :=
  if initDefaultFlag flags then do
    M.modify (fun st => { st with hasInitialized := true })
    pure Handle.default
  else generateNewHandle ops

/-- `InitCtxCmd::execute_serialized`, dpe/src/commands/initialize_context.rs:58-130. -/
def initCtx (ops : Ops σ) (flags loc : U32) : M cfg σ Nat := do
  let st ← M.get
  M.failIf ((initDefaultFlag flags && st.hasInitialized) ||
    (initSimFlag flags && !simBit st.support)) .argumentNotSupported
  M.failIf (!(initDefaultFlag flags ^^ initSimFlag flags)) .invalidArgument
  let idx ← M.okOr st.nextInactive .maxTcis
  let h ← initHandle ops flags
  M.modify (fun st => st.setCtx idx (Context.new.activate (initArgs flags loc h)))
  writeAt 0 (newHandleBytes cfg.profile h)
  pure (newHandleBytes cfg.profile h).length

/-! ### RotateContextHandle -/

/-- `RotateCtxCmd`, dpe/src/commands/rotate_context.rs:28-52. -/
structure RotateCmd where
  handle : Handle
  flags : U32

/-- `uses_target_is_default`, dpe/src/commands/rotate_context.rs:28-52 (bit 31). -/
def RotateCmd.targetDefault (c : RotateCmd) : Bool := c.flags.getLsbD 31

/-- `non_default_valid_handles_exist`, dpe/src/commands/rotate_context.rs:67-81. -/
def nonDefaultExists (st : State cfg) (loc : U32) (target : Nat) : Bool :=
  st.contexts.zipIdx.any fun (c, i) =>
    c.state == .active && c.locality == loc && !c.handle.isDefault && i != target

/-- `Result::is_ok` / `.ok()`. -/
def okOpt {α : Type} : Except Err α → Option α
  | .ok a => some a
  | .error _ => none

/-- Choice between the default handle and a generated one,
dpe/src/commands/rotate_context.rs:115-119 and dpe/src/commands/derive_context.rs:456-464. -/
def pickHandle (ops : Ops σ) (dflt : Bool) : M cfg σ Handle :=
  if dflt then pure Handle.default else generateNewHandle ops

/-- `RotateCtxCmd::execute_serialized`, dpe/src/commands/rotate_context.rs:85-138. -/
def rotateCtx (ops : Ops σ) (c : RotateCmd) (loc : U32) : M cfg σ Nat := do
  let st ← M.get
  M.failIf (!rotateBit st.support) .invalidCommand
  let idx ← M.lift (st.findActive c.handle loc)
  M.failIf (c.targetDefault &&
    ((okOpt (st.findActive Handle.default loc)).isSome || nonDefaultExists st loc idx))
    .invalidArgument
  let h ← pickHandle ops c.targetDefault
  let old ← M.okOr st.contexts[idx]? (.internal .contextIndexOob)
  M.modify (fun st => st.setCtx idx { old with handle := h })
  writeAt 0 (newHandleBytes cfg.profile h)
  pure (newHandleBytes cfg.profile h).length

/-! ### DestroyContext -/

/-- The loop over retired ancestors, dpe/src/commands/destroy_context.rs:46-71.  The Rust
loop has no bound; `fuel` exhaustion stands for non-termination on cyclic link data. -/
def retiredChain (st : State cfg) : Nat → Nat → Children → Except Err Children
  | 0, _, _ => .error .panic
  | fuel + 1, p, acc =>
    if p == ROOT then .ok acc
    else
      match st.contexts[p]? with
      | none => .error (.internal .destroyParentIndexOob)
      | some pc =>
        if pc.state == .retired && (childList cfg pc.children).length == 1 then
          match addChildBit cfg acc p with
          | .error e => .error e
          | .ok acc' => retiredChain st fuel pc.parentIdx acc'
        else .ok acc

/-- The set of slots to destroy, dpe/src/commands/destroy_context.rs:35-77. -/
def destroySet (st : State cfg) (h : Handle) (loc : U32) : Except Err Children := do
  let idx ← st.findActive h loc
  match st.contexts[idx]? with
  | none => .error (.internal .contextIndexOob)
  | some c =>
    if c.locality != loc then .error .invalidLocality
    else do
      let r ← retiredChain st (cfg.maxHandles + 1) c.parentIdx 0
      let d ← st.getDescendants (cfg.maxHandles + 1) c
      let d ← addChildBit cfg d idx
      pure (addChildren d r)

/-- The clearing loop, dpe/src/commands/destroy_context.rs:79-88. -/
def State.clear (st : State cfg) (s : Children) : State cfg :=
  { st with
    contexts := st.contexts.mapIdx fun i c =>
      let c' := { c with children := removeChildren c.children s }
      if hasChild cfg s i then c'.destroy else c'
    len_eq := by simp [st.len_eq] }

/-- `destroy_context`, dpe/src/commands/destroy_context.rs:30-88. -/
def destroyContext (st : State cfg) (h : Handle) (loc : U32) : Except Err (State cfg) := do
  let s ← destroySet st h loc
  pure (st.clear s)

/-- `DestroyCtxCmd::execute_serialized`, dpe/src/commands/destroy_context.rs:92-106. -/
def destroyCtx (h : Handle) (loc : U32) : M cfg σ Nat := do
  let st ← M.get
  let st' ← M.lift (destroyContext st h loc)
  M.modify (fun _ => st')
  writeAt 0 (hdrBytes cfg.profile .noError)
  pure (hdrBytes cfg.profile .noError).length

/-! ### DeriveContext -/

/-- `DeriveContextCmd`, dpe/src/commands/derive_context.rs:93-102. -/
structure DeriveCmd (cfg : Cfg) where
  handle : Handle
  data : BArr cfg.tciSize
  flags : U32
  tciType : U32
  targetLocality : U32
  svn : U32

/-- Flag bits of `DeriveContextFlags`, dpe/src/commands/derive_context.rs:26-91. -/
def DeriveCmd.info (c : DeriveCmd cfg) : Bool := c.flags.getLsbD 31
@[inherit_doc DeriveCmd.info] def DeriveCmd.dice (c : DeriveCmd cfg) : Bool := c.flags.getLsbD 30
@[inherit_doc DeriveCmd.info] def DeriveCmd.retain (c : DeriveCmd cfg) : Bool := c.flags.getLsbD 29
@[inherit_doc DeriveCmd.info] def DeriveCmd.makeDefault (c : DeriveCmd cfg) : Bool :=
  c.flags.getLsbD 28
@[inherit_doc DeriveCmd.info] def DeriveCmd.changeLoc (c : DeriveCmd cfg) : Bool :=
  c.flags.getLsbD 27
@[inherit_doc DeriveCmd.info] def DeriveCmd.allowExport (c : DeriveCmd cfg) : Bool :=
  c.flags.getLsbD 26
@[inherit_doc DeriveCmd.info] def DeriveCmd.allowX509 (c : DeriveCmd cfg) : Bool :=
  c.flags.getLsbD 25
@[inherit_doc DeriveCmd.info] def DeriveCmd.recursive (c : DeriveCmd cfg) : Bool :=
  c.flags.getLsbD 24
@[inherit_doc DeriveCmd.info] def DeriveCmd.exportCdi (c : DeriveCmd cfg) : Bool :=
  c.flags.getLsbD 23
@[inherit_doc DeriveCmd.info] def DeriveCmd.createCert (c : DeriveCmd cfg) : Bool :=
  c.flags.getLsbD 22
@[inherit_doc DeriveCmd.info] def DeriveCmd.allowRecursive (c : DeriveCmd cfg) : Bool :=
  c.flags.getLsbD 21

/-- `safe_to_make_default`, dpe/src/commands/derive_context.rs:116-136. -/
def safeToMakeDefault (retain : Bool) (parent : Nat) (dflt : Option Nat) (n : Nat) : Bool :=
  match n, dflt with
  | 0, none => true
  | 1, some d => if d == parent then !retain else false
  | _, _ => false

/-- `safe_to_make_non_default`, dpe/src/commands/derive_context.rs:147-161. -/
def safeToMakeNonDefault (retain : Bool) (parent : Nat) (dflt : Option Nat) : Bool :=
  match dflt with
  | none => true
  | some d => if d == parent then !retain else false

/-- `safe_to_make_child`, dpe/src/commands/derive_context.rs:202-222. -/
def safeToMakeChild (st : State cfg) (c : DeriveCmd cfg) (parent : Nat) (loc : U32) : Bool :=
  let dflt := okOpt (st.findActive Handle.default loc)
  let n := st.countContexts (fun x => x.state == .active && x.locality == loc)
  if c.makeDefault then safeToMakeDefault c.retain parent dflt n
  else safeToMakeNonDefault c.retain parent dflt

/-- `tci_type_is_unique_among_children`, dpe/src/commands/derive_context.rs:172-189. -/
def typeUnique (st : State cfg) (ty : U32) : List Nat → Except Err Bool
  | [] => .ok true
  | k :: ks =>
    match st.contexts[k]? with
    | none => .error (.internal .childIndexOob)
    | some c => if c.tci.tciType == ty then .ok false else typeUnique st ty ks

/-- The unsupported-operation test, dpe/src/commands/derive_context.rs:247-253. -/
def deriveUnsupported (s : U32) (c : DeriveCmd cfg) : Bool :=
  (!infoBit s && c.info) || (!diceBit s && c.dice) || (!retainBit s && c.retain) ||
  (!x509Bit s && c.allowX509) || (!exportBit s && (c.createCert || c.exportCdi)) ||
  (!recursiveBit s && c.recursive)

/-- The invalid-argument test, dpe/src/commands/derive_context.rs:261-276. -/
def deriveBadArgs (p : Context cfg) (c : DeriveCmd cfg) : Bool :=
  (!p.allowX509 && c.allowX509) || (c.exportCdi && !c.createCert) ||
  (c.exportCdi && c.recursive) || (c.exportCdi && c.changeLoc) ||
  (c.exportCdi && p.ctype == .simulation) || (c.exportCdi && !p.allowExport) ||
  (c.recursive && c.retain) || (c.allowRecursive && c.recursive) ||
  (!p.allowRecursive && c.recursive)

/-- The recursive branch, dpe/src/commands/derive_context.rs:301-337. -/
def deriveRecursive (ops : Ops σ) (c : DeriveCmd cfg) (idx : Nat) (p : Context cfg) (tl : U32) :
    M cfg σ Nat := do
  M.failIf (p.tci.tciType != c.tciType) .invalidArgument
  let p1 ← addTci ops p c.data tl
  let p2 ← rollHandle ops p1
  M.modify (fun st => st.setCtx idx p2)
  writeAt 0 (deriveBytes cfg.profile p2.handle Handle.default)
  pure (deriveBytes cfg.profile p2.handle Handle.default).length

/-- The updated parent, dpe/src/commands/derive_context.rs:352-370. -/
def deriveParent (ops : Ops σ) (c : DeriveCmd cfg) (p : Context cfg) : M cfg σ (Context cfg) :=
  if c.retain then
    if !p.handle.isDefault then do
      let h ← generateNewHandle ops
      pure { p with handle := h }
    else pure p
  else pure { p with state := .retired, handle := Handle.invalid }

/-- A call of the certificate generator on the window of the response buffer that starts at
`base` (`OffsetResponseBuffer`, response-buffer/src/lib.rs:45-92). -/
def runCert (env : Env cfg σ) (kind : CertKind) (args : CertArgs) (base : Nat) :
    M cfg σ CertResult := fun s =>
  match env.certGen kind args s.st s.w (s.out.drop base) with
  | ((r, w'), win) => (r, { s with w := w', out := s.out.take base ++ win })

/-- `profile_descriptor`, dpe/src/commands/derive_context.rs:381-388
(`b"Exported ECC"`, `b"Exported ML-DSA"`). -/
def Profile.exportLabel : Profile → Bytes
  | .p256 => ascii "Exported ECC"
  | .p384 => ascii "Exported ECC"
  | .mldsa87 => ascii "Exported ML-DSA"

/-- `Ueid::get`, platform/src/lib.rs:31-45. -/
def ueidGet (u : BArr 48 × U32) : Except Err Bytes :=
  if u.2.toNat ≤ 48 then .ok (u.1.toList.take u.2.toNat) else .error (.platform .invalidUeidError)

/-- `DpeFlags::MARK_DICE_EXTENSIONS_CRITICAL`, dpe/src/state.rs:15-20. -/
def critBit (f : BitVec 16) : Bool := f.getLsbD 15

/-- `CreateDpeCertArgs` of the exported-CDI branch, dpe/src/commands/derive_context.rs:381-403. -/
def exportArgs (st : State cfg) (c : DeriveCmd cfg) (loc : U32) (ueid : Bytes) : CertArgs :=
  { handle := c.handle, locality := loc, cdiLabel := ascii "Exported CDI",
    keyLabel := cfg.profile.exportLabel, context := cfg.profile.exportLabel, ueid := ueid,
    critDice := critBit st.flags }

/-- The exported-CDI branch, dpe/src/commands/derive_context.rs:372-437. `p'` is the updated
parent. -/
def deriveExport (env : Env cfg σ) (c : DeriveCmd cfg) (loc : U32) (idx : Nat) (p' : Context cfg) :
    M cfg σ Nat := do
  let u ← M.platform env.ueid
  let ueid ← M.lift (ueidGet u)
  let st ← M.get
  let r ← runCert env .exportedX509 (exportArgs st c loc ueid) exportHdrSize
  let st ← M.get
  let old ← M.okOr st.contexts[idx]? (.internal .contextIndexOob)
  let st' ← M.lift (if !c.retain && !old.hasChildren then destroyContext st c.handle loc
    else .ok (st.setCtx idx p'))
  M.modify (fun _ => st')
  let now ← M.okOr st'.contexts[idx]? .panic
  writeAt 0 (exportHdrBytes cfg.profile Handle.invalid now.handle r.exportedCdi r.certSize)
  pure (exportHdrSize + r.certSize.toNat)

/-- Arguments of the child's `activate`, dpe/src/commands/derive_context.rs:468-490.
`parent_idx as u8` is `% 256`. -/
def deriveArgs (c : DeriveCmd cfg) (tl : U32) (idx : Nat) (p : Context cfg) (h : Handle) :
    ActivateArgs :=
  { ctype := p.ctype, locality := tl, handle := h, tciType := c.tciType, parentIdx := idx % 256,
    allowX509 := c.allowX509, usesInfo := c.info, usesDice := c.dice,
    allowExport := c.allowExport && p.allowExport, svn := c.svn,
    allowRecursive := c.allowRecursive && p.allowRecursive }

/-- The child branch, dpe/src/commands/derive_context.rs:438-509. -/
def deriveChild (ops : Ops σ) (c : DeriveCmd cfg) (tl : U32) (idx : Nat) (p p' : Context cfg) :
    M cfg σ Nat := do
  let st ← M.get
  let k ← M.okOr st.nextInactive .maxTcis
  M.failIf (!safeToMakeChild st c idx tl) .invalidArgument
  let h ← pickHandle ops c.makeDefault
  let child ← addTci ops (Context.new.activate (deriveArgs c tl idx p h)) c.data tl
  let kids ← M.lift (p'.addChild k)
  M.modify (fun st => (st.setCtx k child).setCtx idx { p' with children := kids })
  writeAt 0 (deriveBytes cfg.profile h p'.handle)
  pure (deriveBytes cfg.profile h p'.handle).length

/-- `DeriveContextCmd::execute_serialized`, dpe/src/commands/derive_context.rs:228-510. -/
def deriveCtx (env : Env cfg σ) (c : DeriveCmd cfg) (loc : U32) : M cfg σ Nat := do
  let st ← M.get
  M.failIf (deriveUnsupported st.support c) .argumentNotSupported
  let idx ← M.lift (st.findActive c.handle loc)
  let p ← M.okOr st.contexts[idx]? (.internal .contextIndexOob)
  M.failIf (deriveBadArgs p c) .invalidArgument
  let tl := if c.changeLoc then c.targetLocality else loc
  if c.recursive then deriveRecursive env.toOps c idx p tl
  else do
    let u ← M.lift (typeUnique st c.tciType (childList cfg p.children))
    M.failIf (!u) .invalidArgument
    let p' ← deriveParent env.toOps c p
    if c.createCert && c.exportCdi then deriveExport env c loc idx p'
    else deriveChild env.toOps c tl idx p p'

/-! ### UpdateContextMeasurement -/

/-- `UpdateContextMeasurementCmd`, dpe/src/commands/update_context_measurement.rs:34-48. -/
structure UpdateCmd (cfg : Cfg) where
  parentHandle : Handle
  data : BArr cfg.tciSize
  reserved : U32
  tciType : U32
  reservedSvn : U32

/-- The search for the child, dpe/src/commands/update_context_measurement.rs:86-99. -/
def findChildOfType (st : State cfg) (ty : U32) (l : List Nat) : Option Nat :=
  l.find? fun k =>
    match st.contexts[k]? with
    | some c => c.state == .active && c.tci.tciType == ty
    | none => false

/-- `map_err(|_| InvalidParentLocality)`, dpe/src/commands/update_context_measurement.rs:69-72. -/
def mapParentErr {α : Type} : Except Err α → Except Err α
  | .ok a => .ok a
  | .error _ => .error .invalidParentLocality

/-- `UpdateContextMeasurementCmd::execute_serialized`,
dpe/src/commands/update_context_measurement.rs:50-136. -/
def updateCtx (ops : Ops σ) (c : UpdateCmd cfg) (loc : U32) : M cfg σ Nat := do
  M.failIf c.parentHandle.isDefault .invalidArgument
  let st ← M.get
  let idx ← M.lift (mapParentErr (st.findActive c.parentHandle loc))
  let p ← M.okOr st.contexts[idx]? (.internal .contextIndexOob)
  let k ← M.okOr (findChildOfType st c.tciType (childList cfg p.children)) .invalidArgument
  let ch ← M.okOr st.contexts[k]? (.internal .childIndexOob)
  let ch1 ← addTci ops ch c.data ch.locality
  let p1 ← rollHandle ops p
  M.modify (fun st => st.setCtx idx p1)
  let ch2 ← rollHandle ops ch1
  M.modify (fun st => st.setCtx k ch2)
  writeAt 0 (updateBytes cfg.profile ch2.handle p1.handle)
  pure (updateBytes cfg.profile ch2.handle p1.handle).length

/-! ### CertifyKey -/

/-- `CertifyKeyCommand`, dpe/src/commands/certify_key.rs:32-120 (the three variants differ
in the label size). -/
inductive CertifyCmd
  | p256 (handle : Handle) (flags format : U32) (label : BArr 32)
  | p384 (handle : Handle) (flags format : U32) (label : BArr 48)
  | mldsa87 (handle : Handle) (flags format : U32) (label : BArr 48)

/-- Field access, dpe/src/commands/certify_key.rs:139-146. -/
def CertifyCmd.handle : CertifyCmd → Handle
  | .p256 h _ _ _ => h | .p384 h _ _ _ => h | .mldsa87 h _ _ _ => h
@[inherit_doc CertifyCmd.handle] def CertifyCmd.format : CertifyCmd → U32
  | .p256 _ _ f _ => f | .p384 _ _ f _ => f | .mldsa87 _ _ f _ => f
@[inherit_doc CertifyCmd.handle] def CertifyCmd.label : CertifyCmd → Bytes
  | .p256 _ _ _ l => l.toList | .p384 _ _ _ l => l.toList | .mldsa87 _ _ _ l => l.toList
/-- `CertifyKeyCommand::response_header`, dpe/src/commands/certify_key.rs (which header
type goes with the command). -/
def CertifyCmd.variant : CertifyCmd → Profile
  | .p256 .. => .p256 | .p384 .. => .p384 | .mldsa87 .. => .mldsa87

/-- The format switch of `run_cert_format`, dpe/src/commands/certify_key.rs:211-243
(`FORMAT_X509` = 0, `FORMAT_CSR` = 1). -/
def certKindOf (format : U32) : Except Err CertKind :=
  if format = 0 then .ok .leafX509
  else if format = 1 then .ok .leafCsr
  else .error .invalidArgument

/-- `CreateDpeCertArgs` built by CertifyKey, dpe/src/commands/certify_key.rs:180-192. -/
def certifyArgs (st : State cfg) (c : CertifyCmd) (loc : U32) : CertArgs :=
  { handle := c.handle, locality := loc, cdiLabel := ascii "DPE", keyLabel := c.label,
    context := cfg.profile.keyContext, ueid := c.label, critDice := critBit st.flags }

/-- `CertifyKeyCommand::execute_serialized`, dpe/src/commands/certify_key.rs:132-207. -/
def certifyKey (env : Env cfg σ) (c : CertifyCmd) (loc : U32) : M cfg σ Nat := do
  let st ← M.get
  let idx ← M.lift (st.findActive c.handle loc)
  let ctx ← M.okOr st.contexts[idx]? (.internal .contextIndexOob)
  M.failIf (c.format == 0 && !x509Bit st.support) .argumentNotSupported
  M.failIf (c.format == 0 && !ctx.allowX509) .invalidArgument
  M.failIf (c.format == 1 && !csrBit st.support) .argumentNotSupported
  M.failIf (ctx.locality != loc) .invalidLocality
  let kind ← M.lift (certKindOf c.format)
  let r ← runCert env kind (certifyArgs st c loc) (certifyHdrSize c.variant)
  let ctx' ← rollHandle env.toOps ctx
  M.modify (fun st => st.setCtx idx ctx')
  let hdr ← M.okOr (certifyHdrBytes c.variant cfg.profile ctx'.handle r.certSize r.pubKey)
    .invalidArgument
  writeAt 0 hdr
  pure (certifyHdrSize c.variant + r.certSize.toNat)

/-! ### Sign -/

/-- `SignCommand`, dpe/src/commands/sign.rs:56-67, with the four command structs. -/
inductive SignCmd
  | p256 (handle : Handle) (label : BArr 32) (flags : U32) (digest : BArr 32)
  | p384 (handle : Handle) (label : BArr 48) (flags : U32) (digest : BArr 48)
  | mldsa87 (handle : Handle) (label : BArr 48) (flags : U32) (digest : BArr 64)
  | mldsa87Raw (handle : Handle) (label : BArr 48) (flags : U32) (size : U32) (data : BArr 1024)

/-- Field access, dpe/src/commands/sign.rs:145-174. -/
def SignCmd.handle : SignCmd → Handle
  | .p256 h _ _ _ => h | .p384 h _ _ _ => h | .mldsa87 h _ _ _ => h | .mldsa87Raw h _ _ _ _ => h
@[inherit_doc SignCmd.handle] def SignCmd.label : SignCmd → Bytes
  | .p256 _ l _ _ => l.toList | .p384 _ l _ _ => l.toList | .mldsa87 _ l _ _ => l.toList
  | .mldsa87Raw _ l _ _ _ => l.toList
@[inherit_doc SignCmd.handle] def SignCmd.data : SignCmd → Except Err SignData
  | .p256 _ _ _ d => .ok (.digest d.toList)
  | .p384 _ _ _ d => .ok (.digest d.toList)
  | .mldsa87 _ _ _ d => .ok (.mu d)
  | .mldsa87Raw _ _ _ n d =>
    if n.toNat ≤ 1024 then .ok (.raw (d.toList.take n.toNat)) else .error .invalidArgument

/-- `sign`, dpe/src/commands/sign.rs:264-288. -/
def signWith (ops : Ops σ) (idx : Nat) (label : Bytes) (data : SignData) : M cfg σ Sig := do
  let d ← computeMeasurementHash ops idx
  let cdi ← M.crypto (ops.deriveCdi d (ascii "DPE"))
  let key ← M.crypto (ops.deriveKeyPair cdi label cfg.profile.keyContext)
  M.crypto (ops.sign key data)

/-- `SignCommand::execute_serialized`, dpe/src/commands/sign.rs:138-252.  Simplification:
all signature kinds are compiled in, so the catch-all arm (line 250) is unreachable. -/
def signCmd (ops : Ops σ) (c : SignCmd) (loc : U32) : M cfg σ Nat := do
  let data ← M.lift c.data
  let st ← M.get
  let idx ← M.lift (st.findActive c.handle loc)
  let ctx ← M.okOr st.contexts[idx]? (.internal .contextIndexOob)
  M.failIf (ctx.ctype == .simulation) .invalidArgument
  let sig ← signWith ops idx c.label data
  let ctx' ← rollHandle ops ctx
  M.modify (fun st => st.setCtx idx ctx')
  writeAt 0 (signBytes cfg.profile ctx'.handle sig)
  pure (signBytes cfg.profile ctx'.handle sig).length

/-! ### GetProfile and GetCertificateChain -/

/-- `GetProfileCmd::execute_serialized`, dpe/src/commands/get_profile.rs:30-44. -/
def getProfileCmd (ops : Ops σ) : M cfg σ Nat := do
  let st ← M.get
  let b ← getProfile ops st.support
  writeAt 0 b
  pure b.length

/-- `GetCertificateChainCmd`, dpe/src/commands/get_certificate_chain.rs:24-27. -/
structure ChainCmd where
  offset : U32
  size : U32

/-- `GetCertificateChainCmd::execute_serialized`,
dpe/src/commands/get_certificate_chain.rs:32-56. -/
def getCertChain (ops : Ops σ) (c : ChainCmd) : M cfg σ Nat := do
  M.failIf (decide (2048 < c.size.toNat)) .invalidArgument
  let (len, chunk) ← M.platform (ops.certChain c.offset c.size)
  writeAt 0 (certChainBytes cfg.profile len chunk)
  pure (certChainBytes cfg.profile len chunk).length

/-! ### Dispatch and construction -/

/-- `Command`, dpe/src/commands/mod.rs:60-73. -/
inductive Cmd (cfg : Cfg)
  | getProfile
  | init (flags : U32)
  | derive (c : DeriveCmd cfg)
  | certify (c : CertifyCmd)
  | sign (c : SignCmd)
  | rotate (c : RotateCmd)
  | destroy (h : Handle)
  | chain (c : ChainCmd)
  | update (c : UpdateCmd cfg)

/-- `Command::execute_serialized`, dpe/src/commands/mod.rs:309-325. -/
def exec (env : Env cfg σ) (c : Cmd cfg) (loc : U32) : M cfg σ Nat :=
  match c with
  | .getProfile => getProfileCmd env.toOps
  | .init f => initCtx env.toOps f loc
  | .derive c => deriveCtx env c loc
  | .certify c => certifyKey env c loc
  | .sign c => signCmd env.toOps c loc
  | .rotate c => rotateCtx env.toOps c loc
  | .destroy h => destroyCtx h loc
  | .chain c => getCertChain env.toOps c
  | .update c => updateCtx env.toOps c loc

/-- Run a command with a private buffer of `n` zero bytes, keeping the caller's buffer. -/
def withBuf {α : Type} (n : Nat) (x : M cfg σ α) : M cfg σ α := fun s =>
  match x { s with out := List.replicate n 0 } with
  | (r, s') => (r, { s' with out := s.out })

/-- `DpeInstance::new`, dpe/src/dpe_instance.rs:78-96 (the response is written to a private
28-byte buffer). -/
def dpeNew (ops : Ops σ) : M cfg σ Unit := do
  let st ← M.get
  M.when (autoInitBit st.support) (do
    let loc ← M.platform ops.autoInitLocality
    let _ ← withBuf 28 (initCtx ops 0x40000000 loc)
    pure ()) ()

/-- `DpeInstance::new_auto_init`, dpe/src/dpe_instance.rs:109-135.  The measurement is added
in place, so nothing is committed if it fails. -/
def dpeNewAutoInit (ops : Ops σ) (ty : U32) (m : BArr cfg.tciSize) : M cfg σ Unit := do
  let st ← M.get
  M.failIf (!autoInitBit st.support) .argumentNotSupported
  dpeNew ops
  let loc ← M.platform ops.autoInitLocality
  let st ← M.get
  let idx ← M.lift (st.findActive Handle.default loc)
  let c ← M.okOr st.contexts[idx]? (.internal .initContextIndexOob)
  let c1 ← addTci ops c m loc
  M.modify (fun st => st.setCtx idx { c1 with tci := { c1.tci with tciType := ty } })

/-- States an operator can bring a DPE into: `State::new`, then possibly `new_auto_init` on
that fresh state (whatever its outcome), then any sequence of `DpeInstance::new` calls and of
commands from any locality, each with an arbitrary environment, hidden world and response
buffer, whatever the outcome of each. -/
inductive Reachable : State cfg → Prop
  | new (support : U32) (flags : BitVec 16) : Reachable (State.new cfg support flags)
  | create {σ : Type} (ops : Ops σ) (st : State cfg) (w : σ) (out : Bytes) :
      Reachable st → Reachable (dpeNew ops ⟨st, w, out⟩).2.st
  | autoInit {σ : Type} (ops : Ops σ) (ty : U32) (m : BArr cfg.tciSize) (support : U32)
      (flags : BitVec 16) (w : σ) (out : Bytes) :
      Reachable (dpeNewAutoInit ops ty m ⟨State.new cfg support flags, w, out⟩).2.st
  | step {σ : Type} (env : Env cfg σ) (c : Cmd cfg) (loc : U32) (st : State cfg) (w : σ)
      (out : Bytes) : Reachable st → Reachable (exec env c loc ⟨st, w, out⟩).2.st

end Dpe
