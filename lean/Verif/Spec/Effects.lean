import Verif.Spec.Authorise
/-
What each command does to the context table and which handles it answers with, in terms of
slot contents only.  This is the abstract machine the command model is shown to refine.
-/
namespace Dpe
variable {cfg : Cfg} {σ : Type}

/-- Slot `i` is the first inactive one. -/
def FirstFree (st : State cfg) (i : Nat) : Prop :=
  i < cfg.maxHandles ∧ (st.at i).state = .inactive ∧ ∀ j, j < i → Live st j

/-- Everything but the slots and the initialisation mark is the same. -/
def SameConfig (st st' : State cfg) : Prop :=
  st'.marker = st.marker ∧ st'.version = st.version ∧ st'.support = st.support ∧
  st'.flags = st.flags

/-- Everything but the slots is the same. -/
def SameMeta (st st' : State cfg) : Prop :=
  SameConfig st st' ∧ st'.hasInitialized = st.hasInitialized

/-- The successor of a one-time handle: the default handle stays, any other handle is replaced
by one that no slot carries. -/
def NextHandle (st : State cfg) (old new : Handle) : Prop :=
  (old = Handle.default ∧ new = Handle.default) ∨ (old ≠ Handle.default ∧ Unused st new)

/-- The root context created by InitializeContext with flags `f` in locality `loc`. -/
def rootContext (cfg : Cfg) (f loc : U32) (h : Handle) : Context cfg :=
  { handle := h
    tci := { tciType := 0, cumulative := Vector.replicate _ 0, current := Vector.replicate _ 0,
             locality := loc, svn := 0 }
    children := 0
    locality := loc
    parentIdx := ROOT
    ctype := if Bit f IFlag.default then .normal else .simulation
    state := .active
    usesInfo := false
    usesDice := false
    allowX509 := true
    allowExport := true
    allowRecursive := decide (Bit f IFlag.default) }

/-- InitializeContext: the first free slot becomes a root. -/
def InitEffect (st : State cfg) (f loc : U32) (h : Handle) (st' : State cfg) : Prop :=
  ∃ i, FirstFree st i ∧ st'.at i = rootContext cfg f loc h ∧ (∀ j, j ≠ i → st'.at j = st.at j) ∧
    SameConfig st st' ∧
    (st'.hasInitialized = true ↔ st.hasInitialized = true ∨ Bit f IFlag.default) ∧
    ((Bit f IFlag.default ∧ ¬ Bit f IFlag.simulation ∧ st.hasInitialized = false ∧
        h = Handle.default) ∨
     (Bit f IFlag.simulation ∧ ¬ Bit f IFlag.default ∧ st.supports Feature.simulation ∧
        Unused st h))

/-- Only slot `i` changes, and it becomes `c`. -/
def SetSlot (st : State cfg) (i : Nat) (c : Context cfg) (st' : State cfg) : Prop :=
  st'.at i = c ∧ (∀ j, j ≠ i → st'.at j = st.at j) ∧ SameMeta st st'

/-- RotateContextHandle on slot `i`. -/
def RotateEffect (st : State cfg) (c : RotateCmd) (loc : U32) (h : Handle) (st' : State cfg) :
    Prop :=
  ∃ i, Resolves st c.handle loc i ∧ SetSlot st i { st.at i with handle := h } st' ∧
    ((Bit c.flags RFlag.targetIsDefault ∧ h = Handle.default ∧
        (∀ j, (st.at j).state = .active → (st.at j).locality = loc → j = i) ∧
        (st.at i).handle ≠ Handle.default) ∨
     (¬ Bit c.flags RFlag.targetIsDefault ∧ Unused st h))

/-- Sign and CertifyKey through handle `old`. -/
def UseEffect (st : State cfg) (old : Handle) (loc : U32) (h : Handle) (st' : State cfg) : Prop :=
  ∃ i, Resolves st old loc i ∧ NextHandle st old h ∧
    SetSlot st i { st.at i with handle := h } st'

/-- A destroyed slot: blank, except that the context type and the export permission of the
previous occupant remain as (meaningless) left-overs. -/
def wiped (c : Context cfg) : Context cfg :=
  { handle := Handle.invalid
    tci := { tciType := 0, cumulative := Vector.replicate _ 0, current := Vector.replicate _ 0,
             locality := 0, svn := 0 }
    children := 0
    locality := 0
    parentIdx := ROOT
    ctype := c.ctype
    state := .inactive
    usesInfo := false
    usesDice := false
    allowX509 := false
    allowExport := c.allowExport
    allowRecursive := false }

/-- Destruction of slot `idx`. -/
def DestroyEffect (st : State cfg) (idx : Nat) (st' : State cfg) : Prop :=
  (∀ i, DestroyedWith st idx i → st'.at i = wiped (st.at i)) ∧
  (∀ i, ¬ DestroyedWith st idx i →
    (∃ ch, st'.at i = { st.at i with children := ch }) ∧
    ∀ j, Lists st' i j ↔ (Lists st i j ∧ ¬ DestroyedWith st idx j)) ∧
  SameMeta st st'

/-- The child created by DeriveContext. -/
def childContext (c : DeriveCmd cfg) (loc : U32) (idx : Nat) (p : Context cfg) (h : Handle)
    (v : BArr cfg.tciSize) : Context cfg :=
  { handle := h
    tci := { tciType := c.tciType, cumulative := v, current := c.data,
             locality := if Bit c.flags DFlag.changeLocality then c.targetLocality else loc,
             svn := c.svn }
    children := 0
    locality := if Bit c.flags DFlag.changeLocality then c.targetLocality else loc
    parentIdx := idx
    ctype := p.ctype
    state := .active
    usesInfo := decide (Bit c.flags DFlag.internalInfo)
    usesDice := decide (Bit c.flags DFlag.internalDice)
    allowX509 := decide (Bit c.flags DFlag.allowX509)
    allowExport := decide (Bit c.flags DFlag.allowExport ∧ p.allowExport = true)
    allowRecursive := decide (Bit c.flags DFlag.allowRecursive ∧ p.allowRecursive = true) }

/-- The parent's new handle and lifecycle state after a derivation. -/
def ParentNext (st : State cfg) (c : DeriveCmd cfg) (p : Context cfg) (h : Handle) (s : CtxState) :
    Prop :=
  (Bit c.flags DFlag.retainParent ∧ s = .active ∧ NextHandle st p.handle h) ∨
  (¬ Bit c.flags DFlag.retainParent ∧ s = .retired ∧ h = Handle.invalid)

/-- DeriveContext on slot `idx`; `D x y` says that `y` is the digest of `x`; `h` and `hp` are
the handles in the reply. -/
inductive DeriveEffect (D : Bytes → Bytes → Prop) (st : State cfg) (c : DeriveCmd cfg) (loc : U32)
    (idx : Nat) : Handle → Handle → State cfg → Prop
  /-- RECURSIVE: the context itself is extended. -/
  | recursive {h : Handle} {v : BArr cfg.tciSize} {st' : State cfg} :
      Bit c.flags DFlag.recursive →
      D ((st.at idx).tci.cumulative.toList ++ c.data.toList) v.toList →
      NextHandle st c.handle h →
      SetSlot st idx { st.at idx with
        tci := { (st.at idx).tci with cumulative := v, current := c.data }, handle := h } st' →
      DeriveEffect D st c loc idx h Handle.default st'
  /-- A child is created in the first free slot. -/
  | child {h hp : Handle} {v : BArr cfg.tciSize} {s : CtxState} {k : Nat} {kids : Children}
      {st' : State cfg} :
      ¬ Bit c.flags DFlag.recursive →
      ¬ Bit c.flags DFlag.exportCdi →
      FirstFree st k →
      D (List.replicate cfg.tciSize 0 ++ c.data.toList) v.toList →
      ((Bit c.flags DFlag.makeDefault ∧ h = Handle.default) ∨
        (¬ Bit c.flags DFlag.makeDefault ∧ Unused st h)) →
      ParentNext st c (st.at idx) hp s →
      (∀ j, kids.getLsbD j = true ↔ (Lists st idx j ∨ j = k)) →
      st'.at k = childContext c loc idx (st.at idx) h v →
      st'.at idx = { st.at idx with handle := hp, state := s, children := kids } →
      (∀ j, j ≠ k → j ≠ idx → st'.at j = st.at j) →
      SameMeta st st' →
      DeriveEffect D st c loc idx h hp st'
  /-- EXPORT_CDI, the context stays. -/
  | exported {hp : Handle} {s : CtxState} {st' : State cfg} :
      ¬ Bit c.flags DFlag.recursive → Bit c.flags DFlag.exportCdi → Bit c.flags DFlag.createCert →
      (Bit c.flags DFlag.retainParent ∨ ∃ j, Lists st idx j) →
      ParentNext st c (st.at idx) hp s →
      SetSlot st idx { st.at idx with handle := hp, state := s } st' →
      DeriveEffect D st c loc idx Handle.invalid hp st'
  /-- EXPORT_CDI of a context that is neither retained nor has children: it is destroyed. -/
  | exportedLast {st' : State cfg} :
      ¬ Bit c.flags DFlag.recursive → Bit c.flags DFlag.exportCdi → Bit c.flags DFlag.createCert →
      ¬ Bit c.flags DFlag.retainParent → (∀ j, ¬ Lists st idx j) →
      DestroyEffect st idx st' →
      DeriveEffect D st c loc idx Handle.invalid Handle.invalid st'

/-- Slot `k` holds the direct Active child of type `ty`.  (There is at most one in a state
reached by commands, C14; in a restored state that has several it is the lowest slot.) -/
def ActiveChild (st : State cfg) (idx : Nat) (ty : U32) (k : Nat) : Prop :=
  Lists st idx k ∧ (st.at k).state = .active ∧ (st.at k).tci.tciType = ty ∧
  ∀ j, Lists st idx j → (st.at j).state = .active → (st.at j).tci.tciType = ty → k ≤ j

/-- UpdateContextMeasurement: child `k` of the named context is extended, and both one-time
handles are replaced (first the parent's, then the child's). -/
def UpdateEffect (D : Bytes → Bytes → Prop) (st : State cfg) (c : UpdateCmd cfg) (loc : U32)
    (hc hp : Handle) (st' : State cfg) : Prop :=
  ∃ idx k, ∃ v : BArr cfg.tciSize, Resolves st c.parentHandle loc idx ∧
    c.parentHandle ≠ Handle.default ∧ ActiveChild st idx c.tciType k ∧ k ≠ idx ∧
    D ((st.at k).tci.cumulative.toList ++ c.data.toList) v.toList ∧
    Unused st hp ∧
    (((st.at k).handle = Handle.default ∧ hc = Handle.default) ∨
     ((st.at k).handle ≠ Handle.default ∧ hc ≠ Handle.default ∧ hc ≠ hp ∧
      ∀ j, j < cfg.maxHandles → j ≠ idx → (st.at j).handle ≠ hc)) ∧
    st'.at idx = { st.at idx with handle := hp } ∧
    st'.at k = { st.at k with
      tci := { (st.at k).tci with cumulative := v, current := c.data }, handle := hc } ∧
    (∀ j, j ≠ idx → j ≠ k → st'.at j = st.at j) ∧ SameMeta st st'

/-- What a command commits, with the handles in its reply. -/
def Effect (D : Bytes → Bytes → Prop) (st : State cfg) (loc : U32) :
    Cmd cfg → List Handle → State cfg → Prop
  | .getProfile, hs, st' => hs = [] ∧ st' = st
  | .chain _, hs, st' => hs = [] ∧ st' = st
  | .init f, hs, st' => ∃ h, hs = [h] ∧ InitEffect st f loc h st'
  | .rotate c, hs, st' => ∃ h, hs = [h] ∧ RotateEffect st c loc h st'
  | .sign c, hs, st' => ∃ h, hs = [h] ∧ UseEffect st c.handle loc h st'
  | .certify c, hs, st' => ∃ h, hs = [h] ∧ UseEffect st c.handle loc h st'
  | .destroy h, hs, st' => hs = [] ∧ ∃ idx, Resolves st h loc idx ∧ DestroyEffect st idx st'
  | .derive c, hs, st' => ∃ idx h hp, hs = [h, hp] ∧ Resolves st c.handle loc idx ∧
      DeriveEffect D st c loc idx h hp st'
  | .update c, hs, st' => ∃ hc hp, hs = [hc, hp] ∧ UpdateEffect D st c loc hc hp st'

/-- `out` starts with a success header for profile `p` followed by the handles `hs`. -/
def RepliesWith (p : Profile) (hs : List Handle) (out : Bytes) : Prop :=
  ∃ rest, out = [0x52, 0x45, 0x50, 0x44, 0, 0, 0, 0,
    (match p with | .p256 => 3 | .p384 => 4 | .mldsa87 => 5), 0, 0, 0] ++
    (hs.map Vector.toList).flatten ++ rest

/-- The chunks are fed into the current hash. -/
def Updated (ops : Ops σ) : List Bytes → σ → σ → Prop
  | [], w, w' => w' = w
  | b :: bs, w, w'' => ∃ w', ops.hashUpdate b w = (.ok (), w') ∧ Updated ops bs w' w''

/-- A new hash over the chunks gives `d`. -/
def Hashed (ops : Ops σ) (chunks : List Bytes) (w : σ) (d : Bytes) (w' : σ) : Prop :=
  ∃ w1 w2 w3, ops.hasher w = (.ok (), w1) ∧ ops.hashInit w1 = (.ok (), w2) ∧
    Updated ops chunks w2 w3 ∧ ops.hashFinish w3 = (.ok d, w')

/-- `D` relates every input hashed by the environment to the digests it may return. -/
def Digests (ops : Ops σ) (D : Bytes → Bytes → Prop) : Prop :=
  ∀ (chunks : List Bytes) (w w' : σ) (d : Bytes), Hashed ops chunks w d w' → D chunks.flatten d

/-- The size of the (fixed part of the) reply of a command; for Sign that of the largest
signature. -/
def Cmd.replyMax : Cmd cfg → Nat
  | .getProfile => 32
  | .init _ => 28
  | .derive c => if Bit c.flags DFlag.exportCdi then 80 else 44
  | .certify (.p256 ..) => 96
  | .certify (.p384 ..) => 128
  | .certify (.mldsa87 ..) => 2624
  | .sign _ => 4656
  | .rotate _ => 28
  | .destroy _ => 12
  | .chain _ => 2064
  | .update _ => 44

/-- The commands that produce a certificate. -/
def Cmd.makesCert : Cmd cfg → Prop
  | .certify _ => True
  | .derive c => Bit c.flags DFlag.exportCdi
  | _ => False

/-- The kind of certificate or request that a command produces. -/
def Cmd.issues : Cmd cfg → CertKind → Prop
  | .certify c, kind => (c.format = 0 ∧ kind = .leafX509) ∨ (c.format = 1 ∧ kind = .leafCsr)
  | .derive c, kind => Bit c.flags DFlag.exportCdi ∧ kind = .exportedX509
  | _, _ => False

theorem Cmd.issues_makes {c : Cmd cfg} {kind : CertKind} (h : c.issues kind) : c.makesCert := by
  cases c <;> first | exact h.elim | exact trivial | exact h.1

/-- The reply may not fit: the buffer is smaller than the reply of the command, or the
certificate generator shrank the window it was given. -/
def NoFit (env : Env cfg σ) (s : Sys cfg σ) (c : Cmd cfg) : Prop :=
  s.out.length < c.replyMax ∨ (c.makesCert ∧ ∃ kind args w base,
    (env.certGen kind args s.st w (s.out.drop base)).2.length < (s.out.drop base).length)

/-- The algorithm of a public key. -/
def PubKey.kind : PubKey → Profile
  | .p256 .. => .p256 | .p384 .. => .p384 | .mldsa .. => .mldsa87

/-- The certificate generator returned a key of another algorithm than the command's. -/
def WrongKey (env : Env cfg σ) (s : Sys cfg σ) (k : CertifyCmd) : Prop :=
  ∃ kind args w win res w' win', env.certGen kind args s.st w win = ((.ok res, w'), win') ∧
    res.pubKey.kind ≠ k.variant

/-- UpdateContextMeasurement interrupted between its two handle replacements: only the
parent's handle was replaced. -/
def HalfUpdate (st : State cfg) (c : UpdateCmd cfg) (loc : U32) (st' : State cfg) : Prop :=
  ∃ idx k hp, Resolves st c.parentHandle loc idx ∧ c.parentHandle ≠ Handle.default ∧
    ActiveChild st idx c.tciType k ∧ (st.at k).handle ≠ Handle.default ∧ Unused st hp ∧
    SetSlot st idx { st.at idx with handle := hp } st'

end Dpe
