import Verif.Spec.Rules
import Verif.Spec.Draw
import Verif.Spec.Sign
/-
A complete description of what a command that is not refused does: which calls it makes to the crypto
implementation and the platform and in which order, which context table it leaves, and every byte of
its reply.
-/
namespace Dpe
variable {cfg : Cfg} {σ : Type}

/-- The handle of a context that a command creates or renames: the default handle if asked for, and
otherwise drawn with at most eight draws. -/
def Chosen (ops : Ops σ) (st : State cfg) (asked : Prop) (w : σ) (h : Handle) (w' : σ) : Prop :=
  (asked ∧ h = Handle.default ∧ w' = w) ∨ (¬ asked ∧ GoodDraw ops st 8 w h w')

/-- The measurement `m` takes a register from `old` to `new`. -/
def Extended (ops : Ops σ) (old m new : BArr cfg.tciSize) (w w' : σ) : Prop :=
  Hashed ops [old.toList, m.toList] w new.toList w'

/-- The parent of a derivation: retained, with its next handle, or retired without one. -/
def ParentUsed (ops : Ops σ) (st : State cfg) (c : DeriveCmd cfg) (old : Handle) (w : σ) (h : Handle)
    (s : CtxState) (w' : σ) : Prop :=
  (Bit c.flags DFlag.retainParent ∧ s = .active ∧ Redrawn ops st old w h w') ∨
  (¬ Bit c.flags DFlag.retainParent ∧ s = .retired ∧ h = Handle.invalid ∧ w' = w)

/-- A reply that consists of handles. -/
def handlesReply (p : Profile) (hs : List Handle) : Bytes := successBytes p ++ (hs.map Vector.toList).flatten

/-- The reply of GetProfile: version 0.13, vendor, SKU, number of contexts, features. -/
def profileReply (cfg : Cfg) (support vid sku : U32) : Bytes :=
  successBytes cfg.profile ++ [0, 0, 13, 0] ++ word vid ++ word sku ++
    word (BitVec.ofNat 32 cfg.maxHandles) ++ word support

/-- DeriveContext with RECURSIVE on context `i`: hash, then the new handle. -/
def ServesRecursive (ops : Ops σ) (st : State cfg) (c : DeriveCmd cfg) (i : Nat) (w : σ) (reply : Bytes)
    (st' : State cfg) (w' : σ) : Prop :=
  ∃ v w1 h, Extended ops (st.at i).tci.cumulative c.data v w w1 ∧
    Redrawn ops st (st.at i).handle w1 h w' ∧
    SetSlot st i { st.at i with
      tci := { (st.at i).tci with cumulative := v, current := c.data }, handle := h } st' ∧
    reply = handlesReply cfg.profile [h, Handle.default]

/-- DeriveContext that creates a child: the parent's handle, the child's handle, then the hash. -/
def ServesChild (ops : Ops σ) (st : State cfg) (c : DeriveCmd cfg) (loc : U32) (i : Nat) (w : σ)
    (reply : Bytes) (st' : State cfg) (w' : σ) : Prop :=
  ∃ k hp s w1 h w2 v kids, FirstFree st k ∧ ParentUsed ops st c (st.at i).handle w hp s w1 ∧
    Chosen ops st (Bit c.flags DFlag.makeDefault) w1 h w2 ∧
    Extended ops (Vector.replicate cfg.tciSize 0) c.data v w2 w' ∧
    (∀ j, kids.getLsbD j = true ↔ (Lists st i j ∨ j = k)) ∧
    st'.at k = childContext c loc i (st.at i) h v ∧
    st'.at i = { st.at i with handle := hp, state := s, children := kids } ∧
    (∀ j, j ≠ k → j ≠ i → st'.at j = st.at j) ∧ SameMeta st st' ∧
    reply = handlesReply cfg.profile [h, hp]

/-- DeriveContext that exports a CDI: the parent's handle, the UEID, then the certificate.  A context
that is neither retained nor has children is destroyed. -/
def ServesExport (ops : Ops σ) (st : State cfg) (c : DeriveCmd cfg) (loc : U32) (i : Nat) (w : σ)
    (reply : Bytes) (st' : State cfg) (w' : σ) : Prop :=
  ∃ hp s w0 u k w1 D w2 t cdi, ParentUsed ops st c (st.at i).handle w hp s w0 ∧
    ops.ueid w0 = (.ok (u, k), w1) ∧ k.toNat ≤ 48 ∧ D.slot = i ∧
    Drafted ops .exportedX509 (exportedArgs st c.handle loc (u.toList.take k.toNat)) st w1 D w2 ∧
    Issued ops (exportedArgs st c.handle loc (u.toList.take k.toNat)) st D .exportedX509 w2 t w' ∧
    t.written.length ≤ 65539 ∧ D.exportedCdi = some cdi ∧
    (((Bit c.flags DFlag.retainParent ∨ ∃ j, Lists st i j) ∧
        SetSlot st i { st.at i with handle := hp, state := s } st') ∨
      (¬ Bit c.flags DFlag.retainParent ∧ (∀ j, ¬ Lists st i j) ∧ DestroyEffect st i st')) ∧
    reply = exportReply cfg.profile hp cdi t.written

/-- `Serves ops st loc w c reply st' w'`: command `c` from locality `loc`, not refused in state `st`,
replies `reply` and leaves the state `st'`; its calls take the world of crypto implementation and
platform from `w` to `w'`. -/
def Serves (ops : Ops σ) (st : State cfg) (loc : U32) (w : σ) (c : Cmd cfg) (reply : Bytes)
    (st' : State cfg) (w' : σ) : Prop :=
  match c with
  | .getProfile => ∃ vid sku w1, ops.vendorId w = (.ok vid, w1) ∧ ops.vendorSku w1 = (.ok sku, w') ∧
      st' = st ∧ reply = profileReply cfg st.support vid sku
  | .chain c => ∃ len chunk, ops.certChain c.offset c.size w = (.ok (len, chunk), w') ∧ st' = st ∧
      reply = successBytes cfg.profile ++ word len ++ chunk.toList
  | .init f => ∃ i h, FirstFree st i ∧ Chosen ops st (Bit f IFlag.default) w h w' ∧
      st'.at i = rootContext cfg f loc h ∧ (∀ j, j ≠ i → st'.at j = st.at j) ∧ SameConfig st st' ∧
      (st'.hasInitialized = true ↔ st.hasInitialized = true ∨ Bit f IFlag.default) ∧
      reply = handlesReply cfg.profile [h]
  | .rotate c => ∃ i h, Resolves st c.handle loc i ∧
      Chosen ops st (Bit c.flags RFlag.targetIsDefault) w h w' ∧
      SetSlot st i { st.at i with handle := h } st' ∧ reply = handlesReply cfg.profile [h]
  | .destroy h => ∃ i, Resolves st h loc i ∧ DestroyEffect st i st' ∧ w' = w ∧
      reply = handlesReply cfg.profile []
  | .sign c => ∃ i path key sig w1 w2 h, Resolves st c.handle loc i ∧ Path st i path ∧
      SigningKey ops st path c.label w key w1 ∧ ops.sign key c.message w1 = (.ok sig, w2) ∧
      Redrawn ops st (st.at i).handle w2 h w' ∧ SetSlot st i { st.at i with handle := h } st' ∧
      reply = signReply cfg.profile h sig
  | .certify c => ∃ kind D w1 t w2 h, Format c.format kind ∧
      Drafted ops kind (leafArgs st c.handle loc c.label) st w D w1 ∧
      Issued ops (leafArgs st c.handle loc c.label) st D kind w1 t w2 ∧
      c.wants D.key ∧ t.written.length ≤ 65539 ∧ Redrawn ops st (st.at D.slot).handle w2 h w' ∧
      SetSlot st D.slot { st.at D.slot with handle := h } st' ∧
      reply = certifyReply cfg.profile h D.key t.written
  | .derive c => ∃ i, Resolves st c.handle loc i ∧
      if Bit c.flags DFlag.recursive then ServesRecursive ops st c i w reply st' w'
      else if Bit c.flags DFlag.exportCdi then ServesExport ops st c loc i w reply st' w'
      else ServesChild ops st c loc i w reply st' w'
  | .update c => ∃ i k v w1 hp w2 st1 hc, Resolves st c.parentHandle loc i ∧ ActiveChild st i c.tciType k ∧
      Extended ops (st.at k).tci.cumulative c.data v w w1 ∧ GoodDraw ops st 8 w1 hp w2 ∧
      SetSlot st i { st.at i with handle := hp } st1 ∧ Redrawn ops st1 (st.at k).handle w2 hc w' ∧
      SetSlot st1 k { st.at k with
        tci := { (st.at k).tci with cumulative := v, current := c.data }, handle := hc } st' ∧
      reply = handlesReply cfg.profile [hc, hp]

end Dpe
