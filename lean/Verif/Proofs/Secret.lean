import Verif.Spec.Secret
import Verif.Proofs.PlacementCert
/-
Every command that does not use the handles of a set runs in lock step on states that differ only in which
of these handles the contexts have.
-/
namespace Dpe
variable {cfg : Cfg} {σ α β : Type} {V : Handle → Prop} {D : Disguise V} {ops : Ops σ} {st : State cfg}

/-! ### Contexts and chains -/

namespace Disguise
variable (D)

/-- A handle that stays as it is. -/
def Fixes (h : Handle) : Prop := D.to h = h

variable {D}

theorem isDefault (hp : Private V) (h : Handle) : (D.to h).isDefault = h.isDefault := by
  by_cases hv : V h
  · have h1 : D.to h ≠ Handle.default := fun e => hp.dflt (e ▸ D.within h hv)
    have h2 : h ≠ Handle.default := fun e => hp.dflt (e ▸ hv)
    rw [isDefault_false.2 h1, isDefault_false.2 h2]
  · rw [D.other h hv]

theorem eq_iff {h x : Handle} (hx : ¬ V x) : D.to h = x ↔ h = x := by
  by_cases hv : V h
  · constructor
    · rintro rfl; exact absurd (D.within h hv) hx
    · rintro rfl; exact absurd hv hx
  · rw [D.other h hv]

theorem beq (h : Handle) {x : Handle} (hx : ¬ V x) : (D.to h == x) = (h == x) := by
  rw [Bool.eq_iff_iff, beq_iff_eq, beq_iff_eq, eq_iff hx]

theorem getElem? (st : State cfg) (i : Nat) : (D.state st).contexts[i]? = st.contexts[i]?.map D.ctx := by
  simp only [state, List.getElem?_map]

theorem at_state (st : State cfg) {i : Nat} (hi : i < cfg.maxHandles) : (D.state st).at i = D.ctx (st.at i) := by
  unfold State.at
  rw [getElem?, getElem?_of_lt hi]; rfl

theorem setCtx (st : State cfg) (i : Nat) (c : Context cfg) :
    (D.state st).setCtx i (D.ctx c) = D.state (st.setCtx i c) := by
  simp only [state, State.setCtx, List.map_set]

theorem withHandle {h : Handle} (hf : D.Fixes h) (c : Context cfg) :
    { D.ctx c with handle := h } = D.ctx { c with handle := h } := by
  simp only [ctx]; rw [hf]

theorem ctx_fixed {c : Context cfg} (hf : D.Fixes c.handle) : D.ctx c = c := by
  simp only [ctx]; rw [hf]

theorem getCtx_map (cs : List (Context cfg)) (i : Nat) :
    getCtx (cs.map D.ctx) i = (getCtx cs i).map D.ctx := by
  unfold getCtx
  rw [List.getElem?_map]
  cases cs[i]? with
  | none => rfl
  | some c =>
    simp only [Option.map_some, ctx]
    split <;> rfl

theorem pathLenLoop_map (cs : List (Context cfg)) (fuel curr len : Nat) :
    pathLenLoop (cs.map D.ctx) fuel curr len = pathLenLoop cs fuel curr len := by
  induction fuel generalizing curr len with
  | zero => rfl
  | succ n ih =>
    unfold pathLenLoop
    rw [getCtx_map]
    cases getCtx cs curr with
    | error e => rfl
    | ok c => simp only [Except.map, ctx, ih]

theorem new_map (leaf : Nat) (cs : List (Context cfg)) :
    ChainIter.new leaf (cs.map D.ctx) = ChainIter.new leaf cs := by
  unfold ChainIter.new; rw [pathLenLoop_map]

theorem isNodeOnPath_map (cs : List (Context cfg)) (t fuel curr : Nat) :
    isNodeOnPath (cs.map D.ctx) t fuel curr = isNodeOnPath cs t fuel curr := by
  induction fuel generalizing curr with
  | zero => rfl
  | succ n ih =>
    unfold isNodeOnPath
    rw [getCtx_map]
    cases getCtx cs curr with
    | error e => rfl
    | ok c => simp only [Except.map, ctx, ih]

theorem findOnPath_map (cs : List (Context cfg)) (front : Nat) (l : List Nat) :
    findOnPath (cs.map D.ctx) front l = findOnPath cs front l := by
  induction l with
  | nil => rfl
  | cons k ks ih => unfold findOnPath; rw [isNodeOnPath_map, ih]

theorem next_map (cs : List (Context cfg)) (it : ChainIter) :
    it.next (cs.map D.ctx) = ((it.next cs).1.map (Except.map D.ctx), (it.next cs).2) := by
  unfold ChainIter.next
  rw [getCtx_map]
  split; · rfl
  split; · rfl
  split; · rfl
  cases getCtx cs it.front <;> rfl

theorem nextBack_map (cs : List (Context cfg)) (it : ChainIter) :
    it.nextBack (cs.map D.ctx) = ((it.nextBack cs).1.map (Except.map D.ctx), (it.nextBack cs).2) := by
  unfold ChainIter.nextBack
  rw [getCtx_map]
  split; · rfl
  split; · rfl
  split; · rfl
  cases getCtx cs it.back with
  | error e => rfl
  | ok c =>
    simp only [Except.map, ctx, findOnPath_map]
    split; · rfl
    cases findOnPath cs it.front (childList cfg c.children) with
    | error e => rfl
    | ok o => cases o <;> rfl

theorem items_map (cs : List (Context cfg)) (n : Nat) (it : ChainIter) :
    it.items (cs.map D.ctx) n = (it.items cs n).map (Except.map D.ctx) := by
  induction n generalizing it with
  | zero => rfl
  | succ n ih =>
    unfold ChainIter.items
    rw [next_map]
    rcases it.next cs with ⟨_ | x, it'⟩
    · rfl
    · simp only [Option.map_some, List.map_cons, ih]

theorem backItems_map (cs : List (Context cfg)) (n : Nat) (it : ChainIter) :
    it.backItems (cs.map D.ctx) n = (it.backItems cs n).map (Except.map D.ctx) := by
  induction n generalizing it with
  | zero => rfl
  | succ n ih =>
    unfold ChainIter.backItems
    rw [nextBack_map]
    rcases it.nextBack cs with ⟨_ | x, it'⟩
    · rfl
    · simp only [Option.map_some, List.map_cons, ih]

/-! ### Certificates -/

/-- The measurement data with the handles changed. -/
def md (D : Disguise V) (m : MeasData cfg) : MeasData cfg := { m with contexts := m.contexts.map D.ctx }

theorem firstNode (m : MeasData cfg) : (D.md m).firstNode = m.firstNode := by
  unfold MeasData.firstNode md
  simp only [new_map]
  cases ChainIter.new m.start m.contexts with
  | error e => rfl
  | ok it =>
    simp only [nextBack_map]
    rcases (it.nextBack m.contexts).1 with _ | (e | c) <;> rfl

theorem tcbLoop_map (p : Profile) (r : Bool) (l : List (Except Err (Context cfg))) :
    (tcbLoop p r (l.map (Except.map D.ctx)) : W σ Nat) = tcbLoop p r l := by
  induction l with
  | nil => rfl
  | cons x l ih =>
    simp only [List.map_cons]
    unfold tcbLoop
    rw [ih]
    cases x <;> rfl

theorem infosSize (p : Profile) (m : MeasData cfg) : tcbInfosSize p (D.md m) = tcbInfosSize p m := by
  unfold tcbInfosSize
  rw [firstNode]
  simp only [md, new_map]

theorem writing (m : MeasData cfg) : SameWriting m (D.md m) where
  rest := ⟨m.start, m.contexts.map D.ctx, rfl⟩
  multi p crit := by
    unfold multiTcbSize
    rw [firstNode]
    simp only [md, new_map]
  encMulti p crit := by
    unfold encMultiTcb
    rw [infosSize]
    simp only [md, new_map, backItems_map, tcbLoop_map]

theorem tciNodesNew_map (start : Nat) (cs : List (Context cfg)) :
    tciNodesNew start (cs.map D.ctx) = tciNodesNew start cs := by
  unfold tciNodesNew
  simp only [new_map, items_map, List.length_map]

/-! ### Searches -/

theorem findActive (st : State cfg) {h : Handle} (hv : ¬ V h) (loc : U32) :
    (D.state st).findActive h loc = st.findActive h loc := by
  unfold State.findActive
  simp only [state, List.any_map, List.findIdx?_map, Function.comp_def, ctx, beq _ hv]

theorem nextInactive (st : State cfg) : (D.state st).nextInactive = st.nextInactive := by
  unfold State.nextInactive
  simp only [state, List.findIdx?_map, Function.comp_def, ctx]

theorem countContexts (st : State cfg) (f : Context cfg → Bool) (hf : ∀ c, f (D.ctx c) = f c) :
    (D.state st).countContexts f = st.countContexts f := by
  unfold State.countContexts
  simp only [state, List.filter_map, List.length_map, Function.comp_def, hf]

theorem getDescendants (st : State cfg) (n : Nat) (c : Context cfg) :
    (D.state st).getDescendants n (D.ctx c) = st.getDescendants n c := by
  induction n generalizing c with
  | zero => rfl
  | succ n ih =>
    unfold State.getDescendants
    refine if_congr Iff.rfl rfl ?_
    show List.foldlM _ c.children (childList cfg c.children) = List.foldlM _ c.children _
    congr 1
    funext acc idx
    rw [getElem?]
    cases st.contexts[idx]? with
    | none => rfl
    | some x => simp only [Option.map_some]; rw [ih]

theorem retiredChain (st : State cfg) (n p : Nat) (acc : Children) :
    Dpe.retiredChain (D.state st) n p acc = Dpe.retiredChain st n p acc := by
  induction n generalizing p acc with
  | zero => rfl
  | succ n ih =>
    unfold Dpe.retiredChain
    rw [getElem?]
    cases st.contexts[p]? with
    | none => rfl
    | some x => simp only [Option.map_some, ctx, ih]

theorem destroySet (st : State cfg) {h : Handle} (hv : ¬ V h) (loc : U32) :
    Dpe.destroySet (D.state st) h loc = Dpe.destroySet st h loc := by
  unfold Dpe.destroySet
  rw [findActive st hv]
  cases st.findActive h loc with
  | error e => rfl
  | ok idx =>
    show (match (D.state st).contexts[idx]? with | none => _ | some c => _) =
      (match st.contexts[idx]? with | none => _ | some c => _)
    rw [getElem?]
    cases st.contexts[idx]? with
    | none => rfl
    | some c =>
      simp only [Option.map_some, retiredChain, getDescendants]
      rfl

theorem clear (hp : Private V) (st : State cfg) (s : Children) :
    (D.state st).clear s = D.state (st.clear s) := by
  have hone : D.to Handle.invalid = Handle.invalid := D.other _ hp.ones
  unfold State.clear state
  simp only [State.mk.injEq, true_and, and_true]
  apply List.ext_getElem?
  intro i
  simp only [List.getElem?_mapIdx, List.getElem?_map]
  cases st.contexts[i]? with
  | none => rfl
  | some c =>
    simp only [Option.map_some, ctx, Context.destroy]
    split
    · simp only [hone]
    · rfl

theorem destroyContext (hp : Private V) (st : State cfg) {h : Handle} (hv : ¬ V h) (loc : U32) :
    Dpe.destroyContext (D.state st) h loc = (Dpe.destroyContext st h loc).map D.state := by
  unfold Dpe.destroyContext
  rw [destroySet st hv]
  cases Dpe.destroySet st h loc with
  | error e => rfl
  | ok s => show Except.ok _ = Except.ok _; rw [clear hp]

theorem typeUnique (st : State cfg) (ty : U32) (l : List Nat) :
    Dpe.typeUnique (D.state st) ty l = Dpe.typeUnique st ty l := by
  induction l with
  | nil => rfl
  | cons k ks ih =>
    unfold Dpe.typeUnique
    rw [getElem?, ih]
    cases st.contexts[k]? <;> rfl

theorem findChildOfType (st : State cfg) (ty : U32) (l : List Nat) :
    Dpe.findChildOfType (D.state st) ty l = Dpe.findChildOfType st ty l := by
  unfold Dpe.findChildOfType
  congr 1
  funext k
  rw [getElem?]
  cases st.contexts[k]? <;> rfl

theorem nonDefaultExists (hp : Private V) (st : State cfg) (loc : U32) (t : Nat) :
    Dpe.nonDefaultExists (D.state st) loc t = Dpe.nonDefaultExists st loc t := by
  unfold Dpe.nonDefaultExists
  simp only [state, List.zipIdx_map, List.any_map, Function.comp_def, ctx, isDefault hp, Prod.map]
  rfl

theorem safeToMakeChild (hp : Private V) (st : State cfg) (c : DeriveCmd cfg) (parent : Nat) (loc : U32) :
    Dpe.safeToMakeChild (D.state st) c parent loc = Dpe.safeToMakeChild st c parent loc := by
  unfold Dpe.safeToMakeChild
  rw [findActive st hp.dflt, countContexts st _ (fun _ => rfl)]

end Disguise

/-! ### Lock step -/

/-- `x` from `st` and `y` from the state in disguise, with the same world and buffer, both succeed with
related results, or both fail with the same error; and leave the same world and buffer, and again a state and
its disguise.  The random source is assumed to avoid the handles in `V`. -/
def Blind (D : Disguise V) (ops : Ops σ) (R : α → α → State cfg → Prop) (x y : M cfg σ α) (st : State cfg) :
    Prop :=
  ∀ w out, Avoids ops V w →
    (∃ a b w' out' t, x ⟨st, w, out⟩ = (.ok a, ⟨t, w', out'⟩) ∧
      y ⟨D.state st, w, out⟩ = (.ok b, ⟨D.state t, w', out'⟩) ∧ OpCalls ops w w' ∧ R a b t) ∨
    (∃ e w' out' t, x ⟨st, w, out⟩ = (.error e, ⟨t, w', out'⟩) ∧
      y ⟨D.state st, w, out⟩ = (.error e, ⟨D.state t, w', out'⟩) ∧ OpCalls ops w w')

/-- The same result, and the state as it was. -/
abbrev Stays (st : State cfg) : α → α → State cfg → Prop := fun a b t => a = b ∧ t = st

/-- The end of a command: the same result. -/
abbrev Ends : α → α → State cfg → Prop := fun a b _ => a = b

section
variable {R : α → α → State cfg → Prop} {Q : β → β → State cfg → Prop}
  {x y : M cfg σ α} {f g : α → M cfg σ β}

namespace Blind

theorem later (hx : Blind D ops R x y st) {w w1 : σ} (hw : Avoids ops V w)
    (hc : OpCalls ops w w1) (out : Bytes) :
    (∃ a b w' out' t, x ⟨st, w1, out⟩ = (.ok a, ⟨t, w', out'⟩) ∧
      y ⟨D.state st, w1, out⟩ = (.ok b, ⟨D.state t, w', out'⟩) ∧ OpCalls ops w w' ∧ R a b t) ∨
    (∃ e w' out' t, x ⟨st, w1, out⟩ = (.error e, ⟨t, w', out'⟩) ∧
      y ⟨D.state st, w1, out⟩ = (.error e, ⟨D.state t, w', out'⟩) ∧ OpCalls ops w w') := by
  rcases hx w1 out (hw.calls hc) with ⟨a, b, w2, out2, t, k1, k2, kc, k3⟩ | ⟨e, w2, out2, t, k1, k2, kc⟩
  · exact .inl ⟨a, b, w2, out2, t, k1, k2, hc.trans kc, k3⟩
  · exact .inr ⟨e, w2, out2, t, k1, k2, hc.trans kc⟩

theorem bind (hx : Blind D ops R x y st) (hf : ∀ a b t, R a b t → Blind D ops Q (f a) (g b) t) :
    Blind D ops Q (x >>= f) (y >>= g) st := by
  intro w out hw
  show (∃ a b w' out' t, M.bind x f _ = _ ∧ M.bind y g _ = _ ∧ _) ∨
    (∃ e w' out' t, M.bind x f _ = _ ∧ M.bind y g _ = _ ∧ _)
  unfold M.bind
  rcases hx w out hw with ⟨a, b, w', out', t, h1, h2, hc, h3⟩ | ⟨e, w', out', t, h1, h2, hc⟩
  · rw [h1, h2]
    exact (hf a b t h3).later hw hc out'
  · rw [h1, h2]; exact .inr ⟨e, w', out', t, rfl, rfl, hc⟩

theorem same (hx : Blind D ops (Stays st) x y st) (hf : ∀ a, Blind D ops Q (f a) (g a) st) :
    Blind D ops Q (x >>= f) (y >>= g) st :=
  hx.bind fun a _ _ ⟨h1, h2⟩ => h1 ▸ h2 ▸ hf a

theorem get {f g : State cfg → M cfg σ β} (hf : Blind D ops Q (f st) (g (D.state st)) st) :
    Blind D ops Q (M.get >>= f) (M.get >>= g) st := fun w out hw => hf w out hw

theorem pure {a b : α} (h : R a b st) : Blind D ops R (pure a : M cfg σ α) (pure b) st :=
  fun w out _ => .inl ⟨a, b, w, out, st, rfl, rfl, .nil _, h⟩

theorem mono {R' : α → α → State cfg → Prop} (hx : Blind D ops R x y st)
    (h : ∀ a b t, R a b t → R' a b t) : Blind D ops R' x y st := by
  intro w out hw
  rcases hx w out hw with ⟨a, b, w', out', t, h1, h2, hc, h3⟩ | h1
  · exact .inl ⟨a, b, w', out', t, h1, h2, hc, h _ _ _ h3⟩
  · exact .inr h1

theorem fail (e : Err) : Blind D ops R (M.fail e) (M.fail e : M cfg σ α) st :=
  fun w out _ => .inr ⟨e, w, out, st, rfl, rfl, .nil _⟩

theorem failIf (a : Bool) (e : Err) :
    Blind D ops (Stays st) (M.failIf a e : M cfg σ Unit) (M.failIf a e) st := by
  intro w out _
  unfold M.failIf
  cases a
  · exact .inl ⟨(), (), w, out, st, rfl, rfl, .nil _, rfl, rfl⟩
  · exact .inr ⟨e, w, out, st, rfl, rfl, .nil _⟩

theorem lift (z : Except Err α) :
    Blind D ops (fun a b t => (a = b ∧ t = st) ∧ z = .ok a) (M.lift z : M cfg σ α) (M.lift z) st := by
  intro w out _
  rcases z with e | a
  · exact .inr ⟨e, w, out, st, rfl, rfl, .nil _⟩
  · exact .inl ⟨a, a, w, out, st, rfl, rfl, .nil _, ⟨rfl, rfl⟩, rfl⟩

theorem lifted (z : Except Err α) (hf : ∀ a, z = .ok a → Blind D ops Q (f a) (g a) st) :
    Blind D ops Q (M.lift z >>= f) (M.lift z >>= g) st :=
  (lift z).bind fun a _ _ ⟨⟨h1, h2⟩, h3⟩ => h1 ▸ h2 ▸ hf a h3

theorem okOr (z : Option α) (e : Err) :
    Blind D ops (Stays st) (M.okOr z e : M cfg σ α) (M.okOr z e) st := by
  intro w out _
  rcases z with _ | a
  · exact .inr ⟨e, w, out, st, rfl, rfl, .nil _⟩
  · exact .inl ⟨a, a, w, out, st, rfl, rfl, .nil _, rfl, rfl⟩

/-- The content of a slot. -/
theorem slot {f g : Context cfg → M cfg σ β} (i : Nat) (e : Err)
    (hf : ∀ c, st.contexts[i]? = some c → Blind D ops Q (f c) (g (D.ctx c)) st) :
    Blind D ops Q (M.okOr st.contexts[i]? e >>= f) (M.okOr (D.state st).contexts[i]? e >>= g) st := by
  rw [Disguise.getElem?]
  cases h : st.contexts[i]? with
  | none => exact fun w out _ => .inr ⟨e, w, out, st, rfl, rfl, .nil _⟩
  | some c => exact fun w out hw => hf c h w out hw

theorem crypto (z : σ → Except CryptoErr α × σ) (hz : ∀ w, OpCall ops w (z w).2 := by op_call) :
    Blind D ops (Stays st) (M.crypto z : M cfg σ α) (M.crypto z) st := by
  intro w out _
  unfold M.crypto
  have hc : OpCalls ops w (z w).2 := .one (hz w)
  rcases h : z w with ⟨e | a, w'⟩ <;> rw [h] at hc
  · exact .inr ⟨.crypto e, w', out, st, rfl, rfl, hc⟩
  · exact .inl ⟨a, a, w', out, st, rfl, rfl, hc, rfl, rfl⟩

theorem platform (z : σ → Except PlatErr α × σ) (hz : ∀ w, OpCall ops w (z w).2 := by op_call) :
    Blind D ops (Stays st) (M.platform z : M cfg σ α) (M.platform z) st := by
  intro w out _
  unfold M.platform
  have hc : OpCalls ops w (z w).2 := .one (hz w)
  rcases h : z w with ⟨e | a, w'⟩ <;> rw [h] at hc
  · exact .inr ⟨.platform e, w', out, st, rfl, rfl, hc⟩
  · exact .inl ⟨a, a, w', out, st, rfl, rfl, hc, rfl, rfl⟩

theorem writeAt (off : Nat) (d : Bytes) :
    Blind D ops (Stays st) (writeAt off d : M cfg σ Unit) (Dpe.writeAt off d) st := by
  intro w out _
  unfold Dpe.writeAt
  rcases h : bufWrite out off d with _ | b
  · exact .inr ⟨.invalidResponseBuf, w, out, st, by simp only, by simp only, .nil _⟩
  · exact .inl ⟨(), (), w, b, st, by simp only, by simp only, .nil _, rfl, rfl⟩

theorem modify {p q : State cfg → State cfg} {f g : Unit → M cfg σ β} (h : q (D.state st) = D.state (p st))
    (hf : Blind D ops Q (f ()) (g ()) (p st)) : Blind D ops Q (M.modify p >>= f) (M.modify q >>= g) st := by
  intro w out hw
  have := hf w out hw
  rw [← h] at this
  exact this

/-- The common end of commands. -/
theorem reply (b : Bytes) (n : β) :
    Blind D ops Ends (do Dpe.writeAt 0 b; Pure.pure n : M cfg σ β) (do Dpe.writeAt 0 b; Pure.pure n) st :=
  (writeAt 0 b).same fun _ => .pure rfl

theorem ite {c : Prop} [Decidable c] {x y x' y' : M cfg σ α} (h1 : Blind D ops R x y st)
    (h2 : Blind D ops R x' y' st) : Blind D ops R (if c then x else x') (if c then y else y') st := by
  split
  · exact h1
  · exact h2

theorem when {c : Bool} {x y : M cfg σ Unit} (h1 : Blind D ops (Stays st) x y st) :
    Blind D ops (Stays st) (M.when c x ()) (M.when c y ()) st :=
  .ite h1 (.pure ⟨rfl, rfl⟩)

/-! ### Handles -/

theorem rand : Blind D ops (fun a b t => (a = b ∧ t = st) ∧ ¬ V a) (M.crypto ops.rand : M cfg σ Handle)
      (M.crypto ops.rand) st := by
  intro w out hw
  unfold M.crypto
  have hc : OpCalls ops w (ops.rand w).2 := .one (.rand w)
  have hn := hw w (.nil _)
  rcases h : ops.rand w with ⟨e | a, w'⟩ <;> rw [h] at hc hn
  · exact .inr ⟨.crypto e, w', out, st, rfl, rfl, hc⟩
  · exact .inl ⟨a, a, w', out, st, rfl, rfl, hc, ⟨rfl, rfl⟩, hn a rfl⟩

end Blind
end

/-- The same handle, which stays as it is; and the state as it was. -/
abbrev StaysH (D : Disguise V) (st : State cfg) : Handle → Handle → State cfg → Prop :=
  fun a b t => (a = b ∧ t = st) ∧ D.Fixes a

/-- A context and its disguise. -/
abbrev StaysC (D : Disguise V) (st : State cfg) : Context cfg → Context cfg → State cfg → Prop :=
  fun a b t => b = D.ctx a ∧ t = st

/-- The same context, with a handle that stays as it is. -/
abbrev StaysF (D : Disguise V) (st : State cfg) : Context cfg → Context cfg → State cfg → Prop :=
  fun a b t => b = D.ctx a ∧ t = st ∧ D.Fixes a.handle

theorem blind_gen (n : Nat) : Blind D ops (StaysH D st) (genHandleLoop ops n) (genHandleLoop ops n) st := by
  induction n with
  | zero => exact .fail _
  | succ n ih =>
    unfold genHandleLoop
    refine Blind.rand.bind ?_
    rintro hd _ t ⟨⟨rfl, rfl⟩, hno⟩
    refine Blind.get ?_
    have e : (!hd.isDefault && !(D.state t).contexts.any (fun c => c.handle == hd)) =
        (!hd.isDefault && !t.contexts.any (fun c => c.handle == hd)) := by
      simp only [Disguise.state, List.any_map, Function.comp_def, Disguise.ctx, Disguise.beq _ hno]
    rw [e]
    exact .ite (.pure ⟨⟨rfl, rfl⟩, D.other _ hno⟩) ih

theorem blind_generate : Blind D ops (StaysH D st) (generateNewHandle ops) (generateNewHandle ops) st :=
  blind_gen 8

theorem blind_roll (hp : Private V) (c : Context cfg) :
    Blind D ops (StaysF D st) (rollHandle ops c) (rollHandle ops (D.ctx c)) st := by
  unfold rollHandle
  simp only [Disguise.ctx, Disguise.isDefault hp]
  by_cases hd : c.handle.isDefault = true
  · rw [if_pos hd, if_pos hd]
    refine .pure ⟨rfl, rfl, D.other _ ?_⟩
    intro hv; exact absurd (isDefault_false.2 fun e => hp.dflt (e ▸ hv)) (by rw [hd]; decide)
  · rw [if_neg hd, if_neg hd]
    refine blind_generate.bind ?_
    rintro h _ t ⟨⟨rfl, rfl⟩, hf⟩
    exact .pure ⟨Disguise.withHandle hf c, rfl, hf⟩

theorem blind_pick (hp : Private V) (d : Bool) :
    Blind D ops (StaysH D st) (pickHandle ops d) (pickHandle ops d) st :=
  .ite (.pure ⟨⟨rfl, rfl⟩, D.other _ hp.dflt⟩) blind_generate

/-! ### Hashing -/

theorem blind_chunks (l : List Bytes) : Blind D ops (Stays st) (hashChunks ops l) (hashChunks ops l) st := by
  induction l with
  | nil => exact .pure ⟨rfl, rfl⟩
  | cons b l ih => exact (Blind.crypto _).same fun _ => ih

theorem blind_hashAll (l : List Bytes) : Blind D ops (Stays st) (hashAll ops l) (hashAll ops l) st :=
  (Blind.crypto _).same fun _ => (Blind.crypto _).same fun _ => (blind_chunks l).same fun _ => Blind.crypto _

theorem blind_addTci (c : Context cfg) (m : BArr cfg.tciSize) (loc : U32) :
    Blind D ops (fun a b t => (b = D.ctx a ∧ t = st) ∧ a.handle = c.handle)
      (addTci ops c m loc) (addTci ops (D.ctx c) m loc) st :=
  (Blind.failIf _ _).same fun _ => (Blind.failIf _ _).same fun _ =>
    (blind_hashAll _).same fun d => Blind.lifted _ fun v _ => .pure ⟨⟨rfl, rfl⟩, rfl⟩

theorem blind_profile (x : U32) : Blind D ops (Stays st) (getProfile ops x : M cfg σ Bytes) (getProfile ops x) st :=
  (Blind.platform _).same fun _ => (Blind.platform _).same fun _ => .pure ⟨rfl, rfl⟩

theorem blind_nodes (l : List (Except Err (Context cfg))) : ∀ (i d : Bool),
    Blind D ops (Stays st) (hashNodes ops l i d) (hashNodes ops (l.map (Except.map D.ctx)) i d) st := by
  induction l with
  | nil => exact fun i d => .pure ⟨rfl, rfl⟩
  | cons x l ih =>
    intro i d
    simp only [List.map_cons]
    unfold hashNodes
    cases x with
    | error e => exact fun w out _ => .inr ⟨e, w, out, st, rfl, rfl, .nil _⟩
    | ok c => 
      exact fun w out hw => ((Blind.crypto (ops.hashUpdate c.tci.bytes)).same fun _ =>
        (Blind.crypto (ops.hashUpdate [boolByte c.allowX509])).same fun _ => ih _ _) w out hw

theorem blind_dice (n : Nat) : ∀ off : U32,
    Blind D ops (Stays st) (diceLoop ops n off) (diceLoop ops n off) st := by
  induction n with
  | zero => intro off; exact .fail _
  | succ n ih =>
    intro off w out hw
    unfold diceLoop
    have hc : OpCalls ops w (ops.certChain off 2048 w).2 := .one (.certChain ..)
    rcases h : ops.certChain off 2048 w with ⟨e | ⟨len, ch⟩, w'⟩ <;> rw [h] at hc
    · exact .inl ⟨(), (), w', out, st, rfl, rfl, hc, rfl, rfl⟩
    · simp only [h]
      exact Blind.later ((Blind.failIf _ _).same fun _ => (Blind.crypto _).same fun _ => ih _) hw hc out

theorem blind_measure (i : Nat) :
    Blind D ops (Stays st) (computeMeasurementHash ops i) (computeMeasurementHash ops i) st := by
  refine (Blind.crypto _).same fun _ => (Blind.crypto _).same fun _ => Blind.get ?_
  simp only [Disguise.state, Disguise.new_map, Disguise.items_map]
  refine Blind.lifted _ fun it _ => Blind.same (blind_nodes _ _ _) ?_
  rintro ⟨info, dice⟩
  refine Blind.same (Blind.when ?_) fun _ => Blind.same (Blind.when (blind_dice _ _)) fun _ => Blind.crypto _
  exact Blind.same ((blind_profile _).same fun _ => .pure ⟨rfl, rfl⟩) fun b => Blind.crypto _

/-! ### Certificates -/

theorem blind_writer {m : W σ α} (hm : WCalls ops m) :
    Blind D ops (Stays st) (runWriter m : M cfg σ α) (runWriter m) st := by
  intro w out _
  unfold runWriter
  have hc := hm (Writer.new out, w)
  rcases h : m (Writer.new out, w) with ⟨e | a, ⟨w', x'⟩⟩ <;> rw [h] at hc
  · exact .inr ⟨e, x', w'.buf, st, by simp only, by simp only, hc⟩
  · exact .inl ⟨a, a, x', w'.buf, st, by simp only, by simp only, hc, rfl, rfl⟩

theorem blind_issue {md md2 : MeasData cfg} (h : SameWriting md md2) {cb : SignCb σ}
    (hcb : CbCalls ops cb) (p : Profile) (crit : Bool) (d : CertData cfg) (sid : Option SignerId) :
    Blind D ops (Stays st) (generate cb p crit { d with meas := md } sid)
      (generate cb p crit { d with meas := md2 } sid) st := by
  unfold generate
  rcases sid with _ | sid
  · refine (Blind.failIf _ _).same fun _ => Blind.same ?_ fun n => (Blind.lift _).mono fun _ _ _ h => h.1
    have := h.certOrCsr cb p crit false { d with serial := d.subject.serial.bytes.take 20 }
    simp only at this ⊢
    rw [this]
    exact blind_writer (.encCertOrCsr hcb _ _ _ _)
  · refine Blind.same ?_ fun n => (Blind.lift _).mono fun _ _ _ h => h.1
    rw [h.cms]
    exact blind_writer (.encCms hcb _ _ _ _)

theorem blind_finish {md md2 : MeasData cfg} (h : SameWriting md md2) {cb : SignCb σ} (hcb : CbCalls ops cb)
    (kind : CertKind) (crit : Bool) (d : CertData cfg) (sid : SignerId) :
    Blind D ops (Stays st) (finishCert ops cb kind crit { d with meas := md } sid)
      (finishCert ops cb kind crit { d with meas := md2 } sid) st := by
  unfold finishCert
  refine .ite (blind_issue h hcb _ _ _ _) (Blind.same ?_ fun i =>
    blind_issue h hcb _ _ { d with issuer := i } _)
  exact (Blind.platform _).same fun _ => (Blind.failIf _ _).same fun _ => .pure ⟨rfl, rfl⟩

theorem blind_serial (k : PubKey) (n : Nat) :
    Blind D ops (Stays st) (pubkeySerial ops k n) (pubkeySerial ops k n) st :=
  (Blind.failIf _ _).same fun _ => (Blind.failIf _ _).same fun _ => (blind_hashAll _).same fun _ =>
    (Blind.lift _).mono fun _ _ _ h => h.1

theorem blind_key (ex : Bool) (a : CertArgs) (d : Bytes) :
    Blind D ops (Stays st) (certKey ops ex a d) (certKey ops ex a d) st := by
  unfold certKey
  exact .ite ((Blind.crypto _).same fun _ => (Blind.crypto _).same fun _ => (Blind.crypto _).same fun _ =>
    .pure ⟨rfl, rfl⟩) ((Blind.crypto _).same fun _ => (Blind.crypto _).same fun _ =>
    (Blind.crypto _).same fun _ => .pure ⟨rfl, rfl⟩)

theorem blind_altName : Blind D ops (Stays st) (getAltName ops : M cfg σ _) (getAltName ops) st := by
  intro w out _
  unfold getAltName
  have hc : OpCalls ops w (ops.subjectAltName w).2 := .one (.subjectAltName w)
  rcases h : ops.subjectAltName w with ⟨e | a, w'⟩ <;> rw [h] at hc
  · cases e <;> simp only [h]
    all_goals first
      | exact .inl ⟨_, _, w', out, st, rfl, rfl, hc, rfl, rfl⟩
      | exact .inr ⟨_, w', out, st, rfl, rfl, hc⟩
  · exact .inl ⟨some a, some a, w', out, st, by simp only, by simp only, hc, rfl, rfl⟩

theorem blind_create (kind : CertKind) (a : CertArgs) (hv : ¬ V a.handle) :
    Blind D ops (Stays st) (createCert ops kind a) (createCert ops kind a) st := by
  unfold createCert
  refine Blind.get ?_
  rw [Disguise.findActive st hv]
  refine Blind.lifted _ fun i _ => (blind_measure i).same fun d => (blind_key _ _ _).same fun kh => ?_
  obtain ⟨k, hx⟩ := kh
  refine Blind.same ((blind_serial _ _).same fun s => .pure ⟨rfl, rfl⟩) fun subj => ?_
  refine Blind.same ((blind_hashAll _).same fun s => (Blind.failIf _ _).same fun _ =>
    .pure ⟨rfl, rfl⟩) fun ski => ?_
  refine (Blind.platform _).same fun aki => blind_altName.same fun alt => Blind.get ?_
  rw [Disguise.findActive st hv]
  refine Blind.lifted _ fun i' _ => ?_
  rw [show tciNodesNew i' (D.state st).contexts = tciNodesNew i' st.contexts from Disguise.tciNodesNew_map ..]
  refine Blind.lifted _ fun _ _ => (Blind.platform _).same fun v => (Blind.platform _).same fun sid => ?_
  refine (blind_finish (Disguise.writing (measData st i' kind.exported a ski aki alt)) (signCb_calls _ _ _ _) _ _
    { serial := [], issuer := [], subject := subj, pubKey := k, meas := measData st i' kind.exported a ski aki alt,
      validity := v } _).same fun n => ?_
  exact .ite ((Blind.okOr _ _).same fun _ => .pure ⟨rfl, rfl⟩) (.pure ⟨rfl, rfl⟩)

theorem blind_cert (kind : CertKind) (a : CertArgs) (hv : ¬ V a.handle) (base : Nat) :
    Blind D ops (Stays st) (runCert (ops.env cfg) kind a base) (runCert (ops.env cfg) kind a base) st := by
  intro w out hw
  unfold runCert Ops.env
  simp only
  rcases blind_create kind a hv w (out.drop base) hw with
    ⟨x, y, w', out', t, h1, h2, hc, rfl, rfl⟩ | ⟨e, w', out', t, h1, h2, hc⟩
  · exact .inl ⟨x, x, w', out.take base ++ out', st, by rw [h1], by rw [h2], hc, rfl, rfl⟩
  · exact .inr ⟨e, w', out.take base ++ out', st, by rw [h1], by rw [h2], hc⟩

/-! ### Commands -/

theorem blind_init (hp : Private V) (flags loc : U32) :
    Blind D ops Ends (initCtx ops flags loc) (initCtx ops flags loc) st := by
  unfold initCtx
  refine Blind.get ?_
  rw [Disguise.nextInactive]
  refine (Blind.failIf _ _).same fun _ => (Blind.failIf _ _).same fun _ => (Blind.okOr _ _).same fun idx => ?_
  refine Blind.bind (R := fun a b _ => a = b ∧ D.Fixes a) ?_ ?_
  · unfold initHandle
    split
    · exact Blind.modify rfl (.pure ⟨rfl, D.other _ hp.dflt⟩)
    · exact blind_generate.mono fun _ _ _ h => ⟨h.1.1, h.2⟩
  · rintro h _ t ⟨rfl, hf⟩
    refine Blind.modify ?_ (.reply _ _)
    rw [← Disguise.setCtx, Disguise.ctx_fixed (by exact hf)]

theorem handle_found {h : Handle} {loc : U32} {i : Nat} {c : Context cfg} (hf : st.findActive h loc = .ok i)
    (hc : st.contexts[i]? = some c) : c.handle = h := by
  have := (findActive_resolves hf).1.2.1
  rwa [at_of_getElem? hc] at this

theorem blind_rotate (hp : Private V) (c : RotateCmd) (hv : ¬ V c.handle) (loc : U32) :
    Blind D ops Ends (rotateCtx ops c loc) (rotateCtx ops c loc) st := by
  unfold rotateCtx
  refine Blind.get ?_
  rw [Disguise.findActive st hv, Disguise.findActive st hp.dflt]
  refine (Blind.failIf _ _).same fun _ => Blind.lifted _ fun i hi => ?_
  rw [Disguise.nonDefaultExists hp]
  refine (Blind.failIf _ _).same fun _ => (blind_pick hp _).bind ?_
  rintro h _ t ⟨⟨rfl, rfl⟩, hf⟩
  refine Blind.slot _ _ fun old _ => Blind.modify ?_ (.reply _ _)
  rw [← Disguise.setCtx, Disguise.withHandle hf]

theorem blind_destroy (hp : Private V) {h : Handle} (hv : ¬ V h) (loc : U32) :
    Blind D ops Ends (destroyCtx h loc : M cfg σ Nat) (destroyCtx h loc) st := by
  unfold destroyCtx
  refine Blind.get ?_
  rw [Disguise.destroyContext hp st hv]
  cases destroyContext st h loc with
  | error e => exact fun w out _ => .inr ⟨e, w, out, st, rfl, rfl, .nil _⟩
  | ok t => 
    intro w out hw
    have hr : Blind D ops Ends (do writeAt 0 (hdrBytes cfg.profile .noError); pure (hdrBytes cfg.profile .noError).length :
        M cfg σ Nat) _ t :=
      .reply (hdrBytes cfg.profile .noError) (hdrBytes cfg.profile .noError).length
    exact Blind.modify (D := D) (ops := ops) (Q := Ends) (p := fun _ => t) (q := fun _ => D.state t)
      (f := fun _ => _) (g := fun _ => _) rfl hr w out hw

theorem blind_recursive (hp : Private V) (c : DeriveCmd cfg) (i : Nat) (p : Context cfg) (tl : U32) :
    Blind D ops Ends (deriveRecursive ops c i p tl) (deriveRecursive ops c i (D.ctx p) tl) st := by
  unfold deriveRecursive
  refine (Blind.failIf _ _).same fun _ => (blind_addTci p _ _).bind ?_
  rintro p1 _ t ⟨⟨rfl, rfl⟩, _⟩
  refine (blind_roll hp p1).bind ?_
  rintro p2 _ t' ⟨rfl, rfl, hf⟩
  refine Blind.modify (Disguise.setCtx _ _ _) ?_
  rw [Disguise.ctx_fixed hf]
  exact .reply _ _

theorem blind_parent (hp : Private V) (c : DeriveCmd cfg) (p : Context cfg) :
    Blind D ops (StaysF D st) (deriveParent ops c p) (deriveParent ops c (D.ctx p)) st := by
  unfold deriveParent
  simp only [Disguise.ctx, Disguise.isDefault hp]
  by_cases hr : c.retain = true
  · rw [if_pos hr, if_pos hr]
    by_cases hd : (!p.handle.isDefault) = true
    · rw [if_pos hd, if_pos hd]
      refine blind_generate.bind ?_
      rintro h _ t ⟨⟨rfl, rfl⟩, hf⟩
      exact .pure ⟨Disguise.withHandle hf p, rfl, hf⟩
    · rw [if_neg hd, if_neg hd]
      refine .pure ⟨rfl, rfl, D.other _ fun hv => hd ?_⟩
      rw [isDefault_false.2 fun e => hp.dflt (e ▸ hv)]; rfl
  · rw [if_neg hr, if_neg hr]
    have hf : D.Fixes Handle.invalid := D.other _ hp.ones
    refine .pure ⟨?_, rfl, hf⟩
    simp only [Disguise.ctx]
    rw [hf]

theorem blind_export (hp : Private V) (c : DeriveCmd cfg) (hv : ¬ V c.handle) {loc : U32} {i : Nat}
    (hi : st.findActive c.handle loc = .ok i) {p : Context cfg} (hf : D.Fixes p.handle) :
    Blind D ops Ends (deriveExport (ops.env cfg) c loc i p) (deriveExport (ops.env cfg) c loc i (D.ctx p)) st := by
  unfold deriveExport
  refine Blind.same (Blind.platform ops.ueid) fun u => Blind.lifted _ fun ueid _ => Blind.get ?_
  refine (blind_cert _ (exportArgs st c loc ueid) (by exact hv) _).same fun r => Blind.get ?_
  refine Blind.slot _ _ fun old ho => ?_
  have hh : D.Fixes old.handle := by rw [handle_found hi ho]; exact D.other _ hv
  have key : (if (!c.retain && !(D.ctx old).hasChildren) = true then destroyContext (D.state st) c.handle loc
      else .ok ((D.state st).setCtx i (D.ctx p))) =
      (if (!c.retain && !old.hasChildren) = true then destroyContext st c.handle loc
      else .ok (st.setCtx i p)).map D.state := by
    rw [Disguise.destroyContext hp st hv, Disguise.setCtx]
    show (if (!c.retain && !old.hasChildren) = true then _ else _) = _
    split <;> rfl
  have fix : ∀ t, (if (!c.retain && !old.hasChildren) = true then destroyContext st c.handle loc
      else .ok (st.setCtx i p)) = .ok t → ∀ now, t.contexts[i]? = some now → D.Fixes now.handle := by
    intro t ht now hn
    split at ht
    · unfold destroyContext at ht
      rcases hs : destroySet st c.handle loc with e | s
      · rw [hs] at ht; cases ht
      · rw [hs] at ht
        cases ht
        simp only [State.clear, List.getElem?_mapIdx, ho, Option.map_some, Option.some.injEq] at hn
        subst hn
        split
        · exact D.other _ hp.ones
        · exact hh
    · cases ht
      simp only [State.setCtx] at hn
      rw [List.getElem?_set_self (List.getElem?_eq_some_iff.1 ho).1] at hn
      cases hn
      exact hf
  rw [key]
  rcases hz : (if (!c.retain && !old.hasChildren) = true then destroyContext st c.handle loc
      else .ok (st.setCtx i p)) with e | t
  · exact fun w out _ => .inr ⟨e, w, out, st, rfl, rfl, .nil _⟩
  · have hfix := fix t hz
    intro w out hw
    refine Blind.modify (D := D) (ops := ops) (Q := Ends) (p := fun _ => t) (q := fun _ => D.state t)
      (f := fun _ => M.okOr t.contexts[i]? .panic >>= fun now => do
        writeAt 0 (exportHdrBytes cfg.profile Handle.invalid now.handle r.exportedCdi r.certSize)
        pure (exportHdrSize + r.certSize.toNat))
      (g := fun _ => M.okOr (D.state t).contexts[i]? .panic >>= fun now => do
        writeAt 0 (exportHdrBytes cfg.profile Handle.invalid now.handle r.exportedCdi r.certSize)
        pure (exportHdrSize + r.certSize.toNat)) rfl (Blind.slot _ _ fun now hn => ?_) w out hw
    rw [Disguise.ctx_fixed (hfix now hn)]
    exact .reply _ _

theorem blind_child (hp : Private V) (c : DeriveCmd cfg) (tl : U32) (i : Nat) (p : Context cfg) {p' : Context cfg}
    (hf : D.Fixes p'.handle) :
    Blind D ops Ends (deriveChild ops c tl i p p') (deriveChild ops c tl i (D.ctx p) (D.ctx p')) st := by
  unfold deriveChild
  refine Blind.get ?_
  rw [Disguise.nextInactive, Disguise.safeToMakeChild hp]
  refine (Blind.okOr _ _).same fun k => (Blind.failIf _ _).same fun _ => (blind_pick hp _).bind ?_
  rintro h _ t ⟨⟨rfl, rfl⟩, hh⟩
  have e : (Context.new.activate (deriveArgs c tl i (D.ctx p) h) : Context cfg) =
      D.ctx (Context.new.activate (deriveArgs c tl i p h)) := by
    exact (Disguise.ctx_fixed (c := (Context.new.activate (deriveArgs c tl i p h) : Context cfg)) (by exact hh)).symm
  rw [e]
  refine (blind_addTci _ _ _).bind ?_
  rintro ch _ t' ⟨⟨rfl, rfl⟩, _⟩
  refine Blind.lifted _ fun kids _ => ?_
  refine Blind.modify ?_ ?_
  · rw [← Disguise.setCtx, ← Disguise.setCtx]; rfl
  · rw [Disguise.ctx_fixed hf]; exact .reply _ _

theorem blind_derive (hp : Private V) (c : DeriveCmd cfg) (hv : ¬ V c.handle) (loc : U32) :
    Blind D ops Ends (deriveCtx (ops.env cfg) c loc) (deriveCtx (ops.env cfg) c loc) st := by
  unfold deriveCtx
  refine Blind.get ?_
  rw [Disguise.findActive st hv]
  refine (Blind.failIf _ _).same fun _ => Blind.lifted _ fun i hi => Blind.slot _ _ fun p hp' => ?_
  refine (Blind.failIf _ _).same fun _ => .ite (blind_recursive hp _ _ _ _) ?_
  rw [Disguise.typeUnique]
  refine Blind.lifted _ fun u _ => (Blind.failIf _ _).same fun _ => (blind_parent hp c p).bind ?_
  rintro p1 _ t ⟨rfl, rfl, hf⟩
  exact .ite (blind_export hp c hv hi hf) (blind_child hp _ _ _ _ hf)

theorem blind_update (hp : Private V) (c : UpdateCmd cfg) (hv : ¬ V c.parentHandle) (loc : U32) :
    Blind D ops Ends (updateCtx ops c loc) (updateCtx ops c loc) st := by
  unfold updateCtx
  refine (Blind.failIf _ _).same fun _ => Blind.get ?_
  rw [Disguise.findActive st hv]
  refine Blind.lifted _ fun i _ => Blind.slot _ _ fun p _ => ?_
  rw [Disguise.findChildOfType]
  refine (Blind.okOr _ _).same fun k => Blind.slot _ _ fun ch _ => (blind_addTci ch _ _).bind ?_
  rintro ch1 _ t ⟨⟨rfl, rfl⟩, _⟩
  refine (blind_roll hp p).bind ?_
  rintro p1 _ t' ⟨rfl, rfl, hf⟩
  refine Blind.modify (Disguise.setCtx _ _ _) ?_
  refine (blind_roll hp ch1).bind ?_
  rintro ch2 _ t'' ⟨rfl, rfl, hf2⟩
  refine Blind.modify (Disguise.setCtx _ _ _) ?_
  rw [Disguise.ctx_fixed hf, Disguise.ctx_fixed hf2]
  exact .reply _ _

theorem blind_certify (hp : Private V) (c : CertifyCmd) (hv : ¬ V c.handle) (loc : U32) :
    Blind D ops Ends (certifyKey (ops.env cfg) c loc) (certifyKey (ops.env cfg) c loc) st := by
  unfold certifyKey
  refine Blind.get ?_
  rw [Disguise.findActive st hv]
  refine Blind.lifted _ fun i _ => Blind.slot _ _ fun ctx _ => ?_
  refine (Blind.failIf _ _).same fun _ => (Blind.failIf _ _).same fun _ => (Blind.failIf _ _).same fun _ =>
    (Blind.failIf _ _).same fun _ => Blind.lifted _ fun kind _ => ?_
  refine (blind_cert _ (certifyArgs st c loc) (by exact hv) _).same fun r => (blind_roll hp ctx).bind ?_
  rintro c2 _ t ⟨rfl, rfl, hf⟩
  refine Blind.modify (Disguise.setCtx _ _ _) ?_
  rw [Disguise.ctx_fixed hf]
  exact (Blind.okOr _ _).same fun hdr => .reply _ _

theorem blind_signWith (i : Nat) (label : Bytes) (d : SignData) :
    Blind D ops (Stays st) (signWith ops i label d) (signWith ops i label d) st :=
  (blind_measure i).same fun _ => (Blind.crypto _).same fun _ => (Blind.crypto _).same fun _ => Blind.crypto _

theorem blind_sign (hp : Private V) (c : SignCmd) (hv : ¬ V c.handle) (loc : U32) :
    Blind D ops Ends (signCmd ops c loc) (signCmd ops c loc) st := by
  unfold signCmd
  refine Blind.lifted _ fun data _ => Blind.get ?_
  rw [Disguise.findActive st hv]
  refine Blind.lifted _ fun i _ => Blind.slot _ _ fun ctx _ => ?_
  refine (Blind.failIf _ _).same fun _ => (blind_signWith _ _ _).same fun sig => (blind_roll hp ctx).bind ?_
  rintro c2 _ t ⟨rfl, rfl, hf⟩
  refine Blind.modify (Disguise.setCtx _ _ _) ?_
  rw [Disguise.ctx_fixed hf]
  exact .reply _ _

/-- Every command that does not use the handles in `V`. -/
theorem blind_exec (hp : Private V) (c : Cmd cfg) (hc : Ignorant V c) (loc : U32) :
    Blind D ops Ends (exec (ops.env cfg) c loc) (exec (ops.env cfg) c loc) st := by
  cases c with
  | getProfile => exact Blind.get ((blind_profile _).same fun b => .reply _ _)
  | init f => exact blind_init hp f loc
  | derive c => exact blind_derive hp c (hc _ rfl) loc
  | certify c => exact blind_certify hp c (hc _ rfl) loc
  | sign c => exact blind_sign hp c (hc _ rfl) loc
  | rotate c => exact blind_rotate hp c (hc _ rfl) loc
  | destroy h => exact blind_destroy hp (hc _ rfl) loc
  | chain c => exact (Blind.failIf _ _).same fun _ => (Blind.platform _).same fun x => .reply _ _
  | update c => exact blind_update hp c (hc _ rfl) loc

theorem Blind.split {x y : M cfg σ α} (h : Blind D ops Ends x y st) {w : σ} (hw : Avoids ops V w) (out : Bytes) :
    y ⟨D.state st, w, out⟩ = ((x ⟨st, w, out⟩).1, ⟨D.state (x ⟨st, w, out⟩).2.st, (x ⟨st, w, out⟩).2.w,
      (x ⟨st, w, out⟩).2.out⟩) ∧ OpCalls ops w (x ⟨st, w, out⟩).2.w := by
  rcases h w out hw with ⟨a, b, w', out', t, h1, h2, hc, rfl⟩ | ⟨e, w', out', t, h1, h2, hc⟩
  · rw [h1, h2]; exact ⟨rfl, hc⟩
  · rw [h1, h2]; exact ⟨rfl, hc⟩

end Dpe
