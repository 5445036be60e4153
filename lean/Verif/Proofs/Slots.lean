import Verif.Spec.Forest
import Verif.Proofs.Effects
/-
Slot access lemmas and atomic state steps.
-/
namespace Dpe
variable {cfg : Cfg} {σ : Type}

theorem at_of_getElem? {st : State cfg} {i : Nat} {c : Context cfg}
    (h : st.contexts[i]? = some c) : st.at i = c := by unfold State.at; rw [h]; rfl

theorem lt_of_getElem? {st : State cfg} {i : Nat} {c : Context cfg}
    (h : st.contexts[i]? = some c) : i < cfg.maxHandles := by
  rw [List.getElem?_eq_some_iff] at h
  rw [← st.len_eq]; exact h.1

theorem getElem?_of_lt {st : State cfg} {i : Nat} (h : i < cfg.maxHandles) :
    st.contexts[i]? = some (st.at i) := by
  have : i < st.contexts.length := by rw [st.len_eq]; exact h
  unfold State.at
  rw [List.getElem?_eq_getElem this]; rfl

theorem getElem?_of_ge {st : State cfg} {i : Nat} (h : cfg.maxHandles ≤ i) :
    st.contexts[i]? = none := by
  rw [List.getElem?_eq_none_iff, st.len_eq]; exact h

theorem at_of_ge {st : State cfg} {i : Nat} (h : cfg.maxHandles ≤ i) : st.at i = Context.new := by
  unfold State.at; rw [getElem?_of_ge h]; rfl

theorem lt_of_live {st : State cfg} {i : Nat} (h : Live st i) : i < cfg.maxHandles := by
  rcases Nat.lt_or_ge i cfg.maxHandles with h1 | h1
  · exact h1
  · exfalso; apply h; rw [at_of_ge h1]; rfl

theorem mem_contexts {st : State cfg} {c : Context cfg} :
    c ∈ st.contexts ↔ ∃ i, i < cfg.maxHandles ∧ st.at i = c := by
  rw [List.mem_iff_getElem?]
  constructor
  · rintro ⟨i, h⟩; exact ⟨i, lt_of_getElem? h, at_of_getElem? h⟩
  · rintro ⟨i, h, rfl⟩; exact ⟨i, getElem?_of_lt h⟩

theorem at_mem {st : State cfg} {i : Nat} (h : i < cfg.maxHandles) : st.at i ∈ st.contexts :=
  mem_contexts.mpr ⟨i, h, rfl⟩

theorem root_not_lt : ¬ ROOT < cfg.maxHandles := by
  have := cfg.le64; unfold ROOT; omega

theorem at_setCtx {st : State cfg} {i : Nat} (hi : i < cfg.maxHandles) (c : Context cfg) (j : Nat) :
    (st.setCtx i c).at j = if j = i then c else st.at j := by
  have hl : i < st.contexts.length := by rw [st.len_eq]; exact hi
  unfold State.at State.setCtx
  simp only [List.getElem?_set]
  by_cases h : j = i
  · subst h; simp [hl]
  · have : ¬ i = j := fun e => h e.symm
    simp [h, this]

theorem at_setCtx_self {st : State cfg} {i : Nat} (hi : i < cfg.maxHandles) (c : Context cfg) :
    (st.setCtx i c).at i = c := by rw [at_setCtx hi]; simp

theorem at_setCtx_ne {st : State cfg} {i j : Nat} (hi : i < cfg.maxHandles) (c : Context cfg)
    (h : j ≠ i) : (st.setCtx i c).at j = st.at j := by rw [at_setCtx hi]; simp [h]

@[simp] theorem setCtx_support (st : State cfg) (i : Nat) (c : Context cfg) :
    (st.setCtx i c).support = st.support := rfl
@[simp] theorem setCtx_flags (st : State cfg) (i : Nat) (c : Context cfg) :
    (st.setCtx i c).flags = st.flags := rfl
@[simp] theorem setCtx_marker (st : State cfg) (i : Nat) (c : Context cfg) :
    (st.setCtx i c).marker = st.marker := rfl
@[simp] theorem setCtx_version (st : State cfg) (i : Nat) (c : Context cfg) :
    (st.setCtx i c).version = st.version := rfl
@[simp] theorem setCtx_hasInitialized (st : State cfg) (i : Nat) (c : Context cfg) :
    (st.setCtx i c).hasInitialized = st.hasInitialized := rfl

theorem at_clear (st : State cfg) (s : Children) (i : Nat) :
    (st.clear s).at i =
      if i < cfg.maxHandles ∧ s.getLsbD i = true then
        ({ st.at i with children := removeChildren (st.at i).children s } : Context cfg).destroy
      else { st.at i with children := removeChildren (st.at i).children s } := by
  rcases Nat.lt_or_ge i cfg.maxHandles with h | h
  · have hl : i < st.contexts.length := by rw [st.len_eq]; exact h
    unfold State.at State.clear
    simp only [List.getElem?_mapIdx, List.getElem?_eq_getElem hl, Option.map_some, Option.getD_some,
      hasChild_eq, h, decide_true, Bool.true_and, true_and]
  · rw [at_of_ge h, at_of_ge h, if_neg (by omega)]
    have : removeChildren (Context.new (cfg := cfg)).children s = 0 := by
      apply BitVec.eq_of_getLsbD_eq; intro j _
      rw [getLsbD_removeChildren]; simp [Context.new]
    rw [this]; rfl

theorem at_new (cfg : Cfg) (support : U32) (flags : BitVec 16) (i : Nat) :
    (State.new cfg support flags).at i = Context.new := by
  rcases Nat.lt_or_ge i cfg.maxHandles with h | h
  · unfold State.at State.new
    simp [h]
  · exact at_of_ge h

theorem Fresh.ne_at {st : State cfg} {h : Handle} (hf : Fresh st h) {i : Nat}
    (hi : i < cfg.maxHandles) : (st.at i).handle ≠ h := hf.2 _ (at_mem hi)

/-- What a rotated, rolled or default-assigned handle may be. -/
def HandleOk (st : State cfg) (idx : Nat) (h : Handle) : Prop :=
  Fresh st h ∨ (h = Handle.default ∧ (st.at idx).handle = Handle.default) ∨
  (h = Handle.default ∧ ∀ j, (st.at j).state = .active →
    (st.at j).locality = (st.at idx).locality → j = idx)

theorem Rolled.handleOk {st : State cfg} {idx : Nat} {h : Handle}
    (hr : Rolled st (st.at idx).handle h) : HandleOk st idx h := by
  rcases hr with ⟨h1, h2⟩ | ⟨_, h2⟩
  · exact .inr (.inl ⟨h2, h1⟩)
  · exact .inl h2

/-- Atomic changes of the state made by commands. -/
inductive SStep (st : State cfg) : State cfg → Prop
  | init (f loc : U32) (idx : Nat) (hd : Handle) :
      (initDefaultFlag f && st.hasInitialized) = false →
      (initSimFlag f && !simBit st.support) = false →
      (initDefaultFlag f ^^ initSimFlag f) = true →
      st.nextInactive = some idx →
      ((initDefaultFlag f = true ∧ hd = Handle.default) ∨
        (initDefaultFlag f = false ∧ Fresh st hd)) →
      SStep st (initPost st f loc idx hd)
  | handle (idx : Nat) (hd : Handle) :
      idx < cfg.maxHandles → (st.at idx).state = .active → HandleOk st idx hd →
      SStep st (st.setCtx idx { st.at idx with handle := hd })
  | measure (idx : Nat) (v m : BArr cfg.tciSize) (hd : Handle) :
      idx < cfg.maxHandles → (st.at idx).state = .active → Rolled st (st.at idx).handle hd →
      SStep st (st.setCtx idx
        { st.at idx with tci := { (st.at idx).tci with cumulative := v, current := m }, handle := hd })
  | retire (idx : Nat) (h : Handle) :
      idx < cfg.maxHandles → (st.at idx).state = .active → (st.at idx).hasChildren = true →
      h = Handle.invalid →
      SStep st (st.setCtx idx { st.at idx with state := .retired, handle := h })
  | destroy (h : Handle) (loc : U32) (set : Children) :
      destroySet st h loc = .ok set → SStep st (st.clear set)
  | child (c : DeriveCmd cfg) (loc : U32) (idx k : Nat) (hd : Handle) (v : BArr cfg.tciSize)
      (p' : Context cfg) (kids : Children) :
      idx < cfg.maxHandles → (st.at idx).state = .active →
      st.findActive c.handle loc = .ok idx →
      deriveUnsupported st.support c = false →
      deriveBadArgs (st.at idx) c = false → c.recursive = false →
      typeUnique st c.tciType (childList cfg (st.at idx).children) = .ok true →
      ParentUpd st c (st.at idx) p' → st.nextInactive = some k →
      safeToMakeChild st c idx (c.target loc) = true →
      ((c.makeDefault = true ∧ hd = Handle.default) ∨ (c.makeDefault = false ∧ Fresh st hd)) →
      p'.addChild k = .ok kids →
      SStep st ((st.setCtx k (childOf c (c.target loc) idx (st.at idx) hd v)).setCtx idx
        { p' with children := kids })

/-- Any number of atomic steps. -/
inductive SSteps (st : State cfg) : State cfg → Prop
  | refl : SSteps st st
  | tail {st1 st2 : State cfg} : SSteps st st1 → SStep st1 st2 → SSteps st st2

theorem SStep.one {st st' : State cfg} (h : SStep st st') : SSteps st st' := .tail .refl h

theorem nonDefaultExists_false {st : State cfg} {loc : U32} {idx : Nat}
    (h : nonDefaultExists st loc idx = false) :
    ∀ j, (st.at j).state = .active → (st.at j).locality = loc →
      (st.at j).handle ≠ Handle.default → j = idx := by
  intro j h1 h2 h3
  have hlt : j < cfg.maxHandles := lt_of_live (by rw [Live, h1]; simp)
  unfold nonDefaultExists at h
  rw [List.any_eq_false] at h
  have hm : (st.at j, j) ∈ st.contexts.zipIdx := by
    rw [List.mem_zipIdx_iff_getElem?]; exact getElem?_of_lt hlt
  have := h _ hm
  simp only [h1, h2, beq_self_eq_true, Bool.true_and, isDefault_false.mpr h3, Bool.not_false,
    bne_iff_ne, ne_eq] at this
  exact Classical.not_not.mp this

theorem okOpt_none {st : State cfg} {loc : U32} {h : Handle}
    (hh : okOpt (st.findActive h loc) = none) :
    ∀ j, (st.at j).state = .active → (st.at j).locality = loc → (st.at j).handle ≠ h := by
  intro j h1 h2 h3
  have hlt : j < cfg.maxHandles := lt_of_live (by rw [Live, h1]; simp)
  rcases hf : st.findActive h loc with e | i
  · exact (findActive_err hf).1 _ (at_mem hlt) ⟨h1, h2, h3⟩
  · rw [hf] at hh; cases hh

theorem findChildOfType_mem {st : State cfg} {ty : U32} {i k : Nat}
    (h : findChildOfType st ty (childList cfg (st.at i).children) = some k) :
    Lists st i k ∧ (st.at k).state = .active ∧ (st.at k).tci.tciType = ty ∧
    ∀ j, Lists st i j → (st.at j).state = .active → (st.at j).tci.tciType = ty → k ≤ j := by
  unfold findChildOfType at h
  have h1 := List.mem_of_find?_eq_some h
  have h2 := List.find?_some h
  rw [mem_childList] at h1
  rw [getElem?_of_lt h1.1] at h2
  simp only [Bool.and_eq_true, beq_iff_eq] at h2
  refine ⟨h1.2, h2.1, h2.2, fun j h3 h4 h5 => ?_⟩
  obtain ⟨_, as, bs, hl, hn⟩ := List.find?_eq_some_iff_append.1 h
  have hj : j < cfg.maxHandles := lt_of_live (by rw [Live, h4]; simp)
  have hm : j ∈ childList cfg (st.at i).children := (mem_childList _ _ _).2 ⟨hj, h3⟩
  have hs : (childList cfg (st.at i).children).Pairwise (· < ·) := by
    rw [childList_eq]; exact List.Pairwise.filter _ List.pairwise_lt_range
  rw [hl] at hm hs
  rcases List.mem_append.1 hm with hm | hm
  · have := hn j hm
    rw [getElem?_of_lt hj] at this
    simp [h4, h5] at this
  · rcases List.mem_cons.1 hm with rfl | hm
    · exact Nat.le_refl _
    · exact Nat.le_of_lt ((List.pairwise_cons.1 (List.pairwise_append.1 hs).2.1).1 j hm)

theorem exec_steps {env : Env cfg σ} {c : Cmd cfg} {loc : U32} {s s' : Sys cfg σ}
    {r : Except Err Nat} (hself : ∀ i, ¬ Lists s.st i i) (h : exec env c loc s = (r, s')) :
    SSteps s.st s'.st := by
  cases c with
  | getProfile =>
    rcases getProfileCmd_inv h with hu | ⟨_, _, _, hs, _⟩
    · rw [hu.2.1]; exact .refl
    · rw [hs]; exact .refl
  | chain c =>
    rcases getCertChain_inv h with hu | ⟨_, _, _, _, _, hs, _⟩
    · rw [hu.2.1]; exact .refl
    · rw [hs]; exact .refl
  | init f =>
    rcases initCtx_inv h with hu | ⟨idx, hd, h1, h2, h3, h4, h5, _⟩
    · rw [hu.2.1]; exact .refl
    · rw [h5]
      rw [Bool.or_eq_false_iff] at h1
      exact SStep.one (.init f loc idx hd h1.1 h1.2 h2 h3 h4)
  | rotate c =>
    rcases rotateCtx_inv h with hu | ⟨idx, old, hd, h1, h2, h3, h4, h5, _⟩
    · rw [hu.2.1]; exact .refl
    · rw [h5]
      obtain ⟨c0, hc, hact, hloc, _, _⟩ := findActive_ok h2
      have e := at_of_getElem? h3
      rw [h3] at hc; cases hc
      subst e
      refine SStep.one (.handle idx hd (lt_of_getElem? h3) hact ?_)
      rcases h4 with ⟨_, rfl, h6, h7⟩ | ⟨_, h6⟩
      · refine .inr (.inr ⟨rfl, ?_⟩)
        intro j hj hl
        rw [hloc] at hl
        exact nonDefaultExists_false h7 j hj hl (okOpt_none h6 j hj hl)
      · exact .inl h6
  | destroy hd =>
    rcases destroyCtx_inv h with hu | ⟨set, h1, h2, _⟩
    · rw [hu.2.1]; exact .refl
    · rw [h2]; exact SStep.one (.destroy hd loc set h1)
  | certify c =>
    rcases certifyKey_inv h with hu | ⟨idx, ctx, hd, kind, res, w1, win, h1, h2, _, _, _, _, hr, hs, _⟩
    · rw [hu.2]; exact .refl
    · rw [hs]
      obtain ⟨c0, hc, hact, _⟩ := findActive_ok h1
      have e := at_of_getElem? h2
      rw [h2] at hc; cases hc
      subst e
      exact SStep.one (.handle idx hd (lt_of_getElem? h2) hact hr.handleOk)
  | sign c =>
    rcases signCmd_inv h with hu | ⟨data, idx, ctx, hd, sig, w1, _, h1, h2, _, _, hr, hs, _⟩
    · rw [hu.2.1]; exact .refl
    · rw [hs]
      obtain ⟨c0, hc, hact, _⟩ := findActive_ok h1
      have e := at_of_getElem? h2
      rw [h2] at hc; cases hc
      subst e
      exact SStep.one (.handle idx hd (lt_of_getElem? h2) hact hr.handleOk)
  | derive c =>
    rcases deriveCtx_inv h with hu | ⟨idx, p, h1, h2, h3, h4, h5⟩
    · rw [hu.2]; exact .refl
    · obtain ⟨c0, hc, hact, _⟩ := findActive_ok h2
      have e := at_of_getElem? h3
      have hlt := lt_of_getElem? h3
      rw [h3] at hc; cases hc
      subst e
      rcases h5 with ⟨_, _, _, v, hd, w1, _, hr, hs, _⟩ | ⟨hrec, hu, p', hp, h5⟩
      · rw [hs]; exact SStep.one (.measure idx v c.data hd hlt hact hr)
      · rcases h5 with ⟨_, _, _, _, _, _, _, _, _, st', now, _, _, _, _, h6, _, hs, _⟩ |
          ⟨_, k, hd, v, _, w1, w2, kids, h6, _, _, h7, h8, _, h9, hs, _⟩
        · rw [hs]
          rcases h6 with ⟨_, _, h6⟩ | ⟨h6, rfl⟩
          · unfold destroyContext at h6
            rcases hset : destroySet s.st c.handle loc with e | set
            · rw [hset] at h6; cases h6
            · rw [hset] at h6; cases h6
              exact SStep.one (.destroy c.handle loc set hset)
          · rcases hp with ⟨_, hh, hr, rfl⟩ | ⟨hret, rfl⟩
            · exact SStep.one (.handle idx hh hlt hact hr.handleOk)
            · rw [hret] at h6
              exact SStep.one (.retire idx _ hlt hact (by simpa using h6) rfl)
        · rw [hs]
          exact SStep.one (.child c loc idx k hd v p' kids hlt hact h2 h1 h4 hrec hu hp h6 h7 h8 h9)
  | update c =>
    rcases updateCtx_inv h with hu | ⟨idx, p, k, ch, v, hp, w1, _, h2, h3, h4, h5, hact', _, hr, h6⟩
    · rw [hu.2.1]; exact .refl
    · obtain ⟨c0, hc, hact, _⟩ := findActive_ok h2
      have e := at_of_getElem? h3
      have hlt := lt_of_getElem? h3
      rw [h3] at hc; cases hc
      subst e
      have hstep1 := SStep.handle (st := s.st) idx hp hlt hact hr.handleOk
      rcases h6 with ⟨_, _, _, hs⟩ | ⟨hc, hr2, hs, _⟩
      · rw [hs]; exact hstep1.one
      · rw [hs]
        refine .tail hstep1.one ?_
        have hk := lt_of_getElem? h5
        have e5 := at_of_getElem? h5
        have hne : k ≠ idx := by
          rintro rfl
          exact hself k (findChildOfType_mem h4).1
        have e6 : (s.st.setCtx idx { s.st.at idx with handle := hp }).at k = ch := by
          rw [at_setCtx_ne hlt _ hne, e5]
        have := SStep.measure (st := s.st.setCtx idx { s.st.at idx with handle := hp }) k v c.data hc hk
          (by rw [e6]; exact hact') (by rw [e6]; exact hr2)
        rw [e6] at this
        exact this

end Dpe
