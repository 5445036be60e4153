import Verif.Spec.Service
import Verif.Proofs.Destroy
/-
The part of the invariant that the validator does not check: sibling types are distinct and
privileges are inherited from the parent.
-/
namespace Dpe
variable {cfg : Cfg}

/-- Slot `i` keeps its type and privileges. -/
def KeepsRights (st st' : State cfg) (i : Nat) : Prop :=
  (st'.at i).tci.tciType = (st.at i).tci.tciType ∧ (st'.at i).allowX509 = (st.at i).allowX509 ∧
  (st'.at i).allowExport = (st.at i).allowExport ∧
  (st'.at i).allowRecursive = (st.at i).allowRecursive

theorem KeepsRights.of_eq {st st' : State cfg} {i : Nat} (h : st'.at i = st.at i) :
    KeepsRights st st' i := by rw [KeepsRights, h]; exact ⟨rfl, rfl, rfl, rfl⟩

/-- No link appears, and linked contexts keep their type and privileges. -/
theorem Rights.keep {st st' : State cfg} (rt : Rights st)
    (h : ∀ i j, Lists st' i j → Lists st i j ∧ KeepsRights st st' i ∧ KeepsRights st st' j) :
    Rights st' := by
  constructor
  · intro i j k hj hk
    obtain ⟨a1, _, a2, _⟩ := h i j hj
    obtain ⟨b1, _, b2, _⟩ := h i k hk
    rw [a2, b2]; exact rt.sib i j k a1 b1
  · intro i j hj
    obtain ⟨a, ⟨_, b, _⟩, ⟨_, c, _⟩⟩ := h i j hj
    rw [b, c]; exact rt.px509 i j a
  · intro i j hj
    obtain ⟨a, ⟨_, _, b, _⟩, ⟨_, _, c, _⟩⟩ := h i j hj
    rw [b, c]; exact rt.pexport i j a
  · intro i j hj
    obtain ⟨a, ⟨_, _, _, b⟩, ⟨_, _, _, c⟩⟩ := h i j hj
    rw [b, c]; exact rt.prec i j a

theorem Rights.none {st : State cfg} (h : ∀ i j, ¬ Lists st i j) : Rights st :=
  ⟨fun i j _ hj => absurd hj (h i j), fun i j hj => absurd hj (h i j),
    fun i j hj => absurd hj (h i j), fun i j hj => absurd hj (h i j)⟩

/-- One slot rewritten, with its type, privileges and children. -/
theorem Rights.slot {st : State cfg} (rt : Rights st) {idx : Nat} (hidx : idx < cfg.maxHandles)
    {c : Context cfg} (h1 : c.children = (st.at idx).children)
    (h2 : c.tci.tciType = (st.at idx).tci.tciType) (h3 : c.allowX509 = (st.at idx).allowX509)
    (h4 : c.allowExport = (st.at idx).allowExport)
    (h5 : c.allowRecursive = (st.at idx).allowRecursive) : Rights (st.setCtx idx c) := by
  have hat := at_setCtx (st := st) hidx c
  have hk : ∀ i, KeepsRights st (st.setCtx idx c) i := by
    intro i
    by_cases e : i = idx
    · subst e; rw [KeepsRights, hat, if_pos rfl]; exact ⟨h2, h3, h4, h5⟩
    · exact .of_eq (by rw [hat, if_neg e])
  refine rt.keep fun i j hl => ⟨?_, hk i, hk j⟩
  unfold Lists at hl ⊢
  rw [hat] at hl
  split at hl
  · subst_vars; rw [← h1]; exact hl
  · exact hl

theorem Rights.init {st : State cfg} (wf : WF st) (rt : Rights st) {f loc : U32} {idx : Nat}
    {hd : Handle} (h4 : st.nextInactive = some idx) : Rights (initPost st f loc idx hd) := by
  obtain ⟨hidx, hin⟩ := nextInactive_at h4
  have hat := at_initPost (st := st) (f := f) (loc := loc) (hd := hd) hidx
  refine rt.keep fun i j hl => ?_
  have hi : i ≠ idx := by
    rintro rfl
    rw [Lists, hat, if_pos rfl] at hl
    simp [Context.activate] at hl
  have hl' : Lists st i j := by rw [Lists, hat, if_neg hi] at hl; exact hl
  have hj : j ≠ idx := by
    rintro rfl
    exact not_lists_to_inactive wf hin i hl'
  exact ⟨hl', .of_eq (by rw [hat, if_neg hi]), .of_eq (by rw [hat, if_neg hj])⟩

theorem Rights.clear {st : State cfg} (wf : WF st) (rt : Rights st) {idx : Nat}
    (hidx : Live st idx) {S : Children}
    (hS : ∀ j, S.getLsbD j = true ↔ Doomed st idx j) : Rights (st.clear S) := by
  have hd := fun i => (at_clear_doomed wf hidx hS i).1
  have hk := fun i => (at_clear_doomed wf hidx hS i).2
  refine rt.keep fun i j hl => ?_
  have hi : ¬ Doomed st idx i := by
    intro h
    rw [Lists, hd i h] at hl
    simp [Context.destroy] at hl
  rw [Lists, hk i hi] at hl
  simp only [getLsbD_removeChildren, Bool.and_eq_true, Bool.not_eq_true'] at hl
  have hj : ¬ Doomed st idx j := by
    intro h
    rw [(hS j).mpr h] at hl
    exact absurd hl.2 (by simp)
  refine ⟨hl.1, ?_, ?_⟩
  · rw [KeepsRights, hk i hi]; exact ⟨rfl, rfl, rfl, rfl⟩
  · rw [KeepsRights, hk j hj]; exact ⟨rfl, rfl, rfl, rfl⟩

theorem Rights.child {st : State cfg} (wf : WF st) (rt : Rights st) {c : DeriveCmd cfg} {tl : U32}
    {idx k : Nat} {hd : Handle} {v : BArr cfg.tciSize} {p' : Context cfg} {kids : Children}
    (hidx : idx < cfg.maxHandles) (hact : (st.at idx).state = .active)
    (h2 : deriveBadArgs (st.at idx) c = false)
    (h3 : typeUnique st c.tciType (childList cfg (st.at idx).children) = .ok true)
    (h4 : ParentUpd st c (st.at idx) p') (h5 : st.nextInactive = some k)
    (h6 : p'.addChild k = .ok kids) :
    Rights ((st.setCtx k (childOf c tl idx (st.at idx) hd v)).setCtx idx
      { p' with children := kids }) := by
  obtain ⟨hk, hin⟩ := nextInactive_at h5
  have hki : k ≠ idx := by rintro rfl; rw [hact] at hin; cases hin
  have hat := at_child (st := st) hidx hk (childOf c tl idx (st.at idx) hd v)
    { p' with children := kids }
  generalize hst' : (st.setCtx k (childOf c tl idx (st.at idx) hd v)).setCtx idx
    { p' with children := kids } = st' at *
  obtain ⟨ph, ps, rfl, hps⟩ := h4.facts hact
  obtain ⟨_, hkids⟩ := addChild_ok h6
  simp only at hkids
  have atk : st'.at k = childOf c tl idx (st.at idx) hd v := by rw [hat, if_neg hki, if_pos rfl]
  have ati : st'.at idx = { st.at idx with handle := ph, state := ps, children := kids } := by
    rw [hat, if_pos rfl]
  have keeps : ∀ {j}, j ≠ k → KeepsRights st st' j := by
    intro j h
    by_cases e : j = idx
    · rw [KeepsRights, e, ati]; exact ⟨rfl, rfl, rfl, rfl⟩
    · exact .of_eq (by rw [hat, if_neg e, if_neg h])
  have hlists : ∀ i j, Lists st' i j →
      (Lists st i j ∧ KeepsRights st st' i ∧ KeepsRights st st' j) ∨ (i = idx ∧ j = k) := by
    intro i j hl
    have hik : i ≠ k := by
      rintro rfl
      rw [Lists, atk] at hl
      simp [childOf, Context.activate] at hl
    have hl' : Lists st i j ∨ (i = idx ∧ j = k) := by
      by_cases hi : i = idx
      · subst hi
        rw [Lists, ati] at hl
        simp only [hkids, Bool.or_eq_true, decide_eq_true_eq] at hl
        exact hl.imp id fun h => ⟨rfl, h.symm⟩
      · rw [Lists, hat, if_neg hi, if_neg hik] at hl
        exact .inl hl
    rcases hl' with h | h
    · exact .inl ⟨h, keeps hik, keeps fun e => not_lists_to_inactive wf hin i (e ▸ h)⟩
    · exact .inr h
  simp only [deriveBadArgs, Bool.or_eq_false_iff, Bool.and_eq_false_iff, Bool.not_eq_false'] at h2
  constructor
  · have htk : (st'.at k).tci.tciType = c.tciType := by
      rw [atk]; simp [childOf, Context.activate, deriveArgs]
    have huq : ∀ j, Lists st idx j → (st.at j).tci.tciType ≠ c.tciType := by
      intro j hj
      refine typeUnique_true h3 j ?_
      rw [mem_childList]; exact ⟨lt_of_live (wf.down _ _ hj).1, hj⟩
    intro i j l hj hl he
    rcases hlists i j hj with ⟨hj, _, kj, _⟩ | ⟨rfl, rfl⟩
    · rcases hlists i l hl with ⟨hl, _, kl, _⟩ | ⟨rfl, rfl⟩
      · rw [kj, kl] at he; exact rt.sib i j l hj hl he
      · rw [kj, htk] at he; exact absurd he (huq j hj)
    · rcases hlists _ l hl with ⟨hl, _, kl, _⟩ | ⟨_, rfl⟩
      · rw [kl, htk] at he; exact absurd he.symm (huq l hl)
      · rfl
  · intro i j hj
    rcases hlists i j hj with ⟨hj, ⟨_, ki, _⟩, ⟨_, kj, _⟩⟩ | ⟨rfl, rfl⟩
    · rw [ki, kj]; exact rt.px509 i j hj
    · rw [atk, ati]; simp [childOf, Context.activate, deriveArgs]
      intro hx
      have := h2.1.1.1.1.1.1.1.1
      simpa [hx] using this
  · intro i j hj
    rcases hlists i j hj with ⟨hj, ⟨_, _, ki, _⟩, ⟨_, _, kj, _⟩⟩ | ⟨rfl, rfl⟩
    · rw [ki, kj]; exact rt.pexport i j hj
    · rw [atk, ati]; simp [childOf, Context.activate, deriveArgs]
  · intro i j hj
    rcases hlists i j hj with ⟨hj, ⟨_, _, _, ki⟩, ⟨_, _, _, kj⟩⟩ | ⟨rfl, rfl⟩
    · rw [ki, kj]; exact rt.prec i j hj
    · rw [atk, ati]; simp [childOf, Context.activate, deriveArgs]

theorem Rights.step {st st' : State cfg} (wf : WF st) (rt : Rights st) (h : SStep st st') :
    Rights st' := by
  cases h with
  | init f loc idx hd h1 h2 h3 h4 h5 => exact rt.init wf h4
  | handle idx hd hlt hact _ => exact rt.slot hlt rfl rfl rfl rfl rfl
  | measure idx v m hd hlt hact _ => exact rt.slot hlt rfl rfl rfl rfl rfl
  | retire idx hd hlt hact hc _ => exact rt.slot hlt rfl rfl rfl rfl rfl
  | destroy h loc set hs =>
    obtain ⟨idx, hf⟩ := destroySet_ok hs
    obtain ⟨S, h1, h2⟩ := destroySet_spec wf hf
    rw [hs] at h1; cases h1
    obtain ⟨c, hc, hact, _⟩ := findActive_ok hf
    exact rt.clear wf (live_of_active (by rw [at_of_getElem? hc]; exact hact)) h2
  | child c loc idx k hd v p' kids hlt hact hf h1 h2 h3 h4 h5 h6 h7 h8 h9 =>
    exact rt.child wf hlt hact h2 h4 h5 h6 h9

theorem Rights.steps {st st' : State cfg} (wf : WF st) (rt : Rights st) (h : SSteps st st') :
    Rights st' := by
  induction h with
  | refl => exact rt
  | tail h0 h ih => exact ih.step (wf.steps h0) h

end Dpe
