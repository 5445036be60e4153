import Verif.Proofs.WF
import Mathlib.Tactic.Tauto
/-
Exactness of the descendant and retired-ancestor computations, and preservation of the
invariant by destruction.
-/
namespace Dpe
variable {cfg : Cfg} {σ : Type}

theorem Desc.head {st : State cfg} {i k j : Nat} (h : Lists st i k) (h2 : Desc st k j) :
    Desc st i j := by
  induction h2 with
  | child h3 => exact .step (.child h) h3
  | step _ h3 ih => exact .step ih h3

theorem Desc.cases_head {st : State cfg} {i j : Nat} (h : Desc st i j) :
    Lists st i j ∨ ∃ k, Lists st i k ∧ Desc st k j := by
  induction h with
  | child h => exact .inl h
  | step h1 h2 ih =>
    rcases ih with h | ⟨k, h3, h4⟩
    · exact .inr ⟨_, h, .child h2⟩
    · exact .inr ⟨k, h3, .step h4 h2⟩

theorem Desc.live {st : State cfg} (wf : WF st) {i j : Nat} (h : Desc st i j) : Live st j := by
  cases h with
  | child h => exact (wf.down _ _ h).1
  | step _ h => exact (wf.down _ _ h).1

theorem Lists.lt {st : State cfg} (wf : WF st) {i j : Nat} (h : Lists st i j) :
    j < cfg.maxHandles := lt_of_live (wf.down _ _ h).1

/-- The part of the invariant that concerns links. -/
structure Links (st : State cfg) : Prop where
  up : ∀ i, Live st i → (st.at i).parentIdx ≠ ROOT → Lists st (st.at i).parentIdx i
  down : ∀ i j, Lists st i j → Live st j ∧ (st.at j).parentIdx = i
  path : ∀ i, Live st i → ∃ l, Path st i l

theorem WF.links {st : State cfg} (wf : WF st) : Links st := ⟨wf.up, wf.down, wf.path⟩

theorem Forest.links {st : State cfg} (h : Forest st) : Links st :=
  ⟨fun i h1 h2 => (h.parent_lists i h1 h2).2.1, fun i j h1 => (h.child_live i j h1).2,
    fun i h1 => (h.acyclic i h1).imp fun _ h2 => h2.1⟩

theorem Lists.lt' {st : State cfg} (wf : Links st) {i j : Nat} (h : Lists st i j) :
    j < cfg.maxHandles := lt_of_live (wf.down _ _ h).1

theorem Path.cons_of_lists {st : State cfg} (wf : Links st) {i k : Nat} {l : List Nat}
    (hp : Path st i l) (h : Lists st i k) : Path st k (k :: l) := by
  obtain ⟨h1, h2⟩ := wf.down _ _ h
  refine .step h1 ?_ (by rw [h2]; exact hp)
  rw [h2]; rintro rfl; exact root_not_lt (lt_of_live hp.live)

theorem getDescendants_spec {st : State cfg} (wf : Links st) (fuel : Nat) : ∀ (i : Nat) (l : List Nat),
    Path st i l → cfg.maxHandles + 1 ≤ l.length + fuel →
    ∃ S, st.getDescendants fuel (st.at i) = .ok S ∧ ∀ j, S.getLsbD j = true ↔ Desc st i j := by
  induction fuel with
  | zero => intro i l hp hf; have := hp.length_le; omega
  | succ fuel ih =>
    intro i l hp hf
    have hlive : ((st.at i).state == .inactive) = false := by
      simpa [Live] using hp.live
    unfold State.getDescendants
    rw [hlive]
    simp only [Bool.false_eq_true, if_false]
    have fold : ∀ (ks : List Nat) (acc : Children), (∀ k ∈ ks, Lists st i k) →
        ∃ S, ks.foldlM (init := acc) (fun acc idx =>
          match st.contexts[idx]? with
          | none => (.error (.internal .descendantIndexOob) : Except Err Children)
          | some ctx => do
            let d ← st.getDescendants fuel ctx
            pure (addChildren acc d)) = .ok S ∧
          ∀ j, S.getLsbD j = true ↔ (acc.getLsbD j = true ∨ ∃ k ∈ ks, Desc st k j) := by
      intro ks
      induction ks with
      | nil => intro acc _; exact ⟨acc, rfl, by simp⟩
      | cons k ks ihk =>
        intro acc hks
        have hk := hks k List.mem_cons_self
        obtain ⟨d, hd1, hd2⟩ := ih k (k :: l) (hp.cons_of_lists wf hk) (by simp; omega)
        obtain ⟨S, hS1, hS2⟩ := ihk (addChildren acc d) (fun x hx => hks x (List.mem_cons_of_mem _ hx))
        refine ⟨S, ?_, ?_⟩
        · rw [List.foldlM_cons, getElem?_of_lt (hk.lt' wf)]
          simp only [hd1]
          exact hS1
        · intro j
          rw [hS2, getLsbD_addChildren]
          simp only [Bool.or_eq_true, hd2, List.mem_cons, exists_eq_or_imp, or_assoc]
    obtain ⟨S, h1, h2⟩ := fold (childList cfg (st.at i).children) (st.at i).children
      (fun k hk => ((mem_childList _ _ _).mp hk).2)
    refine ⟨S, h1, ?_⟩
    intro j
    rw [h2]
    constructor
    · rintro (h | ⟨k, hk, h⟩)
      · exact .child h
      · exact Desc.head ((mem_childList _ _ _).mp hk).2 h
    · intro h
      rcases h.cases_head with h | ⟨k, hk, h⟩
      · exact .inl h
      · exact .inr ⟨k, (mem_childList _ _ _).mpr ⟨hk.lt' wf, hk⟩, h⟩

theorem one_child_iff {st : State cfg} (wf : WF st) (p : Nat) :
    (childList cfg (st.at p).children).length = 1 ↔ ∃ c, ∀ k, Lists st p k ↔ k = c := by
  have hm : ∀ k, k ∈ childList cfg (st.at p).children ↔ Lists st p k := by
    intro k; rw [mem_childList]; exact ⟨fun h => h.2, fun h => ⟨Lists.lt wf h, h⟩⟩
  have hn := childList_nodup cfg (st.at p).children
  rw [List.length_eq_one_iff]
  constructor
  · rintro ⟨c, hc⟩
    exact ⟨c, fun k => by rw [← hm, hc]; simp⟩
  · rintro ⟨c, hc⟩
    refine ⟨c, ?_⟩
    simp only [← hm] at hc
    generalize childList cfg (st.at p).children = l at hc hn
    match l with
    | [] => simpa using hc c
    | [a] => have := (hc a).mp (by simp); rw [this]
    | a :: b :: t =>
      have h1 := (hc a).mp (by simp)
      have h2 := (hc b).mp (by simp)
      rw [h1, h2] at hn; simp at hn

theorem RetiredUp.ne_root {st : State cfg} {m j : Nat} (h : RetiredUp st m j) :
    (st.at m).parentIdx ≠ ROOT ∧ (st.at (st.at m).parentIdx).state = .retired ∧
      ∃ c, ∀ k, Lists st (st.at m).parentIdx k ↔ k = c := by
  induction h with
  | parent h1 h2 h3 => exact ⟨h1, h2, h3⟩
  | step _ _ _ _ ih => exact ih

theorem RetiredUp.retired {st : State cfg} {m j : Nat} (h : RetiredUp st m j) :
    (st.at j).state = .retired := by
  cases h <;> assumption

theorem RetiredUp.cases_head {st : State cfg} {m j : Nat} (h : RetiredUp st m j) :
    j = (st.at m).parentIdx ∨ RetiredUp st (st.at m).parentIdx j := by
  induction h with
  | parent h1 h2 h3 => exact .inl rfl
  | step _ h1 h2 h3 ih =>
    right
    rcases ih with rfl | h
    · exact .parent h1 h2 h3
    · exact .step h h1 h2 h3

theorem RetiredUp.head {st : State cfg} {m j : Nat}
    (h1 : (st.at m).parentIdx ≠ ROOT) (h2 : (st.at (st.at m).parentIdx).state = .retired)
    (h3 : ∃ c, ∀ k, Lists st (st.at m).parentIdx k ↔ k = c)
    (h : RetiredUp st (st.at m).parentIdx j) : RetiredUp st m j := by
  induction h with
  | parent h4 h5 h6 => exact .step (.parent h1 h2 h3) h4 h5 h6
  | step _ h4 h5 h6 ih => exact .step ih h4 h5 h6

theorem RetiredUp.trans {st : State cfg} {a b c : Nat} (h : RetiredUp st a b)
    (h' : RetiredUp st b c) : RetiredUp st a c := by
  induction h' with
  | parent h4 h5 h6 => exact .step h h4 h5 h6
  | step _ h4 h5 h6 ih => exact .step ih h4 h5 h6

theorem retiredChain_spec {st : State cfg} (wf : WF st) (fuel : Nat) : ∀ (m : Nat) (l : List Nat)
    (acc : Children), Path st m l → l.length ≤ fuel →
    ∃ S, retiredChain st fuel (st.at m).parentIdx acc = .ok S ∧
      ∀ j, S.getLsbD j = true ↔ (acc.getLsbD j = true ∨ RetiredUp st m j) := by
  induction fuel with
  | zero => intro m l acc hp hf; obtain ⟨t, rfl⟩ := hp.head; simp at hf
  | succ fuel ih =>
    intro m l acc hp hf
    unfold retiredChain
    by_cases hr : (st.at m).parentIdx = ROOT
    · refine ⟨acc, by rw [hr]; rfl, ?_⟩
      intro j
      constructor
      · exact .inl
      · rintro (h | h)
        · exact h
        · exact absurd hr h.ne_root.1
    · have hr' : ((st.at m).parentIdx == ROOT) = false := by simpa using hr
      rw [hr']
      simp only [Bool.false_eq_true, if_false]
      have hpar : Live st (st.at m).parentIdx := live_of_lists wf (wf.up m hp.live hr)
      rw [getElem?_of_lt (lt_of_live hpar)]
      simp only
      by_cases hc : (st.at (st.at m).parentIdx).state = .retired ∧
          (childList cfg (st.at (st.at m).parentIdx).children).length = 1
      · have hc2 := (one_child_iff wf _).mp hc.2
        rw [if_pos (by simp [hc.1, hc.2]), addChildBit_of_lt _ (lt_of_live hpar)]
        simp only
        cases hp with
        | root _ h => exact absurd h hr
        | @step _ l' h1 h2 h3 =>
          obtain ⟨S, hS1, hS2⟩ := ih (st.at m).parentIdx l'
            (acc ||| (1#64 <<< (st.at m).parentIdx)) h3 (by simp at hf; omega)
          refine ⟨S, hS1, ?_⟩
          intro j
          have h64 := cfg.le64
          rw [hS2, BitVec.getLsbD_or, getLsbD_one_shift _ _ (by have := lt_of_live hpar; omega)]
          simp only [Bool.or_eq_true, decide_eq_true_eq]
          constructor
          · rintro ((h | h) | h)
            · exact .inl h
            · rw [← h]; exact .inr (.parent hr hc.1 hc2)
            · exact .inr (.head hr hc.1 hc2 h)
          · rintro (h | h)
            · exact .inl (.inl h)
            · rcases h.cases_head with h | h
              · exact .inl (.inr h.symm)
              · exact .inr h
      · rw [if_neg (by simpa using hc)]
        refine ⟨acc, rfl, ?_⟩
        intro j
        constructor
        · exact .inl
        · rintro (h | h)
          · exact h
          · exact absurd ⟨h.ne_root.2.1, (one_child_iff wf _).mpr h.ne_root.2.2⟩ hc

/-- The slots destroyed together with `idx`. -/
def Doomed (st : State cfg) (idx j : Nat) : Prop := j = idx ∨ Desc st idx j ∨ RetiredUp st idx j

theorem destroySet_spec {st : State cfg} (wf : WF st) {h : Handle} {loc : U32} {idx : Nat}
    (hf : st.findActive h loc = .ok idx) :
    ∃ S, destroySet st h loc = .ok S ∧ ∀ j, S.getLsbD j = true ↔ Doomed st idx j := by
  obtain ⟨c, hc, hact, hloc, _, _⟩ := findActive_ok hf
  have e := at_of_getElem? hc
  subst e
  obtain ⟨l, hl⟩ := wf.path idx (live_of_active hact)
  obtain ⟨r, hr1, hr2⟩ := retiredChain_spec wf (cfg.maxHandles + 1) idx l 0 hl (by have := hl.length_le; omega)
  obtain ⟨d, hd1, hd2⟩ := getDescendants_spec wf.links (cfg.maxHandles + 1) idx l hl (by omega)
  unfold destroySet
  rw [hf]
  simp only [bind, Except.bind, hc, hloc, bne_self_eq_false, Bool.false_eq_true, if_false, hr1, hd1,
    addChildBit_of_lt _ (lt_of_getElem? hc), pure, Except.pure]
  refine ⟨_, rfl, ?_⟩
  intro j
  have h64 := cfg.le64
  have hlt := lt_of_getElem? hc
  rw [getLsbD_addChildren, BitVec.getLsbD_or, getLsbD_one_shift _ _ (by omega)]
  simp only [Bool.or_eq_true, decide_eq_true_eq, hd2, hr2, Doomed]
  simp only [BitVec.ofNat_eq_ofNat, BitVec.getLsbD_zero, Bool.false_eq_true, false_or]
  tauto

theorem destroySet_ok {st : State cfg} {h : Handle} {loc : U32} {S : Children}
    (hs : destroySet st h loc = .ok S) : ∃ idx, st.findActive h loc = .ok idx := by
  unfold destroySet at hs
  rcases hf : st.findActive h loc with e | idx
  · rw [hf] at hs; cases hs
  · exact ⟨idx, rfl⟩

theorem Doomed.live {st : State cfg} (wf : WF st) {idx j : Nat} (hidx : Live st idx)
    (h : Doomed st idx j) : Live st j := by
  rcases h with rfl | h | h
  · exact hidx
  · exact h.live wf
  · exact live_of_retired h.retired

theorem Doomed.down {st : State cfg} (wf : WF st) {idx i j : Nat} (hidx : Live st idx)
    (h : Doomed st idx i) (hl : Lists st i j) : Doomed st idx j := by
  rcases h with rfl | h | h
  · exact .inr (.inl (.child hl))
  · exact .inr (.inl (.step h hl))
  · cases h with
    | parent h1 h2 h3 =>
      obtain ⟨c, hc⟩ := h3
      have := (hc _).mp (wf.up _ hidx h1)
      have := (hc _).mp hl
      left; omega
    | step h0 h1 h2 h3 =>
      obtain ⟨c, hc⟩ := h3
      have h4 := (hc _).mp (wf.up _ (live_of_retired h0.retired) h1)
      have h5 := (hc _).mp hl
      right; right; rw [h5, ← h4]; exact h0

theorem chain_linear {st : State cfg} {idx a b : Nat}
    (ha : a = idx ∨ RetiredUp st idx a) (hb : RetiredUp st idx b) :
    a = b ∨ RetiredUp st a b ∨ RetiredUp st b a := by
  rcases ha with rfl | ha
  · exact .inr (.inl hb)
  · induction hb with
    | parent h1 h2 h3 =>
      rcases ha.cases_head with h | h
      · exact .inl h
      · exact .inr (.inr h)
    | step h0 h1 h2 h3 ih =>
      rcases ih with rfl | h | h
      · exact .inr (.inl (.parent h1 h2 h3))
      · exact .inr (.inl (.step h h1 h2 h3))
      · rcases h.cases_head with h | h
        · exact .inl h
        · exact .inr (.inr h)

/-- A surviving retired context keeps a surviving child. -/
theorem survivor_child {st : State cfg} (wf : WF st) {idx i : Nat}
    (hret : (st.at i).state = .retired) (hi : ¬ Doomed st idx i) :
    ∃ j, Lists st i j ∧ ¬ Doomed st idx j := by
  by_contra hno
  have hall : ∀ j, Lists st i j → Doomed st idx j := by
    intro j hj; by_contra h; exact hno ⟨j, hj, h⟩
  -- doomed children are on the upward chain
  have hup : ∀ j, Lists st i j → j = idx ∨ RetiredUp st idx j := by
    intro j hj
    rcases hall j hj with h | h | h
    · exact .inl h
    · exfalso
      have hp := (wf.down _ _ hj).2
      cases h with
      | child h => exact hi (.inl (hp.symm.trans (wf.down _ _ h).2))
      | step h0 h => exact hi (.inr (.inl ((hp.symm.trans (wf.down _ _ h).2) ▸ h0)))
    · exact .inr h
  have hnot : ∀ a b, Lists st i a → (a = idx ∨ RetiredUp st idx a) → ¬ RetiredUp st a b := by
    intro a b ha hu hr
    obtain ⟨h1, h2, h3⟩ := hr.ne_root
    have hra : RetiredUp st a (st.at a).parentIdx := .parent h1 h2 h3
    rw [(wf.down _ _ ha).2] at hra
    rcases hu with rfl | hu
    · exact hi (.inr (.inr hra))
    · exact hi (.inr (.inr (hu.trans hra)))
  obtain ⟨a, ha⟩ := wf.retired i hret
  have huniq : ∀ k, Lists st i k ↔ k = a := by
    intro k
    constructor
    · intro hk
      rcases hup k hk with e1 | e1
      · rcases hup a ha with e2 | e2
        · rw [e1, e2]
        · rcases chain_linear (.inl e1) e2 with h | h | h
          · exact h
          · exact absurd h (hnot _ _ hk (.inl e1))
          · exact absurd h (hnot _ _ ha (.inr e2))
      · rcases chain_linear (hup a ha) e1 with h | h | h
        · exact h.symm
        · exact absurd h (hnot _ _ ha (hup a ha))
        · exact absurd h (hnot _ _ hk (.inr e1))
    · rintro rfl; exact ha
  have hp := (wf.down _ _ ha).2
  have hlt := lt_of_live (live_of_lists wf ha)
  have hra : RetiredUp st a (st.at a).parentIdx :=
    .parent (by rw [hp]; rintro rfl; exact root_not_lt hlt) (by rw [hp]; exact hret)
      ⟨a, by rw [hp]; exact huniq⟩
  exact hnot a _ ha (hup a ha) hra

theorem at_clear_doomed {st : State cfg} (wf : WF st) {idx : Nat} (hidx : Live st idx) {S : Children}
    (hS : ∀ j, S.getLsbD j = true ↔ Doomed st idx j) (i : Nat) :
    (Doomed st idx i → (st.clear S).at i = (st.at i).destroy) ∧
    (¬ Doomed st idx i → (st.clear S).at i =
      { st.at i with children := removeChildren (st.at i).children S }) := by
  rw [at_clear]
  constructor
  · intro h
    rw [if_pos ⟨lt_of_live (h.live wf hidx), (hS i).mpr h⟩]; rfl
  · intro h
    rw [if_neg]
    rintro ⟨_, h2⟩; exact h ((hS i).mp h2)

theorem WF.clear {st : State cfg} (wf : WF st) {idx : Nat} (hidx : Live st idx) {S : Children}
    (hS : ∀ j, S.getLsbD j = true ↔ Doomed st idx j) : WF (st.clear S) := by
  have hd := fun i => (at_clear_doomed wf hidx hS i).1
  have hk := fun i => (at_clear_doomed wf hidx hS i).2
  generalize hst' : st.clear S = st' at *
  have hsup : st'.support = st.support := by subst hst'; rfl
  have hini : st'.hasInitialized = st.hasInitialized := by subst hst'; rfl
  have hlists : ∀ i j, Lists st' i j ↔ (Lists st i j ∧ ¬ Doomed st idx i ∧ ¬ Doomed st idx j) := by
    intro i j
    by_cases h : Doomed st idx i
    · unfold Lists; rw [hd i h]; simp [Context.destroy, h]
    · unfold Lists; rw [hk i h]
      simp only [getLsbD_removeChildren, Bool.and_eq_true, Bool.not_eq_true', h, not_false_eq_true,
        true_and, ← hS, Bool.not_eq_true]
  have hlv : ∀ i, Live st' i ↔ (Live st i ∧ ¬ Doomed st idx i) := by
    intro i
    by_cases h : Doomed st idx i
    · unfold Live; rw [hd i h]; simp [Context.destroy, h]
    · unfold Live; rw [hk i h]; simp [h]
  have hct : ∀ i, (st'.at i).ctype = (st.at i).ctype := by
    intro i
    by_cases h : Doomed st idx i
    · rw [hd i h]; rfl
    · rw [hk i h]
  constructor
  · intro i hi
    by_cases h : Doomed st idx i
    · rw [hd i h]; exact ⟨rfl, rfl, rfl, rfl, rfl, rfl, rfl⟩
    · rw [hk i h] at hi ⊢
      obtain ⟨h1, h2, h3⟩ := wf.clean i hi
      refine ⟨h1, ?_, h3⟩
      simp only [h2]
      apply BitVec.eq_of_getLsbD_eq; intro j _
      rw [getLsbD_removeChildren]; simp
  · intro i hi hn
    obtain ⟨h1, h2⟩ := (hlv i).mp hi
    rw [hlists]
    rw [hk i h2] at hn ⊢
    have h3 := wf.up i h1 hn
    exact ⟨h3, fun h => h2 (h.down wf hidx h3), h2⟩
  · intro i j hl
    obtain ⟨h1, h2, h3⟩ := (hlists i j).mp hl
    rw [hlv, hk j h3]
    exact ⟨⟨(wf.down i j h1).1, h3⟩, (wf.down i j h1).2⟩
  · intro i hi
    obtain ⟨h1, h2⟩ := (hlv i).mp hi
    obtain ⟨l, hl⟩ := wf.path i h1
    refine ⟨l, hl.transfer (P := fun j => ¬ Doomed st idx j) ?_ h2⟩
    intro j hj hji
    refine ⟨(hlv j).mpr ⟨hj, hji⟩, by rw [hk j hji], ?_⟩
    intro hn h
    exact hji (h.down wf hidx (wf.up j hj hn))
  · intro i hi
    have h2 := ((hlv i).mp (live_of_retired hi)).2
    rw [hk i h2] at hi
    obtain ⟨j, hj, hj2⟩ := survivor_child wf hi h2
    exact ⟨j, (hlists i j).mpr ⟨hj, h2, hj2⟩⟩
  · intro i j hj
    rw [hct, hct]; exact wf.kind i j ((hlists i j).mp hj).1
  · intro i j hi hj
    obtain ⟨h1, h2⟩ := (hlv i).mp hi.1
    obtain ⟨h3, h4⟩ := (hlv j).mp hj.1
    have hp1 := hi.2; have hp2 := hj.2
    rw [hk i h2] at hp1; rw [hk j h4] at hp2
    rw [hct, hct]
    exact wf.norm i j ⟨h1, hp1⟩ ⟨h3, hp2⟩
  · intro i hi
    rw [hini, hct]; exact wf.inited i ((hlv i).mp hi).1
  · intro i; rw [hsup, hct]; exact wf.sim i
  · intro i hn
    rw [hsup]
    by_cases h : Doomed st idx i
    · rw [hd i h] at hn; cases hn
    · rw [hk i h] at hn; exact wf.info i hn
  · intro i hn
    rw [hsup]
    by_cases h : Doomed st idx i
    · rw [hd i h] at hn; cases hn
    · rw [hk i h] at hn; exact wf.dice i hn
  · intro i hp hn
    rw [hsup]
    by_cases h : Doomed st idx i
    · rw [hd i h] at hn; cases hn
    · rw [hk i h] at hn hp; exact wf.x509 i hp hn
  · intro i
    by_cases h : Doomed st idx i
    · rw [hd i h]; rfl
    · rw [hk i h]; exact wf.tloc i

theorem WF.no_self {st : State cfg} (wf : WF st) (i : Nat) : ¬ Lists st i i := by
  intro h
  obtain ⟨hl, hp⟩ := wf.down i i h
  obtain ⟨l, hl2⟩ := wf.path i hl
  cases hl2 with
  | root _ hr =>
    rw [hp] at hr; subst hr; exact root_not_lt (lt_of_live hl)
  | @step _ l' h1 h2 h3 =>
    rw [hp] at h3
    have := Path.unique h3 (.step h1 h2 (by rw [hp]; exact h3))
    have := congrArg List.length this
    simp at this

theorem WF.step {st st' : State cfg} (wf : WF st) (h : SStep st st') : WF st' := by
  cases h with
  | init f loc idx hd h1 h2 h3 h4 h5 => exact wf.init h1 h2 h3 h4
  | handle idx hd hlt hact _ =>
    exact wf.similar hlt (live_of_active hact) (by simp [hact]) (by simp [hact])
      rfl rfl rfl rfl rfl rfl rfl rfl
  | measure idx v m hd hlt hact _ =>
    exact wf.similar hlt (live_of_active hact) (by simp [hact]) (by simp [hact])
      rfl rfl rfl rfl rfl rfl rfl rfl
  | retire idx hd hlt hact hc _ =>
    refine wf.similar hlt (live_of_active hact) (by simp) (fun _ => ?_)
      rfl rfl rfl rfl rfl rfl rfl rfl
    simp only [Context.hasChildren, bne_iff_ne] at hc
    exact children_ne_zero.mp hc
  | destroy h loc set hs =>
    obtain ⟨idx, hf⟩ := destroySet_ok hs
    obtain ⟨S, h1, h2⟩ := destroySet_spec wf hf
    rw [hs] at h1; cases h1
    obtain ⟨c, hc, hact, _⟩ := findActive_ok hf
    exact wf.clear (live_of_active (by rw [at_of_getElem? hc]; exact hact)) h2
  | child c loc idx k hd v p' kids hlt hact hf h1 h2 h3 h4 h5 h6 h7 h8 h9 =>
    exact wf.child hlt hact h1 h5 h6 h9

theorem WF.steps {st st' : State cfg} (wf : WF st) (h : SSteps st st') : WF st' := by
  induction h with
  | refl => exact wf
  | tail _ h ih => exact ih.step h

end Dpe
