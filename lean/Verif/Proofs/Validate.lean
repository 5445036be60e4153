import Verif.Model.Validate
import Verif.Spec.Valid
import Verif.Proofs.Destroy
import Mathlib.Tactic.SplitIfs
import Mathlib.Tactic.Tauto
/-
Analysis of the validator: a successful run establishes every rule, a failing run names a
violated one.
-/
namespace Dpe
variable {cfg : Cfg} {st : State cfg} {α β : Type}

/-- Outcome of a validator step: on success `P`, on failure a genuine violation. -/
def Res (st : State cfg) (r : Except Err α) (P : α → Prop) : Prop :=
  match r with
  | .ok a => P a
  | .error e => ∃ v, e = .validation v ∧ Violates st v

theorem Res.ok {a : α} {P : α → Prop} (h : P a) : Res st (.ok a) P := h

theorem Res.err {v : ValErr} {P : α → Prop} (h : Violates st v) : Res st (vErr v : Except Err α) P :=
  ⟨v, rfl, h⟩

theorem Res.bind {r : Except Err α} {f : α → Except Err β} {P : α → Prop} {Q : β → Prop}
    (h : Res st r P) (h2 : ∀ a, P a → Res st (f a) Q) : Res st (r >>= f) Q := by
  cases r with
  | ok a => exact h2 a h
  | error e => exact h

theorem Res.mono {r : Except Err α} {P Q : α → Prop} (h : Res st r P) (h2 : ∀ a, P a → Q a) :
    Res st r Q := by
  cases r with
  | ok a => exact h2 a h
  | error e => exact h

theorem Res.ite {c : Prop} [Decidable c] {v : ValErr} {r : Except Err α} {P : α → Prop}
    (h1 : c → Violates st v) (h2 : ¬ c → Res st r P) : Res st (if c then vErr v else r) P := by
  by_cases h : c
  · rw [if_pos h]; exact .err (h1 h)
  · rw [if_neg h]; exact h2 h

theorem Res.forM {l : List α} {f : α → Except Err PUnit} {P : α → Prop}
    (h : ∀ a ∈ l, Res st (f a) fun _ => P a) : Res st (l.forM f) fun _ => ∀ a ∈ l, P a := by
  induction l with
  | nil => exact .ok (fun a ha => by cases ha)
  | cons a l ih =>
    refine (h a (by simp)).bind fun _ ha => ?_
    refine (ih fun b hb => h b (by simp [hb])).mono fun _ hl => ?_
    intro b hb
    rcases List.mem_cons.mp hb with rfl | hb
    · exact ha
    · exact hl b hb

theorem Res.foldIdx {l : List α} {f : β → α × Nat → Except Err β} {P : Nat → β → Prop} (k : Nat)
    (h : ∀ i a b, l[i]? = some a → P (k + i) b → Res st (f b (a, k + i)) (P (k + i + 1))) :
    ∀ b, P k b → Res st ((l.zipIdx k).foldlM f b) (P (k + l.length)) := by
  induction l generalizing k with
  | nil => intro b hb; exact .ok hb
  | cons a l ih =>
    intro b hb
    rw [List.zipIdx_cons, List.foldlM_cons]
    refine (h 0 a b rfl hb).bind fun b' hb' => ?_
    have e : k + (a :: l).length = k + 1 + l.length := by simp; omega
    rw [e]
    refine ih (k + 1) ?_ b' hb'
    intro i a' b'' hi hP
    have e2 : k + 1 + i = k + (i + 1) := by omega
    rw [e2] at hP ⊢
    exact h (i + 1) a' b'' (by simpa using hi) hP

theorem Res.fold {l : List α} {f : β → α → Except Err β} {P : Nat → β → Prop} (k : Nat)
    (h : ∀ i a b, l[i]? = some a → P (k + i) b → Res st (f b a) (P (k + i + 1))) :
    ∀ b, P k b → Res st (l.foldlM f b) (P (k + l.length)) := by
  induction l generalizing k with
  | nil => intro b hb; exact .ok hb
  | cons a l ih =>
    intro b hb
    rw [List.foldlM_cons]
    refine (h 0 a b rfl hb).bind fun b' hb' => ?_
    have e : k + (a :: l).length = k + 1 + l.length := by simp; omega
    rw [e]
    refine ih (k + 1) ?_ b' hb'
    intro i a' b'' hi hP
    have e2 : k + 1 + i = k + (i + 1) := by omega
    rw [e2] at hP ⊢
    exact h (i + 1) a' b'' (by simpa using hi) hP

/-! ### The checks of one slot -/

/-- The support rule for slot `i`. -/
def SupportOk (st : State cfg) (i : Nat) : Prop :=
  ((st.at i).ctype = .simulation → simBit st.support = true) ∧
  ((st.at i).usesDice = true → diceBit st.support = true) ∧
  ((st.at i).usesInfo = true → infoBit st.support = true) ∧
  ((st.at i).parentIdx ≠ ROOT → (st.at i).allowX509 = true → x509Bit st.support = true)

theorem checkSupport_res (i : Nat) : Res st (checkSupport st (st.at i)) fun _ => SupportOk st i := by
  unfold checkSupport
  refine .ite (fun h => ?_) fun h1 => .ite (fun h => ?_) fun h2 => .ite (fun h => ?_) fun h3 =>
    .ite (fun h => ?_) fun h4 => .ok ?_
  · simp at h; exact ⟨i, h.2, Bool.eq_false_iff.1 h.1⟩
  · simp at h; exact ⟨i, h.2, Bool.eq_false_iff.1 h.1⟩
  · simp at h; exact ⟨i, h.2, Bool.eq_false_iff.1 h.1⟩
  · simp at h; exact ⟨i, h.1.1, h.2, Bool.eq_false_iff.1 h.1.2⟩
  · simp at h1 h2 h3 h4
    refine ⟨fun h => ?_, fun h => ?_, fun h => ?_, fun h h' => ?_⟩
    · by_contra hc; exact h1 (by simpa using hc) h
    · by_contra hc; have := h2 (by simpa using hc); simp [h] at this
    · by_contra hc; have := h3 (by simpa using hc); simp [h] at this
    · by_contra hc; have := h4 h (by simpa using hc); simp [h'] at this

theorem validateInactive_res {i : Nat} (hi : ¬ Live st i) :
    Res st (validateInactive (st.at i)) fun _ => (st.at i).parentIdx = ROOT ∧
      (∀ j, ¬ Lists st i j) ∧ (st.at i).tci = Tci.new ∧ (st.at i).usesDice = false ∧
      (st.at i).allowX509 = false ∧ (st.at i).usesInfo = false := by
  unfold validateInactive
  refine .ite (fun h => ?_) fun h1 => .ite (fun h => ?_) fun h2 => .ite (fun h => ?_) fun h3 =>
    .ite (fun h => ?_) fun h4 => .ok ?_
  · simp at h; exact ⟨i, hi, h⟩
  · have : (st.at i).children ≠ 0 := by simpa [Context.hasChildren] using h
    obtain ⟨j, hj⟩ := children_ne_zero.mp this
    exact ⟨i, j, hi, hj⟩
  · exact ⟨i, hi, h⟩
  · simp at h; exact ⟨i, hi, by tauto⟩
  · simp at h1 h4
    refine ⟨h1, ?_, by simpa using h3, h4.1.1, h4.1.2, h4.2⟩
    intro j hj
    exact h2 (by simpa [Context.hasChildren] using children_ne_zero.mpr ⟨j, hj⟩)

/-- The link rule for a live slot `i`. -/
def LinksOk (st : State cfg) (i : Nat) : Prop :=
  ((st.at i).parentIdx ≠ ROOT → Live st (st.at i).parentIdx ∧ Lists st (st.at i).parentIdx i) ∧
  ∀ j, Lists st i j → Live st j ∧ (st.at j).parentIdx = i

theorem checkParent_res {i : Nat} (hi : Live st i) :
    Res st (checkParent st i (st.at i)) fun _ => (st.at i).parentIdx ≠ ROOT →
      Live st (st.at i).parentIdx ∧ Lists st (st.at i).parentIdx i := by
  unfold checkParent
  refine .ite (fun h => ?_) fun h1 => ?_
  · simp at h; exact ⟨i, hi, h.2, h.1⟩
  by_cases hr : (st.at i).parentIdx = ROOT
  · simp only [hr, bne_self_eq_false, Bool.false_eq_true, if_false]
    exact .ok fun h => absurd rfl h
  · rw [if_pos (by simpa using hr)]
    have hlt : (st.at i).parentIdx < cfg.maxHandles := by
      by_contra hc
      exact h1 (by simp [hr]; omega)
    rw [getElem?_of_lt hlt]
    refine .ite (fun h => ?_) fun h2 => .ite (fun h => ?_) fun h3 => .ok fun _ => ?_
    · exact ⟨i, hi, hlt, by unfold Live; simpa using h⟩
    · rw [hasChild_eq] at h
      refine .inl ⟨i, hi, hlt, fun hl => ?_⟩
      simp [lt_of_live hi, show (st.at (st.at i).parentIdx).children.getLsbD i = true from hl] at h
    · refine ⟨by unfold Live; simpa using h2, ?_⟩
      rw [hasChild_eq] at h3
      simp [lt_of_live hi] at h3
      exact h3

theorem checkChild_res {i j : Nat} (hi : Live st i) (hl : Lists st i j) :
    Res st (checkChild st i j) fun _ => Live st j ∧ (st.at j).parentIdx = i := by
  unfold checkChild
  by_cases hj : j < cfg.maxHandles
  · rw [getElem?_of_lt hj]
    refine .ite (fun h => ?_) fun h1 => .ite (fun h => ?_) fun h2 => .ok ?_
    · exact ⟨i, j, hi, hl, hj, by unfold Live; simpa using h⟩
    · exact .inr ⟨i, j, hi, by unfold Live; simpa using h1, hl, by simpa using h⟩
    · exact ⟨by unfold Live; simpa using h1, by simpa using h2⟩
  · rw [getElem?_of_ge (by omega)]
    exact .err ⟨i, j, hi, hl, by omega⟩

theorem checkLinks_res {i : Nat} (hi : Live st i) :
    Res st (checkLinks st i) fun _ => LinksOk st i := by
  unfold checkLinks
  rw [getElem?_of_lt (lt_of_live hi)]
  refine (checkParent_res hi).bind fun _ hp => ?_
  have hm : ∀ j, j ∈ flagsIter (st.at i).children 64 ↔ Lists st i j := by
    intro j
    rw [flagsIter_eq _ _ (by omega)]
    simp only [List.mem_filter, List.mem_range, Lists]
    constructor
    · exact fun h => h.2
    · intro h
      refine ⟨?_, h⟩
      by_contra hc
      rw [BitVec.getLsbD_of_ge _ _ (by omega)] at h
      cases h
  refine (Res.forM (P := fun j => Live st j ∧ (st.at j).parentIdx = i) fun j hj =>
    checkChild_res hi ((hm j).mp hj)).mono fun _ h => ?_
  exact ⟨hp, fun j hj => h j ((hm j).mpr hj)⟩

/-- Everything the validator establishes about one slot. -/
structure SlotOk (st : State cfg) (i : Nat) : Prop where
  support : SupportOk st i
  blank : ¬ Live st i → (st.at i).parentIdx = ROOT ∧
      (∀ j, ¬ Lists st i j) ∧ (st.at i).tci = Tci.new ∧ (st.at i).usesDice = false ∧
      (st.at i).allowX509 = false ∧ (st.at i).usesInfo = false
  init : (st.at i).state = .active → (st.at i).ctype = .normal → st.hasInitialized = true
  links : Live st i → LinksOk st i
  retired : (st.at i).state = .retired → ∃ j, Lists st i j
  loc : (st.at i).locality = (st.at i).tci.locality

theorem validateSlot_res (i : Nat) : Res st (validateSlot st i (st.at i)) fun _ => SlotOk st i := by
  unfold validateSlot
  refine (checkSupport_res i).bind fun _ hs => ?_
  have tail : ∀ (P : Prop), ((st.at i).locality = (st.at i).tci.locality → P) →
      Res st (if (st.at i).locality != (st.at i).tci.locality then vErr .localityMismatch
        else .ok ()) fun _ => P := by
    intro P hP
    refine .ite (fun h => ?_) fun h => .ok ?_
    · exact ⟨i, by simpa using h⟩
    · exact hP (by simpa using h)
  unfold validateByState
  cases hst : (st.at i).state with
  | inactive =>
    have hi : ¬ Live st i := by unfold Live; simp [hst]
    refine (validateInactive_res hi).bind fun _ hb => ?_
    exact tail _ fun hl => ⟨hs, fun _ => hb, fun h => (by rw [hst] at h; cases h),
      fun h => absurd h hi, fun h => (by rw [hst] at h; cases h), hl⟩
  | active =>
    have hi : Live st i := by unfold Live; simp [hst]
    refine Res.bind (P := fun _ => ((st.at i).ctype = .normal → st.hasInitialized = true) ∧
      LinksOk st i) ?_ fun _ h => ?_
    · refine .ite (fun h => ?_) fun h1 => (checkLinks_res hi).mono fun _ hl => ⟨fun hn => ?_, hl⟩
      · simp at h; exact ⟨i, hst, h.1, h.2⟩
      · by_contra hc; exact h1 (by simp [hn]; simpa using hc)
    · exact tail _ fun hl => ⟨hs, fun hn => absurd hi hn, fun _ => h.1, fun _ => h.2,
        fun h => (by rw [hst] at h; cases h), hl⟩
  | retired =>
    have hi : Live st i := by unfold Live; simp [hst]
    refine Res.bind (P := fun _ => LinksOk st i ∧ ∃ j, Lists st i j) ?_ fun _ h => ?_
    · refine (checkLinks_res hi).bind fun _ hl => .ite (fun h => ?_) fun h => .ok ⟨hl, ?_⟩
      · refine ⟨i, hst, fun j hj => ?_⟩
        have : j ∈ childList cfg (st.at i).children :=
          (mem_childList ..).mpr ⟨lt_of_live (hl.2 j hj).1, hj⟩
        have hnil : childList cfg (st.at i).children = [] := by simpa using h
        rw [hnil] at this
        cases this
      · obtain ⟨j, hj⟩ := List.exists_mem_of_ne_nil (childList cfg (st.at i).children)
          (by intro hc; simp [hc] at h)
        exact ⟨j, ((mem_childList ..).mp hj).2⟩
    · exact tail _ fun hl => ⟨hs, fun hn => absurd hi hn, fun h => (by rw [hst] at h; cases h),
        fun _ => h.1, fun _ => h.2, hl⟩

/-! ### Handles per locality -/

/-- What the counters know after the first `k` slots. -/
structure Counted (st : State cfg) (loc : U32) (k d n : Nat) : Prop where
  d0 : d = 0 → ∀ i, i < k → (st.at i).state = .active → (st.at i).locality = loc →
    (st.at i).handle ≠ Handle.default
  d1 : 0 < d → ∃ i, i < k ∧ (st.at i).state = .active ∧ (st.at i).locality = loc ∧
    (st.at i).handle = Handle.default ∧ ∀ j, j < k → (st.at j).state = .active →
    (st.at j).locality = loc → (st.at j).handle = Handle.default → j = i
  n0 : n = 0 → ∀ i, i < k → (st.at i).state = .active → (st.at i).locality = loc →
    (st.at i).handle = Handle.default
  n1 : 0 < n → ∃ i, i < k ∧ (st.at i).state = .active ∧ (st.at i).locality = loc ∧
    (st.at i).handle ≠ Handle.default
  ok : ¬ (0 < d ∧ 0 < n)
  le : d ≤ 1

theorem countHandles_res (loc : U32) : ∀ (l : List (Context cfg)) (k d n : Nat),
    st.contexts.drop k = l → Counted st loc k d n →
    Res st (countHandles loc l d n) fun _ => ∃ d n, Counted st loc cfg.maxHandles d n := by
  intro l
  induction l with
  | nil =>
    intro k d n hk hc
    have hk : cfg.maxHandles ≤ k := by
      have := congrArg List.length hk; simp [st.len_eq] at this; omega
    have hact : ∀ i, (st.at i).state = .active → i < cfg.maxHandles := fun i h =>
      lt_of_live (live_of_active h)
    refine .ok ⟨d, n, fun h i hi => hc.d0 h i (by omega), fun h => ?_,
      fun h i hi => hc.n0 h i (by omega), fun h => ?_, hc.ok, hc.le⟩
    · obtain ⟨i, _, h2, h3, h4, h5⟩ := hc.d1 h
      exact ⟨i, hact i h2, h2, h3, h4, fun j hj => h5 j (by omega)⟩
    · obtain ⟨i, _, h2, h3⟩ := hc.n1 h
      exact ⟨i, hact i h2, h2, h3⟩
  | cons c l ih =>
    intro k d n hk hc
    have hkc : st.contexts[k]? = some c := by
      have := congrArg (·[0]?) hk
      simpa [List.getElem?_drop] using this
    have hkl : st.contexts.drop (k + 1) = l := by
      have := congrArg (List.drop 1) hk
      simpa [List.drop_drop] using this
    have hat : st.at k = c := at_of_getElem? hkc
    unfold countHandles
    by_cases hh : c.locality = loc ∧ c.state = .active
    · obtain ⟨h1, h2⟩ := hh
      by_cases hd : c.handle = Handle.default
      · have hde : c.handle.isDefault = true := by simp [Handle.isDefault, hd]
        simp only [h1, h2, hde, beq_self_eq_true, Bool.and_self, Bool.not_true, Bool.and_false,
          if_true, Bool.false_eq_true, if_false]
        refine .ite (fun h => ?_) fun h3 => .ite (fun h => ?_) fun h4 => ?_
        · obtain ⟨i, hi, a, b, e, _⟩ := hc.d1 (by omega)
          exact ⟨i, k, by omega, a, by rw [hat]; exact h2, by rw [hat, b, h1], e,
            by rw [hat]; exact hd⟩
        · simp at h
          obtain ⟨i, hi, a, b, e⟩ := hc.n1 h
          exact ⟨k, i, by rw [hat]; exact h2, a, by rw [hat, b, h1], by rw [hat]; exact hd, e⟩
        · have hn : n = 0 := by simpa using h4
          have hd0 : d = 0 := by omega
          refine ih (k + 1) (d + 1) n hkl ⟨fun h => by omega, fun _ => ?_, fun _ i hi a b => ?_,
            fun h => by omega, fun h => by omega, by omega⟩
          · refine ⟨k, by omega, by rw [hat]; exact h2, by rw [hat]; exact h1,
              by rw [hat]; exact hd, fun j hj a b e => ?_⟩
            by_cases hjk : j = k
            · exact hjk
            · exact absurd e (hc.d0 hd0 j (by omega) a b)
          · by_cases hik : i = k
            · rw [hik, hat]; exact hd
            · exact hc.n0 hn i (by omega) a b
      · have hde : c.handle.isDefault = false := by simp [Handle.isDefault, hd]
        simp only [h1, h2, hde, beq_self_eq_true, Bool.and_self, Bool.not_false, Bool.and_false,
          if_true, Bool.false_eq_true, if_false]
        refine .ite (fun h => ?_) fun h3 => .ite (fun h => ?_) fun h4 => ?_
        · have := hc.le; omega
        · simp at h
          obtain ⟨i, hi, a, b, e, _⟩ := hc.d1 h
          exact ⟨i, k, a, by rw [hat]; exact h2, by rw [hat, b, h1], e, by rw [hat]; exact hd⟩
        · have hd0 : d = 0 := by simpa using h4
          refine ih (k + 1) d (n + 1) hkl ⟨fun _ i hi a b => ?_, fun h => by omega,
            fun h => by omega, fun _ => ⟨k, by omega, by rw [hat]; exact h2,
              by rw [hat]; exact h1, by rw [hat]; exact hd⟩, fun h => by omega, by omega⟩
          by_cases hik : i = k
          · rw [hik, hat]; exact hd
          · exact hc.d0 hd0 i (by omega) a b
    · have hf : (c.locality == loc && c.state == .active) = false := by
        rw [Bool.eq_false_iff]; simpa using hh
      have hne : ∀ i, i < k + 1 → (st.at i).state = .active → (st.at i).locality = loc → i < k := by
        intro i hi a b
        by_cases hik : i = k
        · rw [hik, hat] at a b; exact absurd ⟨b, a⟩ hh
        · omega
      simp only [hf, Bool.false_and, Bool.false_eq_true, if_false]
      refine .ite (fun h => ?_) fun h3 => .ite (fun h => ?_) fun h4 => ?_
      · have := hc.le; omega
      · simp at h; exact absurd h hc.ok
      · refine ih (k + 1) d n hkl ⟨fun h i hi a b => hc.d0 h i (hne i hi a b) a b, fun h => ?_,
          fun h i hi a b => hc.n0 h i (hne i hi a b) a b, fun h => ?_, hc.ok, hc.le⟩
        · obtain ⟨i, hi, a, b, e, f⟩ := hc.d1 h
          exact ⟨i, by omega, a, b, e, fun j hj a' b' => f j (hne j hj a' b') a' b'⟩
        · obtain ⟨i, hi, a⟩ := hc.n1 h
          exact ⟨i, by omega, a⟩

/-- The rule about default contexts. -/
def AloneOk (st : State cfg) : Prop :=
  ∀ i j, (st.at i).state = .active → (st.at j).state = .active →
    (st.at i).locality = (st.at j).locality → (st.at i).handle = Handle.default → i = j

theorem checkLocalities_res : Res st (checkLocalities st) fun _ => AloneOk st := by
  unfold checkLocalities
  refine (Res.forM (P := fun c => ∃ d n, Counted st c.locality cfg.maxHandles d n)
    fun c _ => countHandles_res c.locality st.contexts 0 0 0 rfl
      ⟨fun _ i hi => by omega, fun h => by omega, fun _ i hi => by omega, fun h => by omega,
        fun h => by omega, by omega⟩).mono fun _ h => ?_
  intro i j hi hj hl hd
  obtain ⟨d, n, hc⟩ := h _ (at_mem (lt_of_live (live_of_active hi)))
  have h1 := lt_of_live (live_of_active hi)
  have h2 := lt_of_live (live_of_active hj)
  have hd0 : 0 < d := by
    by_contra hx
    exact hc.d0 (by omega) i h1 hi rfl hd
  have hn0 : n = 0 := by
    by_contra hx
    exact hc.ok ⟨hd0, by omega⟩
  obtain ⟨k, _, _, _, _, hk⟩ := hc.d1 hd0
  rw [hk i h1 hi rfl hd, hk j h2 hj hl.symm (hc.n0 hn0 j h2 hj hl.symm)]

/-- What the first phase establishes. -/
structure StateOk (st : State cfg) : Prop where
  marker : st.marker = State.magic ∧ st.version = State.currentVersion
  slot : ∀ i, i < cfg.maxHandles → SlotOk st i
  alone : AloneOk st

theorem validateState_res : Res st (validateState st) fun _ => StateOk st := by
  unfold validateState
  refine .ite (fun h => h) fun h1 => .ite (fun h => h) fun h2 => ?_
  refine (Res.forM (P := fun p => SlotOk st p.2) fun p hp => ?_).bind fun _ h =>
    checkLocalities_res.mono fun _ ha => ⟨⟨by simpa using h1, by simpa using h2⟩, fun i hi => ?_, ha⟩
  · obtain ⟨c, i⟩ := p
    have := List.mem_zipIdx_iff_getElem?.mp hp
    simp only at this ⊢
    rw [← at_of_getElem? this]
    exact validateSlot_res i
  · exact h (st.at i, i) (List.mem_zipIdx_iff_getElem?.mpr (getElem?_of_lt hi))

end Dpe
