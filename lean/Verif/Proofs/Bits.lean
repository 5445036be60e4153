import Verif.Model.Context
import Mathlib.Tactic.ByContra
import Mathlib.Tactic.SplitIfs
import Mathlib.Tactic.Tauto
/-
Child bitmaps: the iterator yields exactly the set bits, in increasing order.
-/
namespace Dpe

theorem trailingZeros_spec (x : BitVec 64) (h : x ≠ 0) :
    trailingZeros x < 64 ∧ x.getLsbD (trailingZeros x) = true ∧
      ∀ j, j < trailingZeros x → x.getLsbD j = false := by
  unfold trailingZeros
  cases hf : (List.range 64).find? (fun i => x.getLsbD i) with
  | none =>
    exfalso; apply h
    rw [List.find?_eq_none] at hf
    apply BitVec.eq_of_getLsbD_eq
    intro i hi
    have := hf i (by simpa using hi)
    simpa using this
  | some k =>
    rw [List.find?_range_eq_some] at hf
    obtain ⟨h1, h2, h3⟩ := hf
    refine ⟨by simpa using h2, by simpa using h1, ?_⟩
    intro j hj
    have := h3 j (by simpa using hj)
    simpa using this

theorem getLsbD_one_shift (i j : Nat) (hi : i < 64) :
    (1#64 <<< i).getLsbD j = decide (i = j) := by
  rw [BitVec.getLsbD_shiftLeft]
  by_cases h : i = j
  · subst h; simp [hi]
  · by_cases h2 : j < i
    · simp [h, h2]
    · have : j - i ≠ 0 := by omega
      simp [h, this]

theorem flagsIterGo_eq (fuel : Nat) : ∀ (k n : Nat) (x : BitVec 64), k + n = 64 → n ≤ fuel →
    (∀ j, j < k → x.getLsbD j = false) →
    flagsIterGo fuel x = (List.range' k n).filter (fun i => x.getLsbD i) := by
  induction fuel with
  | zero =>
    intro k n x hk hn hx
    have : n = 0 := by omega
    subst this; simp [flagsIterGo]
  | succ fuel ih =>
    intro k n x hk hn hx
    unfold flagsIterGo
    by_cases h0 : x = 0
    · subst h0; simp
    · simp only [h0, if_false]
      obtain ⟨h1, h2, h3⟩ := trailingZeros_spec x h0
      generalize trailingZeros x = t at *
      have hkt : k ≤ t := by
        rcases Nat.lt_or_ge t k with h | h
        · simp [hx t h] at h2
        · exact h
      have hsplit : List.range' k n = List.range' k (t - k) ++ List.range' t (64 - t) := by
        have : t = k + 1 * (t - k) := by omega
        conv => rhs; rhs; rw [this]
        rw [List.range'_append]; congr 1; omega
      rw [hsplit, List.filter_append]
      have e1 : (List.range' k (t - k)).filter (fun i => x.getLsbD i) = [] := by
        rw [List.filter_eq_nil_iff]; intro a ha
        rw [List.mem_range'_1] at ha
        have := h3 a (by omega); simp [this]
      have e2 : List.range' t (64 - t) = t :: List.range' (t + 1) (64 - (t + 1)) := by
        have : 64 - t = (64 - (t + 1)) + 1 := by omega
        rw [this, List.range'_succ]
      rw [e1, e2, List.nil_append, List.filter_cons, if_pos h2]
      rw [ih (t + 1) (64 - (t + 1)) _ (by omega) (by omega)]
      · congr 1
        apply List.filter_congr
        intro a ha
        rw [List.mem_range'_1] at ha
        have hta : t ≠ a := by omega
        have ha64 : a < 64 := by omega
        rw [BitVec.getLsbD_and, BitVec.getLsbD_not, getLsbD_one_shift t a h1]; simp [hta, ha64]
      · intro j hj
        by_cases hjt : t = j
        · subst hjt; rw [BitVec.getLsbD_and, BitVec.getLsbD_not, getLsbD_one_shift t t h1]; simp
        · simp [h3 j (by omega)]

theorem flagsIter_eq (x : BitVec 64) (max : Nat) (h : max ≤ 64) :
    flagsIter x max = (List.range max).filter (fun i => x.getLsbD i) := by
  unfold flagsIter
  rw [flagsIterGo_eq 64 0 64 _ rfl (Nat.le_refl _) (by intro j hj; omega)]
  have hm : ∀ i, (x &&& (BitVec.allOnes 64 >>> (64 - max))).getLsbD i
      = (x.getLsbD i && decide (i < max)) := by
    intro i
    rw [BitVec.getLsbD_and, BitVec.getLsbD_ushiftRight, BitVec.getLsbD_allOnes]
    congr 1
    by_cases hi : i < max
    · simp [hi]; omega
    · simp [hi]; omega
  simp only [hm]
  rw [← List.range_eq_range']
  have : List.range 64 = List.range max ++ (List.range' max (64 - max)) := by
    rw [List.range_eq_range', List.range_eq_range']
    have := @List.range'_append 0 max (64 - max) 1
    simp only [Nat.one_mul, Nat.zero_add] at this
    rw [this]; congr 1; omega
  rw [this, List.filter_append]
  have e2 : (List.range' max (64 - max)).filter (fun i => x.getLsbD i && decide (i < max)) = [] := by
    rw [List.filter_eq_nil_iff]; intro a ha
    rw [List.mem_range'_1] at ha
    have : ¬ a < max := by omega
    simp [this]
  rw [e2, List.append_nil]
  apply List.filter_congr
  intro a ha
  have : a < max := by simpa using ha
  simp [this]

theorem childList_eq (cfg : Cfg) (x : Children) :
    childList cfg x = (List.range cfg.maxHandles).filter (fun i => x.getLsbD i) :=
  flagsIter_eq x _ cfg.le64

theorem mem_childList (cfg : Cfg) (x : Children) (i : Nat) :
    i ∈ childList cfg x ↔ i < cfg.maxHandles ∧ x.getLsbD i = true := by
  rw [childList_eq]; simp

theorem childList_nodup (cfg : Cfg) (x : Children) : (childList cfg x).Nodup := by
  rw [childList_eq]; exact List.Pairwise.filter _ List.nodup_range

theorem addChildBit_ok {cfg : Cfg} {ch r : Children} {i : Nat} (h : addChildBit cfg ch i = .ok r) :
    i < cfg.maxHandles ∧ ∀ j, r.getLsbD j = (ch.getLsbD j || decide (i = j)) := by
  unfold addChildBit at h
  split at h
  · cases h
  · have hi : i < cfg.maxHandles := by omega
    refine ⟨hi, ?_⟩
    have h64 := cfg.le64
    injection h with h; subst h
    intro j
    rw [BitVec.getLsbD_or, getLsbD_one_shift i j (by omega)]

theorem addChildBit_of_lt {cfg : Cfg} (ch : Children) {i : Nat} (h : i < cfg.maxHandles) :
    addChildBit cfg ch i = .ok (ch ||| (1#64 <<< i)) := by
  unfold addChildBit; rw [if_neg (by omega)]

theorem hasChild_eq {cfg : Cfg} (ch : Children) (i : Nat) :
    hasChild cfg ch i = (decide (i < cfg.maxHandles) && ch.getLsbD i) := by
  unfold hasChild
  have h64 := cfg.le64
  by_cases h : i < cfg.maxHandles
  · rw [if_neg (by omega)]
    simp only [h, decide_true, Bool.true_and]
    rw [Bool.eq_iff_iff]
    constructor
    · intro hne
      by_contra hc
      have hc : ch.getLsbD i = false := by simpa using hc
      have : ch &&& (1#64 <<< i) = 0 := by
        apply BitVec.eq_of_getLsbD_eq
        intro j _
        rw [BitVec.getLsbD_and, getLsbD_one_shift i j (by omega)]
        by_cases hij : i = j
        · subst hij; simp [hc]
        · simp [hij]
      simp [this] at hne
    · intro hc
      rw [bne_iff_ne]
      intro h0
      have := congrArg (fun v => v.getLsbD i) h0
      simp only [BitVec.getLsbD_and, getLsbD_one_shift i i (by omega), hc] at this
      simp at this
  · rw [if_pos (by omega)]; simp [h]

theorem getLsbD_removeChildren (a b : Children) (j : Nat) :
    (removeChildren a b).getLsbD j = (a.getLsbD j && !b.getLsbD j) := by
  unfold removeChildren
  rw [BitVec.getLsbD_and]
  by_cases hj : j < 64
  · simp [hj]
  · have : a.getLsbD j = false := by
      apply BitVec.getLsbD_of_ge; omega
    simp [this]

theorem getLsbD_addChildren (a b : Children) (j : Nat) :
    (addChildren a b).getLsbD j = (a.getLsbD j || b.getLsbD j) := by
  unfold addChildren; rw [BitVec.getLsbD_or]

theorem children_ne_zero {x : Children} : x ≠ 0 ↔ ∃ j, x.getLsbD j = true := by
  constructor
  · intro h; exact ⟨_, (trailingZeros_spec x h).2.1⟩
  · rintro ⟨j, hj⟩ h; subst h; simp at hj

end Dpe
