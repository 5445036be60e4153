import Verif.Spec.Iter
import Verif.Proofs.Destroy
/-
The ancestor-chain iterator against parent paths.
-/
namespace Dpe
variable {cfg : Cfg} {σ : Type} {st : State cfg}

theorem getCtx_cases (st : State cfg) (i : Nat) :
    (getCtx st.contexts i = .ok (st.at i) ∧ Live st i ∧
      ((st.at i).parentIdx < cfg.maxHandles ∨ (st.at i).parentIdx = ROOT)) ∨
    (getCtx st.contexts i = .error (.internal .contextIndexOob) ∧ cfg.maxHandles ≤ i) ∨
    (getCtx st.contexts i = .error .invalidHandle ∧
      (¬ Live st i ∨ (cfg.maxHandles ≤ (st.at i).parentIdx ∧ (st.at i).parentIdx ≠ ROOT))) := by
  unfold getCtx
  by_cases hi : i < cfg.maxHandles
  · rw [getElem?_of_lt hi]
    have hp := cfg.pos
    simp only
    split_ifs with h
    · right; right
      refine ⟨rfl, ?_⟩
      simp only [Bool.or_eq_true, Bool.not_eq_true', Bool.or_eq_false_iff, decide_eq_false_iff_not,
        beq_eq_false_iff_ne, beq_iff_eq] at h
      rcases h with ⟨h1, h2⟩ | h
      · exact .inr ⟨by omega, h2⟩
      · exact .inl fun h2 => h2 h
    · left
      simp only [Bool.or_eq_true, Bool.not_eq_true', Bool.or_eq_false_iff, decide_eq_false_iff_not,
        beq_eq_false_iff_ne, beq_iff_eq, not_or, not_and, ne_eq, not_not] at h
      refine ⟨rfl, h.2, ?_⟩
      by_cases h3 : (st.at i).parentIdx < cfg.maxHandles
      · exact .inl h3
      · exact .inr (h.1 (by omega))
  · rw [getElem?_of_ge (by omega)]
    exact .inr (.inl ⟨rfl, by omega⟩)

theorem Path.parent_ok {i : Nat} {l : List Nat} (h : Path st i l) :
    (st.at i).parentIdx < cfg.maxHandles ∨ (st.at i).parentIdx = ROOT := by
  cases h with
  | root _ h => exact .inr h
  | step _ _ h => exact .inl (lt_of_live h.live)

theorem Path.getCtx {i : Nat} {l : List Nat} (h : Path st i l) :
    getCtx st.contexts i = .ok (st.at i) := by
  rcases getCtx_cases st i with h1 | ⟨_, h1⟩ | ⟨_, h1 | ⟨h1, h2⟩⟩
  · exact h1.1
  · have := lt_of_live h.live; omega
  · exact absurd h.live h1
  · rcases h.parent_ok with h3 | h3
    · omega
    · exact absurd h3 h2

theorem Path.getLast {i : Nat} {l : List Nat} (h : Path st i l) :
    ∃ b, l.getLast? = some b ∧ IsRoot st b := by
  induction h with
  | @root i hl hr => exact ⟨i, rfl, hl, hr⟩
  | @step i l _ _ hp ih =>
    obtain ⟨b, h1, h2⟩ := ih
    refine ⟨b, ?_, h2⟩
    rw [List.getLast?_cons, h1]; rfl

theorem pathLenLoop_path {i : Nat} {l : List Nat} (h : Path st i l) : ∀ (fuel len b : Nat),
    len + l.length ≤ cfg.maxHandles → l.length ≤ fuel → l.getLast? = some b →
    pathLenLoop st.contexts fuel i len = .ok (b, len + l.length) := by
  induction h with
  | @root i hl hr =>
    intro fuel len b h1 h2 h3
    cases fuel with
    | zero => simp at h2
    | succ fuel =>
      unfold pathLenLoop
      rw [(Path.root hl hr).getCtx]
      simp only [List.length_singleton] at h1
      have : ¬ len + 1 > cfg.maxHandles := by omega
      simp only [this, if_false, hr, beq_self_eq_true, if_true]
      cases h3; rfl
  | @step i l hl hn hp ih =>
    intro fuel len b h1 h2 h3
    cases fuel with
    | zero => simp at h2
    | succ fuel =>
      unfold pathLenLoop
      rw [(Path.step hl hn hp).getCtx]
      simp only [List.length_cons] at h1 h2
      have : ¬ len + 1 > cfg.maxHandles := by omega
      have h4 : ((st.at i).parentIdx == ROOT) = false := by simpa using hn
      obtain ⟨b', h5, _⟩ := hp.getLast
      rw [List.getLast?_cons, h5] at h3
      cases h3
      simp only [this, if_false, h4, Bool.false_eq_true]
      rw [ih fuel (len + 1) b' (by omega) (by omega) h5]
      simp only [List.length_cons]
      rw [Nat.add_right_comm, Nat.add_assoc]
      rfl

theorem pathLenLoop_ok : ∀ (fuel i len : Nat) {b n : Nat},
    pathLenLoop st.contexts fuel i len = .ok (b, n) → ∃ l, Path st i l := by
  intro fuel
  induction fuel with
  | zero => intro i len b n h; simp [pathLenLoop] at h
  | succ fuel ih =>
    intro i len b n h
    unfold pathLenLoop at h
    rcases getCtx_cases st i with ⟨h1, h2, _⟩ | ⟨h1, _⟩ | ⟨h1, _⟩
    · rw [h1] at h
      simp only at h
      split_ifs at h with h3 h4
      · exact ⟨_, .root h2 (by simpa using h4)⟩
      · obtain ⟨l, hl⟩ := ih _ _ h
        exact ⟨_, .step h2 (by simpa using h4) hl⟩
    · rw [h1] at h; simp at h
    · rw [h1] at h; simp at h

theorem pathLenLoop_err : ∀ (fuel i len : Nat) {e : Err}, len + fuel = cfg.maxHandles + 1 →
    0 < fuel → pathLenLoop st.contexts fuel i len = .error e →
    e = .internal .contextIndexOob ∨ e = .invalidHandle ∨ e = .internal .tciNodeCountExceeded := by
  intro fuel
  induction fuel with
  | zero => intro i len e _ h; omega
  | succ fuel ih =>
    intro i len e hf _ h
    unfold pathLenLoop at h
    rcases getCtx_cases st i with ⟨h1, h2, _⟩ | ⟨h1, _⟩ | ⟨h1, _⟩
    · rw [h1] at h
      simp only at h
      split_ifs at h with h3 h4
      · cases h; simp
      · exact ih _ _ (by omega) (by omega) h
    · rw [h1] at h; cases h; simp
    · rw [h1] at h; cases h; simp

theorem isNodeOnPath_path {i : Nat} {l : List Nat} (h : Path st i l) (k : Nat) : ∀ (fuel : Nat),
    l.length ≤ fuel → isNodeOnPath st.contexts k fuel i = .ok (decide (k ∈ l)) := by
  induction h with
  | @root i hl hr =>
    intro fuel h2
    cases fuel with
    | zero => simp at h2
    | succ fuel =>
      unfold isNodeOnPath
      rw [(Path.root hl hr).getCtx]
      by_cases e : i = k
      · simp [e]
      · have e' : (i == k) = false := by simpa using e
        simp only [e', Bool.false_eq_true, if_false, hr, beq_self_eq_true, if_true]
        simp [Ne.symm e]
  | @step i l hl hn hp ih =>
    intro fuel h2
    cases fuel with
    | zero => simp at h2
    | succ fuel =>
      unfold isNodeOnPath
      rw [(Path.step hl hn hp).getCtx]
      have h4 : ((st.at i).parentIdx == ROOT) = false := by simpa using hn
      simp only [List.length_cons] at h2
      by_cases e : i = k
      · simp [e]
      · have e' : (i == k) = false := by simpa using e
        simp only [e', Bool.false_eq_true, if_false, h4]
        rw [ih fuel (by omega)]
        simp [Ne.symm e]

theorem findOnPath_path {i : Nat} {l : List Nat} (h : Path st i l) (ks : List Nat) :
    findOnPath st.contexts i ks = .ok (ks.find? fun k => decide (k ∈ l)) := by
  induction ks with
  | nil => rfl
  | cons k ks ih =>
    unfold findOnPath
    rw [isNodeOnPath_path h k _ (by have := h.length_le; omega)]
    by_cases e : k ∈ l
    · simp [e, List.find?_cons]
    · simp [e, List.find?_cons, ih]

/-- The iterator `it` still has to deliver the slots `m`; `t` was delivered from the back. -/
structure Rem (st : State cfg) (it : ChainIter) (m t : List Nat) : Prop where
  count : it.count + m.length = it.pathLen
  le : it.pathLen ≤ cfg.maxHandles
  go : ∀ x, m.head? = some x → it.done = false ∧ it.front = x ∧ m.getLast? = some it.back ∧
    Path st x (m ++ t)

theorem ChainIter.new_path {i : Nat} {l : List Nat} (h : Path st i l) :
    ∃ it, ChainIter.new i st.contexts = .ok it ∧ Rem st it l [] := by
  obtain ⟨b, hb, _⟩ := h.getLast
  have hle := h.length_le
  unfold ChainIter.new
  rw [pathLenLoop_path h (cfg.maxHandles + 1) 0 b (by omega) (by omega) hb]
  refine ⟨_, rfl, ?_, ?_, ?_⟩
  · simp
  · simpa using hle
  · intro x hx
    obtain ⟨t, rfl⟩ := h.head
    cases hx
    exact ⟨rfl, rfl, hb, by rw [List.append_nil]; exact h⟩

theorem Rem.next_cons {it : ChainIter} {x : Nat} {m t : List Nat} (h : Rem st it (x :: m) t) :
    (it.next st.contexts).1 = some (.ok (st.at x)) ∧ Rem st (it.next st.contexts).2 m t := by
  obtain ⟨h1, rfl, h3, h4⟩ := h.go x rfl
  have hc := h.count
  have hl := h.le
  simp only [List.length_cons] at hc
  have e : it.next st.contexts = (some (.ok (st.at it.front)),
      { it with done := (st.at it.front).parentIdx == ROOT, front := (st.at it.front).parentIdx,
                count := it.count + 1 }) := by
    unfold ChainIter.next
    rw [h4.getCtx, h1, if_neg (by simp), if_neg (by omega), if_neg (by omega)]
  rw [e]
  refine ⟨rfl, by simp only; omega, hl, ?_⟩
  intro y hy
  simp only
  cases m with
  | nil => cases hy
  | cons z m =>
    cases hy
    generalize hw : it.front :: y :: m ++ t = w at h4
    cases h4 with
    | root _ hr => simp at hw
    | step _ hn hp =>
      simp only [List.cons_append, List.cons.injEq, true_and] at hw
      obtain ⟨t', ht'⟩ := hp.head
      have hy' : (st.at it.front).parentIdx = y := by
        rw [ht'] at hw; exact (List.cons.inj hw).1.symm
      refine ⟨by simpa using hn, hy', ?_, ?_⟩
      · rw [← h3]; simp
      · rw [← hy', List.cons_append, hy', hw, ← hy']; exact hp

theorem Rem.next_nil {it : ChainIter} {t : List Nat} (h : Rem st it [] t) :
    (it.next st.contexts).1 = none ∧ Rem st (it.next st.contexts).2 [] t := by
  have hc := h.count
  have hl := h.le
  simp only [List.length_nil] at hc
  unfold ChainIter.next
  by_cases hd : it.done = true
  · rw [if_pos hd]; exact ⟨rfl, h⟩
  · rw [if_neg hd, if_pos (by omega)]
    exact ⟨rfl, by simpa using hc, hl, by simp⟩

theorem Rem.back_nil {it : ChainIter} {t : List Nat} (h : Rem st it [] t) :
    (it.nextBack st.contexts).1 = none ∧ Rem st (it.nextBack st.contexts).2 [] t := by
  have hc := h.count
  have hl := h.le
  simp only [List.length_nil] at hc
  unfold ChainIter.nextBack
  by_cases hd : it.done = true
  · rw [if_pos hd]; exact ⟨rfl, h⟩
  · rw [if_neg hd, if_pos (by omega)]
    exact ⟨rfl, by simpa using hc, hl, by simp⟩

theorem Path.append_right {i : Nat} {a b : List Nat} {y : Nat} (h : Path st i (a ++ y :: b)) :
    Path st y (y :: b) := by
  obtain ⟨t, h1, h2⟩ := h.suffix (j := y) (by simp)
  obtain ⟨t', rfl⟩ := h1.head
  have hn := h.nodup
  obtain ⟨p, hp⟩ := h2
  have h3 : y :: b <:+ a ++ y :: b := ⟨a, rfl⟩
  have h4 : y :: t' <:+ a ++ y :: b := ⟨p, hp⟩
  rcases List.suffix_or_suffix_of_suffix h3 h4 with h5 | h5
  · rcases List.suffix_cons_iff.mp h5 with h6 | h6
    · rw [h6]; exact h1
    · have h7 : (y :: t').Nodup := hn.sublist h4.sublist
      exact absurd (h6.subset (List.mem_cons_self ..)) (List.nodup_cons.mp h7).1
  · rcases List.suffix_cons_iff.mp h5 with h6 | h6
    · rw [← h6]; exact h1
    · have h7 : (y :: b).Nodup := hn.sublist h3.sublist
      exact absurd (h6.subset (List.mem_cons_self ..)) (List.nodup_cons.mp h7).1

theorem Rem.back_concat {it : ChainIter} {y : Nat} {m t : List Nat} (wf : Links st)
    (h : Rem st it (m ++ [y]) t) :
    (it.nextBack st.contexts).1 = some (.ok (st.at y)) ∧
      Rem st (it.nextBack st.contexts).2 m (y :: t) := by
  have hc := h.count
  have hl := h.le
  obtain ⟨x, hx⟩ : ∃ x, (m ++ [y]).head? = some x := by
    cases m <;> exact ⟨_, rfl⟩
  obtain ⟨h1, h2, h3, h4⟩ := h.go x hx
  have hb : it.back = y := by simpa using h3.symm
  have h4' : Path st x (m ++ y :: t) := by simpa using h4
  have hy := h4'.append_right
  simp only [List.length_append, List.length_cons, List.length_nil] at hc
  unfold ChainIter.nextBack
  rw [h1, if_neg (by simp), if_neg (by omega), if_neg (by omega), hb, hy.getCtx]
  simp only
  rcases List.eq_nil_or_concat m with rfl | ⟨m', z, hm⟩
  · have e : it.front = y := by rw [h2]; simpa using hx.symm
    rw [e, if_pos (by simp)]
    exact ⟨rfl, by simp only [List.length_nil] at hc ⊢; omega, hl, by simp⟩
  · rw [List.concat_eq_append] at hm
    subst hm
    have hne : it.front ≠ y := by
      intro e
      have hn := h4'.nodup
      rw [h2] at e
      subst e
      have : x ∈ m' ++ [z] := by
        cases m' with
        | nil => simp at hx; simp [hx]
        | cons a m' => simp at hx; simp [hx]
      rw [List.nodup_append] at hn
      exact hn.2.2 x this x (List.mem_cons_self ..) rfl
    rw [if_neg (by simpa using hne), h2, findOnPath_path h4']
    have hz : Path st z (z :: y :: t) := by
      apply Path.append_right (i := x) (a := m')
      simpa using h4'
    have hzp : (st.at z).parentIdx = y := by
      generalize hw : z :: y :: t = w at hz
      cases hz with
      | root => simp at hw
      | step _ _ hp =>
        obtain ⟨t', rfl⟩ := hp.head
        exact (List.cons.inj (List.cons.inj hw).2).1.symm
    have hnr : y ≠ ROOT := by
      rintro rfl; exact root_not_lt (lt_of_live hy.live)
    have hlist : Lists st y z := by
      have := wf.up z hz.live (by rw [hzp]; exact hnr)
      rwa [hzp] at this
    have hfind : (childList cfg (st.at y).children).find?
        (fun k => decide (k ∈ (m' ++ [z]) ++ y :: t)) = some z := by
      have hmem : z ∈ childList cfg (st.at y).children :=
        (mem_childList ..).mpr ⟨lt_of_live hz.live, hlist⟩
      cases hf : (childList cfg (st.at y).children).find?
        (fun k => decide (k ∈ (m' ++ [z]) ++ y :: t)) with
      | none =>
        rw [List.find?_eq_none] at hf
        have := hf z hmem
        simp at this
      | some k =>
        have h5 := List.find?_some hf
        have h6 := List.mem_of_find?_eq_some hf
        simp only [decide_eq_true_eq] at h5
        have h7 := ((mem_childList ..).mp h6).2
        have hk : Path st k (k :: y :: t) := hy.cons_of_lists wf h7
        obtain ⟨t', h8, h9⟩ := h4'.suffix h5
        rw [h8.unique hk] at h9
        have h10 : z :: y :: t <:+ (m' ++ [z]) ++ y :: t := ⟨m', by simp⟩
        rcases List.suffix_or_suffix_of_suffix h9 h10 with h11 | h11
        · have := h11.eq_of_length (by simp)
          rw [(List.cons.inj this).1]
        · have := h11.eq_of_length (by simp)
          rw [(List.cons.inj this).1]
    rw [hfind]
    refine ⟨rfl, ?_, hl, ?_⟩
    · simp only [List.length_append, List.length_cons, List.length_nil] at hc ⊢; omega
    · intro a ha
      have ha' : (m' ++ [z] ++ [y]).head? = some a := by
        rw [List.head?_append, ha]; rfl
      rw [ha'] at hx
      cases hx
      exact ⟨rfl, rfl, by simp, h4'⟩

theorem callEnds_rem (wf : Links st) (ds : List End) : ∀ {it : ChainIter} {m t : List Nat},
    Rem st it m t →
    callEnds st.contexts it ds = (takeEnds m ds).map (Option.map fun i => .ok (st.at i)) := by
  induction ds with
  | nil => intro it m t _; cases m <;> rfl
  | cons d ds ih =>
    intro it m t h
    cases d with
    | front =>
      cases m with
      | nil =>
        obtain ⟨h1, h2⟩ := h.next_nil
        simp only [callEnds, takeEnds, h1, List.map_cons]
        rw [ih h2]; rfl
      | cons x m =>
        obtain ⟨h1, h2⟩ := h.next_cons
        simp only [callEnds, takeEnds, h1, List.map_cons]
        rw [ih h2]; rfl
    | back =>
      rcases List.eq_nil_or_concat m with rfl | ⟨m', z, rfl⟩
      · obtain ⟨h1, h2⟩ := h.back_nil
        simp only [callEnds, takeEnds, h1, List.map_cons]
        rw [ih h2]; rfl
      · rw [List.concat_eq_append] at *
        obtain ⟨h1, h2⟩ := h.back_concat wf
        simp only [callEnds, takeEnds, h1, List.map_cons]
        rw [ih h2, List.dropLast_concat]; simp

theorem items_rem : ∀ (fuel : Nat) {it : ChainIter} {m t : List Nat}, Rem st it m t →
    m.length < fuel → it.items st.contexts fuel = m.map fun i => .ok (st.at i) := by
  intro fuel
  induction fuel with
  | zero => intro it m t _ h; omega
  | succ fuel ih =>
    intro it m t h hf
    unfold ChainIter.items
    cases m with
    | nil =>
      obtain ⟨h1, _⟩ := h.next_nil
      rcases hx : it.next st.contexts with ⟨a, it'⟩
      rw [hx] at h1; cases h1; rfl
    | cons x m =>
      obtain ⟨h1, h2⟩ := h.next_cons
      rcases hx : it.next st.contexts with ⟨a, it'⟩
      rw [hx] at h1 h2; cases h1
      simp only [List.length_cons] at hf
      simp only [List.map_cons]
      rw [ih h2 (by omega)]

end Dpe
