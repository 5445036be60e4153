import Verif.Proofs.X509Emit
import Verif.Proofs.Iter
/-
The ancestry of a context as the certificate writer sees it: on a forest, `TciNodes` and the
backward iteration deliver exactly the path from the root to the context.
-/
namespace Dpe
variable {cfg : Cfg} {st : State cfg}

theorem backItems_rem (wf : Links st) : ∀ (fuel : Nat) {it : ChainIter} {m t : List Nat},
    Rem st it m t → m.length < fuel →
    it.backItems st.contexts fuel = m.reverse.map fun i => .ok (st.at i) := by
  intro fuel
  induction fuel with
  | zero => intro it m t _ h; omega
  | succ fuel ih =>
    intro it m t h hf
    rcases List.eq_nil_or_concat m with rfl | ⟨m', a, hm⟩
    · obtain ⟨h1, _⟩ := h.back_nil
      unfold ChainIter.backItems
      generalize it.nextBack st.contexts = q at h1
      obtain ⟨q1, q2⟩ := q
      cases h1
      rfl
    · rw [List.concat_eq_append] at hm
      subst hm
      obtain ⟨h1, h2⟩ := h.back_concat wf
      unfold ChainIter.backItems
      generalize it.nextBack st.contexts = q at h1 h2
      obtain ⟨q1, q2⟩ := q
      cases h1
      simp only [List.length_append, List.length_singleton] at hf
      simp only [ih h2 (by omega), List.reverse_append, List.reverse_cons, List.reverse_nil,
        List.nil_append, List.cons_append, List.map_cons]

theorem chainOf_path (wf : Links st) {i : Nat} {l : List Nat} (h : Path st i l) {md : MeasData cfg}
    (h1 : md.start = i) (h2 : md.contexts = st.contexts) : ChainOf md (l.reverse.map st.at) where
  ne := by
    obtain ⟨t, rfl⟩ := h.head
    simp
  it := by
    obtain ⟨it, e, r⟩ := ChainIter.new_path h
    have hl := h.length_le
    refine ⟨it, by rw [h1, h2]; exact e, ?_, ?_⟩
    · have := r.count
      have hc : it.count = 0 := by
        unfold ChainIter.new at e
        split at e
        · cases e
        · cases e; rfl
      rw [List.length_map, List.length_reverse]; omega
    · rw [h2, backItems_rem wf _ r (by omega), List.map_map]; rfl

theorem tciNodesNew_path {i : Nat} {l : List Nat} (h : Path st i l) :
    tciNodesNew i st.contexts = .ok () := by
  obtain ⟨it, e, r⟩ := ChainIter.new_path h
  have hl := h.length_le
  unfold tciNodesNew
  rw [e]
  simp only [items_rem _ r (show l.length < cfg.maxHandles + 2 by omega), List.length_map]
  rw [if_neg (by omega)]

end Dpe
