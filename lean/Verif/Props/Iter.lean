import Verif.Proofs.Iter
import Verif.Proofs.Calls
import Verif.Props.Structure
import Verif.Examples.Toy
/-
C31 (chain enumeration), C32 (descendant computation), C33 (bitmap iteration).
-/
namespace Dpe
variable {cfg : Cfg} {st : State cfg}

/-! ### C31 -/

/-- C31, on any state whose links form a forest (every reachable state, see C01): enumerating
from a live slot succeeds, and calling the enumeration from its two ends in any order returns
exactly what taking the elements of the slot-to-root path off its two ends returns; at most
`MAX_HANDLES` items. -/
theorem C31_exact {i : Nat} (hf : Forest st) (hi : Live st i) :
    ∃ l it, Path st i l ∧ l.length ≤ cfg.maxHandles ∧ ChainIter.new i st.contexts = .ok it ∧
      ∀ ends, callEnds st.contexts it ends =
        (takeEnds l ends).map (Option.map fun j => .ok (st.at j)) := by
  obtain ⟨l, h1, _, h3⟩ := hf.acyclic i hi
  obtain ⟨it, h4, h5⟩ := ChainIter.new_path h1
  exact ⟨l, it, h1, h3, h4, fun ends => callEnds_rem hf.links ends h5⟩

/-- Sanity check of the specification: taking everything from the back reverses the list. -/
theorem takeEnds_back (l : List Nat) :
    takeEnds l (List.replicate l.length .back) = l.reverse.map some := by
  generalize hn : l.length = n
  induction n generalizing l with
  | zero => rw [List.length_eq_zero_iff] at hn; subst hn; rfl
  | succ n ih =>
    rcases List.eq_nil_or_concat l with rfl | ⟨l', a, hl⟩
    · cases hn
    rw [List.concat_eq_append] at hl
    subst hl
    simp only [List.length_append, List.length_cons, List.length_nil, Nat.add_right_cancel_iff,
      Nat.zero_add] at hn
    have ih := ih l' hn
    simp only [List.length_append, List.length_cons, List.length_nil, List.replicate_succ,
      takeEnds, List.getLast?_concat, List.dropLast_concat, ih, List.reverse_append,
      List.reverse_cons, List.reverse_nil, List.nil_append, List.cons_append, List.map_cons]

theorem takeEnds_front (l : List Nat) :
    takeEnds l (List.replicate l.length .front) = l.map some := by
  induction l with
  | nil => rfl
  | cons a l ih => simp [List.replicate_succ, takeEnds, ih]

/-- C31, corrupted link data: on an arbitrary state the enumeration can be started exactly when
the slot has a finite path to a root; otherwise starting it reports an error (and does not
loop). -/
theorem C31_corrupt_new (i : Nat) :
    ((∃ it, ChainIter.new i st.contexts = .ok it) ↔ ∃ l, Path st i l) ∧
    ∀ e, ChainIter.new i st.contexts = .error e →
      e = .internal .contextIndexOob ∨ e = .invalidHandle ∨
        e = .internal .tciNodeCountExceeded := by
  refine ⟨⟨?_, ?_⟩, ?_⟩
  · rintro ⟨it, h⟩
    unfold ChainIter.new at h
    split at h
    · cases h
    · exact pathLenLoop_ok _ _ _ (by assumption)
  · rintro ⟨l, h⟩
    obtain ⟨it, h1, _⟩ := ChainIter.new_path h
    exact ⟨it, h1⟩
  · intro e h
    unfold ChainIter.new at h
    split at h
    · cases h
      exact pathLenLoop_err (st := st) (cfg.maxHandles + 1) i 0 (by omega) (by omega) (by assumption)
    · cases h

/-- C31, corrupted link data: forward enumeration (the loop that feeds the measurement hash) is
exact on every state on which it can be started. -/
theorem C31_corrupt_forward {i : Nat} {it : ChainIter} (h : ChainIter.new i st.contexts = .ok it) :
    ∃ l, Path st i l ∧ ∀ n, callEnds st.contexts it (List.replicate n .front) =
      (takeEnds l (List.replicate n .front)).map (Option.map fun j => .ok (st.at j)) := by
  obtain ⟨l, hl⟩ := (C31_corrupt_new i).1.mp ⟨it, h⟩
  obtain ⟨it', h1, h2⟩ := ChainIter.new_path hl
  rw [h] at h1; cases h1
  refine ⟨l, hl, fun n => ?_⟩
  clear hl h
  generalize ([] : List Nat) = t at h2
  induction n generalizing it l with
  | zero => cases l <;> rfl
  | succ n ih =>
    rw [List.replicate_succ]
    cases l with
    | nil =>
      obtain ⟨h3, h4⟩ := h2.next_nil
      simp only [callEnds, takeEnds, h3, List.map_cons]
      rw [ih _ h4]; rfl
    | cons x m =>
      obtain ⟨h3, h4⟩ := h2.next_cons
      simp only [callEnds, takeEnds, h3, List.map_cons]
      rw [ih _ h4]; rfl

private def Safe (st : State cfg) (it : ChainIter) : Prop :=
  it.done = true ∨ ∃ l, Path st it.front l

private theorem safe_next {it : ChainIter} (h : Safe st it) :
    (it.next st.contexts).1 ≠ some (.error .panic) ∧ Safe st (it.next st.contexts).2 := by
  unfold ChainIter.next
  split_ifs with h1 h2 h3
  · exact ⟨by simp, h⟩
  · exact ⟨by simp, .inl rfl⟩
  · exact ⟨by simp, .inl rfl⟩
  · rcases h with h | ⟨l, h⟩
    · exact absurd h h1
    · rw [h.getCtx]
      refine ⟨by simp, ?_⟩
      cases h with
      | root _ hr => exact .inl (by simpa using hr)
      | step _ _ hp => exact .inr ⟨_, hp⟩

private theorem safe_back {it : ChainIter} (h : Safe st it) :
    (it.nextBack st.contexts).1 ≠ some (.error .panic) ∧ Safe st (it.nextBack st.contexts).2 := by
  unfold ChainIter.nextBack
  by_cases h1 : it.done = true
  · rw [if_pos h1]; exact ⟨by simp, h⟩
  rw [if_neg h1]
  by_cases h2 : it.count ≥ it.pathLen
  · rw [if_pos h2]; exact ⟨by simp, .inl rfl⟩
  rw [if_neg h2]
  by_cases h3 : it.count ≥ cfg.maxHandles
  · rw [if_pos h3]; exact ⟨by simp, .inl rfl⟩
  rw [if_neg h3]
  rcases h with h | ⟨l, h⟩
  · exact absurd h h1
  rcases getCtx_cases st it.back with ⟨h4, _⟩ | ⟨h4, _⟩ | ⟨h4, _⟩
  · rw [h4]
    simp only
    by_cases h5 : (it.front == it.back) = true
    · rw [if_pos h5]; exact ⟨by simp, .inl rfl⟩
    · rw [if_neg h5, findOnPath_path h]
      cases (childList cfg (st.at it.back).children).find? (fun k => decide (k ∈ l)) with
      | none => exact ⟨by simp, .inr ⟨l, h⟩⟩
      | some k => exact ⟨by simp, .inr ⟨l, h⟩⟩
  · rw [h4]; exact ⟨by simp, .inl rfl⟩
  · rw [h4]; exact ⟨by simp, .inl rfl⟩

/-- C31, corrupted link data: once started, no call from either end diverges or panics, whatever
the state. -/
theorem C31_corrupt_total {i : Nat} {it : ChainIter} (h : ChainIter.new i st.contexts = .ok it)
    (ends : List End) : some (.error .panic) ∉ callEnds st.contexts it ends := by
  obtain ⟨l, hl⟩ := (C31_corrupt_new i).1.mp ⟨it, h⟩
  have hs : Safe st it := by
    obtain ⟨it', h1, h2⟩ := ChainIter.new_path hl
    rw [h] at h1; cases h1
    obtain ⟨t, rfl⟩ := hl.head
    obtain ⟨_, h4, _, h5⟩ := h2.go i rfl
    exact .inr ⟨_, by rw [h4]; exact hl⟩
  clear h hl
  induction ends generalizing it with
  | nil => simp [callEnds]
  | cons d ends ih =>
    cases d with
    | front =>
      obtain ⟨h1, h2⟩ := safe_next hs
      simp only [callEnds, List.mem_cons, not_or]
      exact ⟨Ne.symm h1, ih h2⟩
    | back =>
      obtain ⟨h1, h2⟩ := safe_back hs
      simp only [callEnds, List.mem_cons, not_or]
      exact ⟨Ne.symm h1, ih h2⟩

/-- Non-vacuity: in `s4` slot 2 has the path 2, 1, 0. -/
example : ∃ it, ChainIter.new 2 Toy.s4.st.contexts = .ok it ∧
    callEnds Toy.s4.st.contexts it [.back, .front, .back, .front] =
      [some (.ok (Toy.s4.st.at 0)), some (.ok (Toy.s4.st.at 2)), some (.ok (Toy.s4.st.at 1)), none] := by
  have hl : Live Toy.s4.st 2 := by unfold Live; decide +kernel
  obtain ⟨l, it, h1, _, h3, h4⟩ := C31_exact (C01_forest Toy.s4.reach) hl
  refine ⟨it, h3, ?_⟩
  have hp : Path Toy.s4.st 2 [2, 1, 0] := by
    have e2 : (Toy.s4.st.at 2).parentIdx = 1 := by decide +kernel
    have e1 : (Toy.s4.st.at 1).parentIdx = 0 := by decide +kernel
    refine .step hl (by rw [e2]; decide) ?_
    rw [e2]
    refine .step (by unfold Live; decide +kernel) (by rw [e1]; decide) ?_
    rw [e1]
    exact .root (by unfold Live; decide +kernel) (by decide +kernel)
  rw [h4, h1.unique hp]
  rfl

/-- Two live slots that name each other as parent. -/
def Toy.cyclic : State Toy.cfg :=
  ((State.new Toy.cfg 0 0).setCtx 0 { Context.new with state := .active, parentIdx := 1 }).setCtx 1
    { Context.new with state := .active, parentIdx := 0 }

/-- Non-vacuity: a cycle is reported as an error. -/
example : ∃ e, ChainIter.new 0 Toy.cyclic.contexts = .error e ∧
    e = .internal .tciNodeCountExceeded := ⟨_, rfl, by decide +kernel⟩

/-! ### C32 -/

/-- C32: on any state whose links form a forest, the descendant set computed for a live slot
exists (the recursion ends within `MAX_HANDLES` levels) and is exactly the set of slots reachable
through child links. -/
theorem C32_descendants {i : Nat} (hf : Forest st) (hi : Live st i) :
    ∃ S, st.getDescendants (cfg.maxHandles + 1) (st.at i) = .ok S ∧
      ∀ j, S.getLsbD j = true ↔ Desc st i j := by
  obtain ⟨l, h1, _⟩ := hf.acyclic i hi
  exact getDescendants_spec hf.links _ i l h1 (by omega)

/-- Non-vacuity: in `s4` the descendants of the root are slots 1 and 2. -/
example : ∃ S, Toy.s4.st.getDescendants 5 (Toy.s4.st.at 0) = .ok S ∧ S = 6 ∧
    Desc Toy.s4.st 0 2 := by
  have hl : Live Toy.s4.st 0 := by unfold Live; decide +kernel
  obtain ⟨S, h1, h2⟩ := C32_descendants (C01_forest Toy.s4.reach) hl
  have h3 : Toy.s4.st.getDescendants 5 (Toy.s4.st.at 0) = .ok 6 := by decide +kernel
  have h4 : S = 6 := by
    have : Toy.s4.st.getDescendants 5 (Toy.s4.st.at 0) = .ok S := h1
    rw [h3] at this; cases this; rfl
  subst h4
  exact ⟨_, h3, rfl, (h2 2).mp (by decide)⟩

/-! ### C33 -/

/-- C33: iterating a bitmap with limit `max ≤ 64` yields the indices of the set bits below the
limit, in strictly increasing order. -/
theorem C33_flags_iter (x : BitVec 64) (max : Nat) (h : max ≤ 64) :
    (flagsIter x max).Pairwise (· < ·) ∧
      ∀ i, i ∈ flagsIter x max ↔ i < max ∧ x.getLsbD i = true := by
  rw [flagsIter_eq x max h]
  refine ⟨List.Pairwise.filter _ List.pairwise_lt_range, fun i => ?_⟩
  simp

/-- Non-vacuity. -/
example : flagsIter 0x8000000000000105#64 63 = [0, 2, 8] := by decide +kernel
example : flagsIter 0x8000000000000105#64 64 = [0, 2, 8, 63] := by decide +kernel

end Dpe
