import Verif.Spec.Frame
import Verif.Proofs.Refine
/-
State changes of arbitrary calls in terms of the abstract effects, and counting lemmas.
-/
namespace Dpe
variable {cfg : Cfg} {σ : Type}

/-- Every environment satisfies the weakest digest relation. -/
theorem digests_true (ops : Ops σ) : Digests ops (fun _ _ => True) := fun _ _ _ _ _ => trivial

/-- `DpeInstance::new` does nothing or performs a default initialisation. -/
theorem dpeNew_effect {ops : Ops σ} {s s' : Sys cfg σ} {r : Except Err Unit}
    (h : dpeNew ops s = (r, s')) :
    s'.st = s.st ∨ ∃ loc, InitEffect s.st 0x40000000 loc Handle.default s'.st := by
  rcases dpeNew_steps h with h | ⟨loc, idx, h1, h2, h3⟩
  · exact .inl h
  · right
    have hff := firstFree_iff.mp h2
    have hb : Bit 0x40000000 IFlag.default := by decide
    refine ⟨loc, idx, hff, ?_, ?_, ?_, ?_, .inl ⟨hb, by decide, h1, rfl⟩⟩
    · rw [h3, at_initPost hff.1, if_pos rfl, rootContext_eq]
    · intro j hj; rw [h3, at_initPost hff.1, if_neg hj]
    · rw [h3]; exact ⟨rfl, rfl, rfl, rfl⟩
    · rw [h3]
      exact ⟨fun _ => .inr hb, fun _ => by simp [initPost, initDefaultFlag]⟩

theorem effect_cases_wf {env : Env cfg σ} {D : Bytes → Bytes → Prop} {c : Cmd cfg} {loc : U32}
    {s s' : Sys cfg σ} {r : Except Err Nat} (wf : WF s.st) (hD : Digests env.toOps D)
    (h : exec env c loc s = (r, s')) :
    s'.st = s.st ∨ (∃ hs, Effect D s.st loc c hs s'.st) ∨
      (∃ u, c = .update u ∧ HalfUpdate s.st u loc s'.st) := by
  rcases exec_outcome wf hD h with ⟨_, h1⟩ | ⟨hs, h1, _⟩ | ⟨u, e, h0, _, _, h1⟩ |
    ⟨k, hd, h0, _, h1, _⟩
  · exact .inl h1
  · exact .inr (.inl ⟨hs, h1⟩)
  · exact .inr (.inr ⟨u, h0, h1⟩)
  · subst h0; exact .inr (.inl ⟨[hd], hd, rfl, h1⟩)

theorem Effect.config {st st' : State cfg} {D : Bytes → Bytes → Prop} {c : Cmd cfg} {loc : U32}
    {hs : List Handle} (h : Effect D st loc c hs st') :
    SameConfig st st' ∧ (st'.hasInitialized = st.hasInitialized ∨
      (st'.hasInitialized = true ∧ ∃ f, c = .init f ∧ Bit f IFlag.default)) := by
  have hm : SameMeta st st' → SameConfig st st' ∧ (st'.hasInitialized = st.hasInitialized ∨
      (st'.hasInitialized = true ∧ ∃ f, c = .init f ∧ Bit f IFlag.default)) :=
    fun h => ⟨h.1, .inl h.2⟩
  cases c with
  | getProfile => rw [h.2]; exact ⟨⟨rfl, rfl, rfl, rfl⟩, .inl rfl⟩
  | chain c => rw [h.2]; exact ⟨⟨rfl, rfl, rfl, rfl⟩, .inl rfl⟩
  | init f =>
    obtain ⟨_, _, k, _, _, _, h1, h2, _⟩ := h
    refine ⟨h1, ?_⟩
    by_cases hb : Bit f IFlag.default
    · exact .inr ⟨h2.mpr (.inr hb), f, rfl, hb⟩
    · left
      rw [Bool.eq_iff_iff]
      exact h2.trans ⟨fun h => h.resolve_right hb, .inl⟩
  | rotate c => obtain ⟨_, _, k, _, h2, _⟩ := h; exact hm h2.2.2
  | sign c => obtain ⟨_, _, k, _, _, h2⟩ := h; exact hm h2.2.2
  | certify c => obtain ⟨_, _, k, _, _, h2⟩ := h; exact hm h2.2.2
  | destroy hd => obtain ⟨_, idx, _, h2⟩ := h; exact hm h2.2.2
  | derive c =>
    obtain ⟨idx, hd, hp, _, hres, h⟩ := h
    cases h with
    | «recursive» _ _ _ h => exact hm h.2.2
    | «child» _ _ _ _ _ _ _ _ _ _ h => exact hm h
    | exported _ _ _ _ _ h => exact hm h.2.2
    | exportedLast _ _ _ _ _ h => exact hm h.2.2
  | update c =>
    obtain ⟨_, _, _, idx, k, v, _, _, _, _, _, _, _, _, _, _, h⟩ := h
    exact hm h

theorem Call.cases {st st' : State cfg} (wf : WF st) (h : Call st st') :
    st' = st ∨ (∃ c loc hs, Effect (fun _ _ => True) st loc c hs st') ∨
      (∃ u loc, HalfUpdate st u loc st') := by
  cases h with
  | cmd env c loc _ w out =>
    rcases hr : exec env c loc ⟨st, w, out⟩ with ⟨r, s'⟩
    rcases effect_cases_wf (s := ⟨st, w, out⟩) wf (digests_true _) hr with h | ⟨hs, h⟩ | ⟨u, _, h⟩
    · exact .inl h
    · exact .inr (.inl ⟨c, loc, hs, h⟩)
    · exact .inr (.inr ⟨u, loc, h⟩)
  | create ops _ w out =>
    rcases hr : dpeNew ops ⟨st, w, out⟩ with ⟨r, s'⟩
    rcases dpeNew_effect hr with h | ⟨loc, h⟩
    · exact .inl h
    · exact .inr (.inl ⟨.init 0x40000000, loc, [Handle.default], _, rfl, h⟩)

theorem Call.inService {st st' : State cfg} (h : InService st) (hc : Call st st') :
    InService st' := by
  cases hc with
  | cmd env c loc _ w out => exact .step env c loc st w out h
  | create ops _ w out => exact .create ops st w out h

/-! ### Counting -/

theorem count_filter_succ {n k : Nat} {p q : Nat → Bool} (hk : k < n) (hp : p k = false)
    (hq : q k = true) (h : ∀ j, j < n → j ≠ k → p j = q j) :
    ((List.range n).filter q).length = ((List.range n).filter p).length + 1 := by
  induction n with
  | zero => omega
  | succ n ih =>
    rw [List.range_succ, List.filter_append, List.filter_append, List.length_append,
      List.length_append]
    by_cases e : k = n
    · subst e
      have : (List.range k).filter q = (List.range k).filter p := by
        apply List.filter_congr
        intro x hx
        have := List.mem_range.mp hx
        exact (h x (by omega) (by omega)).symm
      simp [this, hp, hq]
    · rw [ih (by omega) fun j hj => h j (by omega)]
      have := h n (by omega) (Ne.symm e)
      simp [List.filter_cons, this]
      omega

theorem count_filter_split {n : Nat} {p q d : Nat → Bool}
    (h : ∀ j, j < n → p j = (q j || d j) ∧ ¬ (q j = true ∧ d j = true)) :
    ((List.range n).filter p).length =
      ((List.range n).filter q).length + ((List.range n).filter d).length := by
  induction n with
  | zero => rfl
  | succ n ih =>
    rw [List.range_succ, List.filter_append, List.filter_append, List.filter_append,
      List.length_append, List.length_append, List.length_append, ih fun j hj => h j (by omega)]
    have := h n (by omega)
    cases hq : q n <;> cases hd : d n <;> simp_all <;> omega

theorem count_filter_congr {n : Nat} {p q : Nat → Bool} (h : ∀ j, j < n → p j = q j) :
    ((List.range n).filter p).length = ((List.range n).filter q).length := by
  rw [List.filter_congr fun x hx => h x (List.mem_range.mp hx)]

end Dpe
