import Verif.Proofs.PlacementUndo
import Verif.Proofs.Image
import Verif.Spec.Erase
/-
What is left in the slots of destroyed contexts.
-/
namespace Dpe
variable {cfg : Cfg} {σ : Type} {st st' st2 : State cfg}

/-! ### The bytes of a slot -/

theorem le64_len (x : BitVec 64) : (le64 x).length = 8 := rfl

theorem Tci.bytes_len (t : Tci cfg) : t.bytes.length = 12 + 2 * cfg.tciSize := by
  unfold Tci.bytes
  simp [le32]
  omega

theorem Context.image_len (c : Context cfg) : c.image.length = contextSize cfg.tciSize := by
  unfold Context.image contextSize
  simp [Tci.bytes_len, le64_len, le32]
  omega

theorem flatMap_slot {α : Type} {f : α → Bytes} {n : Nat} (hf : ∀ a, (f a).length = n) :
    ∀ (l : List α) (i : Nat) (a : α) (r : Bytes), l[i]? = some a →
      ((l.flatMap f ++ r).drop (i * n)).take n = f a := by
  intro l
  induction l with
  | nil => intro i a r h; simp at h
  | cons x l ih =>
    intro i a r h
    cases i with
    | zero =>
      simp only [List.getElem?_cons_zero, Option.some.injEq] at h
      subst h
      rw [Nat.zero_mul, List.drop_zero, List.flatMap_cons, List.append_assoc, ← hf x, List.take_left]
    | succ i =>
      simp only [List.getElem?_cons_succ] at h
      rw [List.flatMap_cons, List.append_assoc, Nat.succ_mul, Nat.add_comm, ← List.drop_drop]
      have : (f x ++ (l.flatMap f ++ r)).drop n = l.flatMap f ++ r := by
        rw [← hf x, List.drop_left]
      rw [this]
      exact ih i a r h

theorem slotBytes_image {i : Nat} (hi : i < cfg.maxHandles) : slotBytes cfg st.image i = (st.at i).image := by
  unfold slotBytes State.image
  rw [← List.drop_drop]
  have : (le32 st.marker ++ (le32 st.version ++ (st.contexts.flatMap Context.image ++ (le32 st.support ++
    (le16 st.flags ++ [boolByte st.hasInitialized, 0]))))).drop 8 = st.contexts.flatMap Context.image ++ (le32 st.support ++
    (le16 st.flags ++ [boolByte st.hasInitialized, 0])) := rfl
  rw [this]
  exact flatMap_slot Context.image_len _ _ _ _ (getElem?_of_lt hi)

theorem blank_image {x : UInt8} (h : Handle) (k : CtxType) (e : Bool) (hh : h.toList = List.replicate 16 x) :
    ({ handle := h, tci := Tci.new, children := 0, locality := 0, parentIdx := ROOT, ctype := k,
       state := .inactive, usesInfo := false, usesDice := false, allowX509 := false, allowExport := e,
       allowRecursive := false } : Context cfg).image =
      List.replicate 16 x ++ List.replicate (24 + 2 * cfg.tciSize) 0 ++
        [255, k.byte, 0, 0, 0, 0, boolByte e, 0] := by
  unfold Context.image
  rw [List.append_assoc, hh]
  congr 1
  have ht : (Tci.new : Tci cfg).bytes = List.replicate (12 + 2 * cfg.tciSize) 0 := by
    rw [List.eq_replicate_iff]
    refine ⟨Tci.bytes_len _, fun b hb => ?_⟩
    unfold Tci.bytes Tci.new at hb
    simp only [List.mem_append, Vector.toList_replicate, List.mem_replicate] at hb
    have h0 : ∀ b ∈ le32 (0 : U32), b = 0 := by decide
    rcases hb with ((((h | h) | h) | h) | h)
    · exact h0 b h
    · exact h.2
    · exact h.2
    · exact h0 b h
    · exact h0 b h
  have e2 : (24 + 2 * cfg.tciSize) = (12 + 2 * cfg.tciSize) + 12 := by omega
  show (Tci.new : Tci cfg).bytes ++ _ = _
  rw [ht, e2]
  generalize 12 + 2 * cfg.tciSize = m
  rw [← List.replicate_append_replicate, List.append_assoc]
  show _ ++ (le64 0 ++ (le32 0 ++ _)) = _
  rw [show le64 0 = List.replicate 8 0 by decide, show le32 0 = List.replicate 4 0 by decide]
  rfl

/-! ### Slots after commands -/

/-- Slots without a context are as they were or wiped. -/
def Swept (st st' : State cfg) : Prop :=
  ∀ i, (st'.at i).state = .inactive → st'.at i = st.at i ∨ ∃ c, st'.at i = wiped c

theorem Swept.trans (h : Swept st st') (h' : Swept st' st2) : Swept st st2 := by
  intro i hi
  rcases h' i hi with e | e
  · rw [e] at hi ⊢; exact h i hi
  · exact .inr e

theorem Swept.set {i : Nat} (hi : i < cfg.maxHandles) {c : Context cfg} (hc : c.state ≠ .inactive) :
    Swept st (st.setCtx i c) := by
  intro j hj
  rw [at_setCtx hi] at hj ⊢
  split
  · rename_i e; rw [if_pos e] at hj; exact absurd hj hc
  · exact .inl rfl

theorem Swept.step (wf : WF st) (hs : SStep st st') : Swept st st' := by
  cases hs with
  | init f loc idx hd h1 h2 h3 h4 h5 =>
    obtain ⟨_, hc, _⟩ := nextInactive_some h4
    have hlt := lt_of_getElem? hc
    intro j hj
    rw [at_initPost hlt] at hj ⊢
    split
    · rename_i e; rw [if_pos e] at hj; simp [Context.activate] at hj
    · exact .inl rfl
  | handle idx hd hlt hact _ => exact .set hlt (by simp [hact])
  | measure idx v m hd hlt hact _ => exact .set hlt (by simp [hact])
  | retire idx hd hlt hact _ _ => exact .set hlt (by simp)
  | destroy hd loc set hs =>
    intro j hj
    rw [at_clear] at hj ⊢
    split
    · exact .inr ⟨st.at j, rfl⟩
    · rename_i e; rw [if_neg e] at hj
      left
      have h0 := (wf.clean j hj).2.1
      have : removeChildren (st.at j).children set = (st.at j).children := by
        rw [h0]; unfold removeChildren; simp
      rw [this]
  | child c loc idx k hd v p' kids hlt hact hf h1 h2 h3 h4 h5 h6 h7 h8 h9 =>
    obtain ⟨_, hc, _⟩ := nextInactive_some h6
    have hk := lt_of_getElem? hc
    refine Swept.trans (.set hk (by simp [childOf, Context.activate])) (.set hlt ?_)
    rcases h5 with ⟨_, x, _, rfl⟩ | ⟨_, rfl⟩
    · simp [hact]
    · simp

theorem Swept.steps (wf : WF st) (hs : SSteps st st') : Swept st st' := by
  induction hs with
  | refl => exact fun _ _ => .inl rfl
  | tail h0 h1 ih => exact ih.trans (.step (wf.steps h0) h1)

theorem Reachable.swept (h : Reachable st) (i : Nat) (hi : (st.at i).state = .inactive) :
    st.at i = Context.new ∨ ∃ c, st.at i = wiped c := by
  obtain ⟨_, sup, fl, st0, h1, h2⟩ := reachable_inv h
  have key : WF st0 ∧ ∀ i, (st0.at i).state = .inactive → st0.at i = Context.new := by
    cases h1 with
    | new => exact ⟨.boot .new, fun i _ => at_new ..⟩
    | auto loc ty v m =>
      have hw := WF.boot (Boot.auto (cfg := cfg) (support := sup) (flags := fl) loc ty v m)
      refine ⟨hw, fun i hi => ?_⟩
      rw [at_setCtx cfg.pos] at hi ⊢
      split
      · rename_i e
        rw [if_pos e, at_initPost cfg.pos, if_pos rfl] at hi
        simp [Context.activate] at hi
      · rename_i e
        rw [at_initPost cfg.pos, if_neg e]
        exact at_new ..
  rcases Swept.steps key.1 h2 i hi with e | e
  · rw [e] at hi ⊢; exact .inl (key.2 i hi)
  · exact .inr e

/-! ### Links -/

theorem lists_congr {i j : Nat} (h : (st2.at i).children = (st.at i).children) :
    Lists st2 i j ↔ Lists st i j := by unfold Lists; rw [h]

theorem SameBut.lists {idx : Nat} (h : SameBut st st2 idx) (i j : Nat) : Lists st2 i j ↔ Lists st i j :=
  lists_congr (h.links i).2.1

theorem desc_links (hl : ∀ i j, Lists st2 i j → Lists st i j) {i j : Nat} (h : Desc st2 i j) : Desc st i j := by
  induction h with
  | child h => exact .child (hl _ _ h)
  | step _ h ih => exact .step ih (hl _ _ h)

theorem retiredUp_links (hl : ∀ i j, Lists st2 i j ↔ Lists st i j)
    (hp : ∀ i, (st2.at i).parentIdx = (st.at i).parentIdx) (hs : ∀ i, (st2.at i).state = (st.at i).state)
    {i j : Nat} (h : RetiredUp st2 i j) : RetiredUp st i j := by
  induction h with
  | parent h1 h2 h3 =>
    rw [hp] at h1 h2 h3 ⊢
    rw [hs] at h2
    simp only [hl] at h3
    exact .parent h1 h2 h3
  | step _ h1 h2 h3 ih =>
    rw [hp] at h1 h2 h3 ⊢
    rw [hs] at h2
    simp only [hl] at h3
    exact .step ih h1 h2 h3

theorem SameBut.doomed {idx : Nat} (h : SameBut st st2 idx) (i : Nat) :
    DestroyedWith st2 idx i ↔ DestroyedWith st idx i := by
  have hl := h.lists
  constructor
  · rintro (e | e | e)
    · exact .inl e
    · exact .inr (.inl (desc_links (fun i j => (hl i j).1) e))
    · exact .inr (.inr (retiredUp_links hl (fun i => (h.links i).1) (fun i => (h.links i).2.2) e))
  · rintro (e | e | e)
    · exact .inl e
    · exact .inr (.inl (desc_links (fun i j => (hl i j).2) e))
    · exact .inr (.inr (retiredUp_links (fun i j => (hl i j).symm) (fun i => (h.links i).1.symm)
        (fun i => (h.links i).2.2.symm) e))

/-- The states after the destruction: the same contexts, in the same slots. -/
theorem SameBut.after {idx : Nat} {a b : State cfg} (h : SameBut st st2 idx)
    (ha : DestroyEffect st idx a) (hb : DestroyEffect st2 idx b) :
    SameMeta a b ∧ (∀ i, ¬ DestroyedWith st idx i → b.at i = a.at i) ∧
      ∀ i, DestroyedWith st idx i → a.at i = wiped (st.at i) ∧ b.at i = wiped (st2.at i) := by
  obtain ⟨a1, a2, ⟨a3, a4, a5, a6⟩, a7⟩ := ha
  obtain ⟨b1, b2, ⟨b3, b4, b5, b6⟩, b7⟩ := hb
  obtain ⟨⟨c3, c4, c5, c6⟩, c7⟩ := h.rest
  refine ⟨⟨⟨by rw [b3, a3, c3], by rw [b4, a4, c4], by rw [b5, a5, c5], by rw [b6, a6, c6]⟩,
    by rw [b7, a7, c7]⟩, fun i hi => ?_, fun i hi => ⟨a1 i hi, b1 i ((h.doomed i).2 hi)⟩⟩
  obtain ⟨⟨x, hx⟩, hx'⟩ := a2 i hi
  obtain ⟨⟨y, hy⟩, hy'⟩ := b2 i (mt (h.doomed i).1 hi)
  have : y = x := by
    apply BitVec.eq_of_getLsbD_eq
    intro j _
    have e1 := hx' j
    have e2 := hy' j
    rw [h.lists i j, h.doomed j, ← e1] at e2
    unfold Lists at e2
    rw [hx, hy] at e2
    exact Bool.eq_iff_iff.2 e2
  rw [hx, hy, h.others i hi, this]

end Dpe
