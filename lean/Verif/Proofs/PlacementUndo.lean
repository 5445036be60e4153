import Verif.Proofs.PlacementExec
import Verif.Proofs.Calls
/-
Slots without a context carry the default handle or the all-ones handle; and a context that is added as a
leaf and destroyed again leaves the other contexts as they were.
-/
namespace Dpe
variable {cfg : Cfg} {σ : Type} {st st' st'' : State cfg}

/-- Every locality counts. -/
def everywhere (ops : Ops σ) : Border σ := ⟨ops, fun _ => True, (· = Handle.invalid), rfl⟩

theorem inside_everywhere {i : Nat} : Inside (fun _ => True) st i ↔ Live st i :=
  ⟨fun h => h.1, fun h => ⟨h, trivial⟩⟩

theorem beyond_everywhere {ops : Ops σ} {i : Nat} : Beyond (everywhere ops) st i ↔ Spare (st.at i) := by
  refine and_congr ?_ Iff.rfl
  show ¬ Inside (fun _ => True) st i ↔ _
  rw [inside_everywhere]
  exact Decidable.not_not

theorem shared_everywhere {ops : Ops σ} {ρ : Renumbering cfg.maxHandles} :
    Shared (everywhere ops) ρ st st' ↔ Moved ρ st st' := by
  constructor
  · intro h
    exact ⟨h.marker, h.version, h.support, h.flags, h.inited, fun i hi => h.live i ⟨hi, trivial⟩,
      fun i hi => (h.spare i fun x => hi x.1).imp beyond_everywhere.1 beyond_everywhere.1⟩
  · intro h
    exact ⟨h.marker, h.version, h.support, h.flags, h.inited, fun i hi => h.live i hi.1,
      fun i hi => (h.spare i fun x => hi ⟨x, trivial⟩).imp beyond_everywhere.2 beyond_everywhere.2⟩

theorem concur_everywhere {ops : Ops σ} : Concur (everywhere ops) st st' ↔ Alike st st' :=
  exists_congr fun _ => shared_everywhere

theorem apart_everywhere (ops : Ops σ) (st : State cfg) : Apart (everywhere ops).mine st :=
  fun _ _ _ => Iff.rfl

theorem Moved.room {ρ : Renumbering cfg.maxHandles} (h : Moved ρ st st') : NoRoom st ↔ NoRoom st' := by
  have key : ∀ i, Live st' (ρ.to i) ↔ Live st i := by
    intro i
    by_cases hi : Live st i
    · refine ⟨fun _ => hi, fun _ => ?_⟩
      rw [Live, (h.live i hi).state]; exact hi
    · exact ⟨fun h2 => absurd (h.spare i hi).2.1 h2, fun h2 => absurd h2 hi⟩
  constructor
  · intro hr j hj
    obtain ⟨i, rfl⟩ := ρ.surj j
    exact (key i).2 (hr i (ρ.lt.1 hj))
  · intro hr i hi
    exact (key i).1 (hr _ (ρ.lt.2 hi))

/-- All slots without a context are spare. -/
def AllSpare (st : State cfg) : Prop :=
  ∀ i, (st.at i).state = .inactive → (st.at i).handle = Handle.default ∨ (st.at i).handle = Handle.invalid

theorem AllSpare.set (h : AllSpare st) {i : Nat} (hi : i < cfg.maxHandles) {c : Context cfg}
    (hc : c.state ≠ .inactive) : AllSpare (st.setCtx i c) := by
  intro j hj
  rw [at_setCtx hi] at hj ⊢
  split
  · rename_i e; rw [if_pos e] at hj; exact absurd hj hc
  · rename_i e; rw [if_neg e] at hj; exact h j hj

theorem AllSpare.step (h : AllSpare st) (hs : SStep st st') : AllSpare st' := by
  cases hs with
  | init f loc idx hd h1 h2 h3 h4 h5 =>
    obtain ⟨_, hc, _⟩ := nextInactive_some h4
    have hlt := lt_of_getElem? hc
    intro j hj
    rw [at_initPost hlt] at hj ⊢
    split
    · rename_i e; rw [if_pos e] at hj; simp [Context.activate] at hj
    · rename_i e; rw [if_neg e] at hj; exact h j hj
  | handle idx hd hlt hact _ => exact h.set hlt (by simp [hact])
  | measure idx v m hd hlt hact _ => exact h.set hlt (by simp [hact])
  | retire idx hd hlt hact _ _ => exact h.set hlt (by simp)
  | destroy hd loc set hs =>
    intro j hj
    rw [at_clear] at hj ⊢
    split
    · exact .inr rfl
    · rename_i e; rw [if_neg e] at hj; exact h j hj
  | child c loc idx k hd v p' kids hlt hact hf h1 h2 h3 h4 h5 h6 h7 h8 h9 =>
    obtain ⟨_, hc, _⟩ := nextInactive_some h6
    have hk := lt_of_getElem? hc
    refine (h.set hk (by simp [childOf, Context.activate])).set hlt ?_
    rcases h5 with ⟨_, x, _, rfl⟩ | ⟨_, rfl⟩
    · simp [hact]
    · simp

theorem AllSpare.steps (h : AllSpare st) (hs : SSteps st st') : AllSpare st' := by
  induction hs with
  | refl => exact h
  | tail _ h1 ih => exact ih.step h1

theorem AllSpare.new (support : U32) (flags : BitVec 16) : AllSpare (State.new cfg support flags) := by
  intro i _
  rw [at_new]
  exact .inl rfl

theorem Reachable.spare (h : Reachable st) : AllSpare st := by
  obtain ⟨_, sup, fl, st0, h1, h2⟩ := reachable_inv h
  refine AllSpare.steps ?_ h2
  cases h1 with
  | new => exact .new _ _
  | auto loc ty v m =>
    have h0 := (AllSpare.new (cfg := cfg) sup fl).step (init_default_step (loc := loc) rfl nextInactive_new)
    refine h0.set cfg.pos ?_
    rw [at_initPost cfg.pos, if_pos rfl]
    simp [Context.activate]

theorem Relinked.id (c : Context cfg) : Relinked (.id _) c c := ⟨⟨c.children, rfl⟩, fun _ => rfl⟩

theorem Moved.self (h : AllSpare st) : Moved (.id _) st st :=
  ⟨rfl, rfl, rfl, rfl, rfl, fun i _ => .id _, fun i hi =>
    have e : (st.at i).state = .inactive := Classical.not_not.1 hi
    ⟨⟨e, h i e⟩, ⟨e, h i e⟩⟩⟩

/-- `st'` is `st` with one more context, in slot `k`: an Active leaf, below an Active context or a root. -/
structure Grown (st : State cfg) (k : Nat) (st' : State cfg) : Prop where
  free : (st.at k).state = .inactive
  act : (st'.at k).state = .active
  leaf : (st'.at k).children = 0
  under : (st'.at k).parentIdx ≠ ROOT → (st'.at (st'.at k).parentIdx).state ≠ .retired
  others : ∀ j, j ≠ k → (∃ ch, st'.at j = { st.at j with children := ch }) ∧
    ∀ m, m ≠ k → (Lists st' j m ↔ Lists st j m)
  same : SameMeta st st'

theorem Grown.only (h : Grown st k st') (j : Nat) : DestroyedWith st' k j ↔ j = k := by
  constructor
  · rintro (rfl | hd | hr)
    · rfl
    · exfalso
      have none : ∀ m, ¬ Lists st' k m := fun m hm => by
        rw [Lists, h.leaf] at hm; simp at hm
      have : ∀ m, Desc st' k m → False := by
        intro m hm
        induction hm with
        | child h1 => exact none _ h1
        | step _ _ ih => exact ih
      exact this j hd
    · exfalso
      have : ∀ m, RetiredUp st' k m → False := by
        intro m hm
        induction hm with
        | parent h1 h2 _ => exact h.under h1 h2
        | step _ _ _ _ ih => exact ih
      exact this j hr
  · rintro rfl; exact .inl rfl

theorem Grown.undone (h : Grown st k st') (wf : WF st) (hsp : AllSpare st)
    (hd : DestroyEffect st' k st'') : Moved (.id _) st st'' := by
  obtain ⟨h1, h2, h3⟩ := hd
  refine ⟨h3.1.1.trans h.same.1.1, h3.1.2.1.trans h.same.1.2.1, h3.1.2.2.1.trans h.same.1.2.2.1,
    h3.1.2.2.2.trans h.same.1.2.2.2, h3.2.trans h.same.2, fun i hi => ?_, fun i hi => ?_⟩
  · have hik : i ≠ k := by rintro rfl; exact hi h.free
    obtain ⟨⟨ch, e⟩, hl⟩ := h2 i (fun hx => hik ((h.only i).1 hx))
    obtain ⟨⟨ch1, e1⟩, hl1⟩ := h.others i hik
    show Relinked _ (st.at i) (st''.at i)
    rw [e1] at e
    refine ⟨⟨ch, e⟩, fun j => ?_⟩
    show (st''.at i).children.getLsbD j = (st.at i).children.getLsbD j
    rw [Bool.eq_iff_iff]
    show Lists st'' i j ↔ Lists st i j
    rw [hl j, h.only]
    by_cases hj : j = k
    · subst hj
      exact ⟨fun x => absurd rfl x.2, fun x => absurd h.free (wf.down i j x).1⟩
    · rw [hl1 j hj]; exact ⟨fun x => x.1, fun x => ⟨x, hj⟩⟩
  · have e : (st.at i).state = .inactive := Classical.not_not.1 hi
    refine ⟨⟨e, hsp i e⟩, ?_⟩
    show Spare (st''.at i)
    by_cases hik : i = k
    · subst hik
      rw [h1 i (.inl rfl)]
      exact ⟨rfl, .inr rfl⟩
    · obtain ⟨⟨ch, e2⟩, _⟩ := h2 i (fun hx => hik ((h.only i).1 hx))
      obtain ⟨⟨ch1, e1⟩, _⟩ := h.others i hik
      rw [e2, e1]
      exact ⟨e, hsp i e⟩

/-- A child derived below a context that keeps the default handle. -/
theorem DeriveEffect.grown {D : Bytes → Bytes → Prop} {c : DeriveCmd cfg} {loc : U32} {idx : Nat}
    {h hp : Handle} (he : DeriveEffect D st c loc idx h hp st') (hact : (st.at idx).state = .active)
    (hdef : (st.at idx).handle = Handle.default) (hret : Bit c.flags DFlag.retainParent)
    (hrec : ¬ Bit c.flags DFlag.recursive) (hexp : ¬ Bit c.flags DFlag.exportCdi) :
    ∃ k, Grown st k st' ∧
      Names st' h (if Bit c.flags DFlag.changeLocality then c.targetLocality else loc) k := by
  cases he with
  | recursive h1 => exact absurd h1 hrec
  | exported _ h1 => exact absurd h1 hexp
  | exportedLast _ h1 => exact absurd h1 hexp
  | @child h hp v s k kids st' _ _ hf _ _ hpar hkids hk hidx hothers hm =>
    have hki : k ≠ idx := by rintro rfl; exact absurd (hact.symm.trans hf.2.1) (by simp)
    obtain ⟨rfl, rfl⟩ : s = .active ∧ hp = Handle.default := by
      rcases hpar with ⟨_, h1, h2⟩ | ⟨h1, _⟩
      · refine ⟨h1, ?_⟩
        rcases h2 with ⟨_, h2⟩ | ⟨h2, _⟩
        · exact h2
        · exact absurd hdef h2
      · exact absurd hret h1
    refine ⟨k, ⟨hf.2.1, by rw [hk]; rfl, by rw [hk]; rfl, fun _ => ?_, fun j hj => ?_, hm⟩, ?_⟩
    · rw [hk]
      show (st'.at idx).state ≠ _
      rw [hidx]; simp
    · by_cases hji : j = idx
      · subst hji
        refine ⟨⟨kids, ?_⟩, fun m hmk => ?_⟩
        · rw [hidx, hdef.symm, hact.symm]
        · rw [Lists, hidx]
          show kids.getLsbD m = true ↔ _
          rw [hkids]
          exact ⟨fun x => x.resolve_right hmk, .inl⟩
      · unfold Lists; rw [hothers j hj hji]
        exact ⟨⟨_, rfl⟩, fun _ _ => Iff.rfl⟩
    · rw [Names, hk]; exact ⟨rfl, rfl, rfl⟩

/-- A simulation context. -/
theorem InitEffect.grown {f loc : U32} {h : Handle} (he : InitEffect st f loc h st')
    (hdef : ¬ Bit f IFlag.default) : ∃ k, Grown st k st' ∧ Names st' h loc k := by
  obtain ⟨k, hf, hk, ho, hc, hi, _⟩ := he
  refine ⟨k, ⟨hf.2.1, by rw [hk]; rfl, by rw [hk]; rfl, fun hx => ?_, fun j hj => ?_, hc, ?_⟩, ?_⟩
  · rw [hk] at hx; exact absurd rfl hx
  · unfold Lists; rw [ho j hj]; exact ⟨⟨_, rfl⟩, fun _ _ => Iff.rfl⟩
  · rw [Bool.eq_iff_iff, hi]
    exact ⟨fun x => x.resolve_right hdef, .inl⟩
  · rw [Names, hk]; exact ⟨rfl, rfl, rfl⟩

end Dpe
