import Verif.Proofs.PlacementCert
import Verif.Proofs.Complete
/-
Every command runs in lock step on states that hold the same contexts in different slots.
-/
namespace Dpe
variable {cfg : Cfg} {σ α β : Type} {S : Border σ} {st st2 : State cfg} {ρ : Renumbering cfg.maxHandles}

/-! ### Changes of the state -/

theorem Relinked.symm {c c2 : Context cfg} (h : Relinked ρ c c2) : Relinked ρ.symm c2 c := by
  obtain ⟨⟨ch, rfl⟩, h2⟩ := h
  refine ⟨⟨c.children, ?_⟩, fun j => ?_⟩
  · show c = { c with parentIdx := ρ.back (ρ.to c.parentIdx) }
    rw [ρ.back_to]
  · have := h2 (ρ.back j)
    rw [ρ.to_back] at this
    exact this.symm

namespace Shared

theorem symm (h : Shared S ρ st st2) : Shared S ρ.symm st2 st where
  marker := h.marker.symm
  version := h.version.symm
  support := h.support.symm
  flags := h.flags.symm
  inited := h.inited.symm
  live j hj := by
    obtain ⟨i, rfl⟩ := ρ.surj j
    show Relinked _ _ (st.at (ρ.back (ρ.to i)))
    rw [ρ.back_to]
    exact (h.live i (h.live_iff.1 hj)).symm
  spare j hj := by
    obtain ⟨i, rfl⟩ := ρ.surj j
    show _ ∧ Beyond S st (ρ.back (ρ.to i))
    rw [ρ.back_to]
    exact (h.spare i fun hl => hj (h.live_iff.2 hl)).symm

theorem set (h : Shared S ρ st st2) {i : Nat} (hi : i < cfg.maxHandles) {c c2 : Context cfg}
    (hc : Relinked ρ c c2) (hs : c.state ≠ .inactive) (hL : S.mine c.locality) :
    Shared S ρ (st.setCtx i c) (st2.setCtx (ρ.to i) c2) where
  marker := h.marker
  version := h.version
  support := h.support
  flags := h.flags
  inited := h.inited
  live j hj := by
    by_cases e : j = i
    · subst e
      rw [at_setCtx_self hi, at_setCtx_self (ρ.lt.2 hi)]; exact hc
    · have e2 : ρ.to j ≠ ρ.to i := fun x => e (ρ.inj x)
      rw [Inside, Live, at_setCtx_ne hi _ e] at hj
      rw [at_setCtx_ne hi _ e, at_setCtx_ne (ρ.lt.2 hi) _ e2]
      exact h.live j hj
  spare j hj := by
    by_cases e : j = i
    · subst e
      rw [Inside, Live, at_setCtx_self hi] at hj
      exact absurd ⟨hs, hL⟩ hj
    · have e2 : ρ.to j ≠ ρ.to i := fun x => e (ρ.inj x)
      rw [Inside, Live, at_setCtx_ne hi _ e] at hj
      unfold Beyond Inside Live
      rw [at_setCtx_ne hi _ e, at_setCtx_ne (ρ.lt.2 hi) _ e2]
      exact h.spare j hj

theorem initialized (h : Shared S ρ st st2) :
    Shared S ρ { st with hasInitialized := true } { st2 with hasInitialized := true } :=
  ⟨h.marker, h.version, h.support, h.flags, rfl, h.live, h.spare⟩

/-- Slots without a context may be renumbered at will. -/
theorem exchange (h : Shared S ρ st st2) (wf : WF st) (wf2 : WF st2) (ap : Apart S.mine st)
    (ap2 : Apart S.mine st2) {a b : Nat} (ha : a < cfg.maxHandles)
    (hb : b < cfg.maxHandles) (la : ¬ Inside S.mine st2 a) (lb : ¬ Inside S.mine st2 b) :
    Shared S (ρ.swap a b ha hb) st st2 := by
  have key : ∀ i, (i = ROOT ∨ Inside S.mine st i) → (ρ.swap a b ha hb).to i = ρ.to i := by
    intro i hi
    have h1 : ρ.to i ≠ a := by
      rintro rfl
      rcases hi with rfl | hi
      · rw [renumber_root] at ha; exact root_not_lt ha
      · exact la (h.live_iff.2 hi)
    have h2 : ρ.to i ≠ b := by
      rintro rfl
      rcases hi with rfl | hi
      · rw [renumber_root] at hb; exact root_not_lt hb
      · exact lb (h.live_iff.2 hi)
    show (if _ then _ else _) = _
    rw [if_neg h1, if_neg h2]
  refine ⟨h.marker, h.version, h.support, h.flags, h.inited, fun i hi => ?_, fun i hi => ?_⟩
  · rw [key i (.inr hi)]
    obtain ⟨⟨ch, e⟩, h2⟩ := h.live i hi
    refine ⟨⟨ch, ?_⟩, fun j => ?_⟩
    · rw [e, key]
      by_cases hp : (st.at i).parentIdx = ROOT
      · exact .inl hp
      · exact .inr (hi.parent wf ap hp)
    · by_cases hj : Inside S.mine st j
      · rw [key j (.inr hj)]; exact h2 j
      · have n1 : (st.at i).children.getLsbD j ≠ true := fun x => hj (hi.child wf ap x)
        have n2 : (st2.at (ρ.to i)).children.getLsbD ((ρ.swap a b ha hb).to j) ≠ true := by
          intro x
          have hl := (h.live_iff.2 hi).child wf2 ap2 x
          obtain ⟨k, hk⟩ := ρ.surj ((ρ.swap a b ha hb).to j)
          rw [← hk, h.live_iff] at hl
          rw [← key k (.inr hl)] at hk
          exact hj ((ρ.swap a b ha hb).inj hk ▸ hl)
        rw [Bool.eq_false_iff.2 n1, Bool.eq_false_iff.2 n2]
  · refine ⟨(h.spare i hi).1, ?_⟩
    obtain ⟨k, hk⟩ := ρ.surj ((ρ.swap a b ha hb).to i)
    rw [← hk]
    refine (h.spare k fun hl => ?_).2
    rw [← key k (.inr hl)] at hk
    exact hi ((ρ.swap a b ha hb).inj hk ▸ hl)

theorem desc (h : Shared S ρ st st2) (wf : WF st) (ap : Apart S.mine st) {i j : Nat}
    (hi : Inside S.mine st i) (hd : Desc st i j) : Desc st2 (ρ.to i) (ρ.to j) ∧ Inside S.mine st j := by
  induction hd with
  | child h1 => exact ⟨.child ((h.lists hi).2 h1), hi.child wf ap h1⟩
  | step _ h1 ih => exact ⟨.step ih.1 ((h.lists ih.2).2 h1), ih.2.child wf ap h1⟩

theorem only (h : Shared S ρ st st2) {i : Nat} (hi : Inside S.mine st i)
    (hc : ∃ c, ∀ k, Lists st i k ↔ k = c) : ∃ c, ∀ k, Lists st2 (ρ.to i) k ↔ k = c := by
  obtain ⟨c, hc⟩ := hc
  refine ⟨ρ.to c, fun k => ?_⟩
  obtain ⟨k, rfl⟩ := ρ.surj k
  rw [h.lists hi, hc, ρ.to_eq]

theorem retired_iff (h : Shared S ρ st st2) {i : Nat} (hi : Inside S.mine st i)
    (hr : (st.at i).state = .retired) : (st2.at (ρ.to i)).state = .retired := by
  rw [(h.live i hi).state, hr]

theorem retiredUp (h : Shared S ρ st st2) (wf : WF st) (ap : Apart S.mine st) {i j : Nat}
    (hi : Inside S.mine st i) (hd : RetiredUp st i j) :
    RetiredUp st2 (ρ.to i) (ρ.to j) ∧ Inside S.mine st j := by
  induction hd with
  | parent h1 h2 h3 =>
    have hp := hi.parent wf ap h1
    refine ⟨?_, hp⟩
    rw [← (h.live i hi).parent]
    refine .parent ?_ ?_ ?_
    · rw [(h.live i hi).parent]; exact fun e => h1 (renumber_root_iff.1 e)
    · rw [(h.live i hi).parent]; exact h.retired_iff hp h2
    · rw [(h.live i hi).parent]; exact h.only hp h3
  | step _ h1 h2 h3 ih =>
    obtain ⟨ih, hl⟩ := ih
    have hp := hl.parent wf ap h1
    refine ⟨?_, hp⟩
    rw [← (h.live _ hl).parent]
    refine .step ih ?_ ?_ ?_
    · rw [(h.live _ hl).parent]; exact fun e => h1 (renumber_root_iff.1 e)
    · rw [(h.live _ hl).parent]; exact h.retired_iff hp h2
    · rw [(h.live _ hl).parent]; exact h.only hp h3

theorem doomed (h : Shared S ρ st st2) (wf : WF st) (wf2 : WF st2) (ap : Apart S.mine st)
    (ap2 : Apart S.mine st2) {i j : Nat} (hi : Inside S.mine st i) :
    DestroyedWith st2 (ρ.to i) (ρ.to j) ↔ DestroyedWith st i j := by
  constructor
  · have hs := h.symm
    have e : ∀ k, ρ.symm.to (ρ.to k) = k := ρ.back_to
    rintro (h1 | h1 | h1)
    · exact .inl (ρ.inj h1)
    · have := (hs.desc wf2 ap2 (h.live_iff.2 hi) h1).1
      rw [e, e] at this
      exact .inr (.inl this)
    · have := (hs.retiredUp wf2 ap2 (h.live_iff.2 hi) h1).1
      rw [e, e] at this
      exact .inr (.inr this)
  · rintro (rfl | h1 | h1)
    · exact .inl rfl
    · exact .inr (.inl (h.desc wf ap hi h1).1)
    · exact .inr (.inr (h.retiredUp wf ap hi h1).1)

theorem destroyed (h : Shared S ρ st st2) (wf : WF st) (wf2 : WF st2) (ap : Apart S.mine st)
    (ap2 : Apart S.mine st2) {i : Nat} (hi : Inside S.mine st i)
    {t t2 : State cfg} (ht : DestroyEffect st i t) (ht2 : DestroyEffect st2 (ρ.to i) t2) :
    Shared S ρ t t2 := by
  obtain ⟨w1, k1, ⟨m1, v1, s1, f1⟩, n1⟩ := ht
  obtain ⟨w2, k2, ⟨m2, v2, s2, f2⟩, n2⟩ := ht2
  refine ⟨by rw [m1, m2, h.marker], by rw [v1, v2, h.version], by rw [s1, s2, h.support],
    by rw [f1, f2, h.flags], by rw [n1, n2, h.inited], fun j hj => ?_, fun j hj => ?_⟩
  · have hn : ¬ DestroyedWith st i j := by
      intro x; rw [Inside, Live, w1 j x] at hj; exact hj.1 rfl
    have hn2 : ¬ DestroyedWith st2 (ρ.to i) (ρ.to j) := fun x => hn ((h.doomed wf wf2 ap ap2 hi).1 x)
    obtain ⟨⟨ch, e1⟩, l1⟩ := k1 j hn
    obtain ⟨⟨ch2, e2⟩, l2⟩ := k2 (ρ.to j) hn2
    have hl : Inside S.mine st j := by rw [Inside, Live, e1] at hj; exact hj
    obtain ⟨⟨ch', e⟩, _⟩ := h.live j hl
    refine ⟨⟨ch2, ?_⟩, fun k => ?_⟩
    · rw [e2, e, e1]
    · rw [Bool.eq_iff_iff]
      exact (l2 (ρ.to k)).trans (Iff.trans (and_congr (h.lists hl) (not_congr (h.doomed wf wf2 ap ap2 hi)))
        (l1 k).symm)
  · unfold Beyond Inside Live
    by_cases hn : DestroyedWith st i j
    · rw [w1 j hn, w2 _ ((h.doomed wf wf2 ap ap2 hi).2 hn)]
      exact ⟨⟨fun x => x.1 rfl, .inr S.ones⟩, fun x => x.1 rfl, .inr S.ones⟩
    · obtain ⟨⟨ch, e1⟩, _⟩ := k1 j hn
      obtain ⟨⟨ch2, e2⟩, _⟩ := k2 (ρ.to j) fun x => hn ((h.doomed wf wf2 ap ap2 hi).1 x)
      have hl : ¬ Inside S.mine st j := by rw [Inside, Live, e1] at hj; exact hj
      rw [e1, e2]
      exact h.spare j hl

end Shared

/-! ### Questions about the state -/

theorem nonDefaultExists_iff {loc : U32} {idx : Nat} : nonDefaultExists st loc idx = true ↔
    ∃ j, (st.at j).state = .active ∧ (st.at j).locality = loc ∧ (st.at j).handle ≠ Handle.default ∧ j ≠ idx := by
  constructor
  · intro h
    unfold nonDefaultExists at h
    rw [List.any_eq_true] at h
    obtain ⟨⟨c, j⟩, hm, h⟩ := h
    rw [List.mem_zipIdx_iff_getElem?] at hm
    have e := at_of_getElem? hm
    simp only [Bool.and_eq_true, beq_iff_eq, Bool.not_eq_true', isDefault_false, bne_iff_ne] at h
    exact ⟨j, by rw [e]; exact h.1.1.1, by rw [e]; exact h.1.1.2, by rw [e]; exact h.1.2, h.2⟩
  · rintro ⟨j, h1, h2, h3, h4⟩
    by_contra hc
    rw [Bool.not_eq_true] at hc
    exact h4 (nonDefaultExists_false hc j h1 h2 h3)

namespace Shared

theorem nonDefault (h : Shared S ρ st st2) {loc : U32} (hL : S.mine loc) {i : Nat} :
    nonDefaultExists st2 loc (ρ.to i) = nonDefaultExists st loc i := by
  rw [Bool.eq_iff_iff, nonDefaultExists_iff, nonDefaultExists_iff]
  constructor
  · rintro ⟨j, h1, h2, h3, h4⟩
    obtain ⟨j, rfl⟩ := ρ.surj j
    have ha := (h.active hL).1 ⟨h1, h2⟩
    have hr := h.live j (.of_active ha.1 (ha.2 ▸ hL))
    exact ⟨j, ha.1, ha.2, by rw [← hr.handle]; exact h3, fun e => h4 (e ▸ rfl)⟩
  · rintro ⟨j, h1, h2, h3, h4⟩
    have ha := (h.active hL).2 ⟨h1, h2⟩
    have hr := h.live j (.of_active h1 (h2 ▸ hL))
    exact ⟨ρ.to j, ha.1, ha.2, by rw [hr.handle]; exact h3, fun e => h4 (ρ.inj e)⟩

theorem hasDefault (h : Shared S ρ st st2) (ht : TidyIn S.mine st) {hd : Handle} {loc : U32}
    (hL : S.mine loc) :
    (okOpt (st2.findActive hd loc)).isSome = (okOpt (st.findActive hd loc)).isSome := by
  rcases h.find ht (hd := hd) hL with ⟨i, _, e1, e2⟩ | ⟨e, e1, e2⟩ <;> rw [e1, e2] <;> rfl

theorem safe (h : Shared S ρ st st2) (ht : TidyIn S.mine st) {c : DeriveCmd cfg} {i : Nat} {hd : Handle}
    {loc tl : U32} (hL : S.mine loc) (hT : S.mine tl) (hr : Resolves st hd loc i) :
    safeToMakeChild st2 c (ρ.to i) tl = safeToMakeChild st c i tl := by
  have key : (safeToMakeChild st2 c (ρ.to i) tl = false) ↔ (safeToMakeChild st c i tl = false) := by
    rw [clash_iff hr, clash_iff ((h.resolves ht hL).2 hr)]
    unfold DefaultClash
    have hi := h.live i (.of_active hr.1.1 (hr.1.2.2 ▸ hL))
    refine or_congr (and_congr_right fun _ => ?_) (and_congr_right fun _ => ?_)
    · rw [hi.handle]
      constructor
      · rintro ⟨j, h1, h2, h3⟩
        obtain ⟨j, rfl⟩ := ρ.surj j
        have hj := (h.active hT).1 ⟨h1, h2⟩
        exact ⟨j, hj.1, hj.2, h3.imp_left fun x e => x (e ▸ rfl)⟩
      · rintro ⟨j, h1, h2, h3⟩
        have hj := (h.active hT).2 ⟨h1, h2⟩
        exact ⟨ρ.to j, hj.1, hj.2, h3.imp_left fun x e => x (ρ.inj e)⟩
    · constructor
      · rintro ⟨j, h1, h2⟩
        obtain ⟨j, rfl⟩ := ρ.surj j
        exact ⟨j, (h.resolves ht hT).1 h1, h2.imp_left fun x e => x (e ▸ rfl)⟩
      · rintro ⟨j, h1, h2⟩
        exact ⟨ρ.to j, (h.resolves ht hT).2 h1, h2.imp_left fun x e => x (ρ.inj e)⟩
  rcases h1 : safeToMakeChild st c i tl
  · exact key.2 h1
  · rcases h2 : safeToMakeChild st2 c (ρ.to i) tl
    · rw [key.1 h2] at h1; cases h1
    · rfl

theorem typeFree (h : Shared S ρ st st2) (wf : WF st) (ap : Apart S.mine st) {i : Nat}
    (hi : Inside S.mine st i) (ty : U32) :
    typeUnique st2 ty (childList cfg (st2.at (ρ.to i)).children) =
      typeUnique st ty (childList cfg (st.at i).children) := by
  rw [typeUnique_total fun k hk => ((mem_childList _ _ _).1 hk).1,
    typeUnique_total fun k hk => ((mem_childList _ _ _).1 hk).1]
  congr 2
  rw [Bool.eq_iff_iff, List.any_eq_true, List.any_eq_true]
  constructor
  · rintro ⟨k, h1, h2⟩
    obtain ⟨k, rfl⟩ := ρ.surj k
    have h1 := (h.lists hi).1 ((mem_childList _ _ _).1 h1).2
    have hl := hi.child wf ap h1
    rw [(h.live k hl).tci] at h2
    exact ⟨k, (mem_childList _ _ _).2 ⟨hl.lt, h1⟩, h2⟩
  · rintro ⟨k, h1, h2⟩
    have h1 := ((mem_childList _ _ _).1 h1).2
    have hl := hi.child wf ap h1
    rw [← (h.live k hl).tci] at h2
    exact ⟨ρ.to k, (mem_childList _ _ _).2 ⟨(h.live_iff.2 hl).lt, (h.lists hi).2 h1⟩, h2⟩

theorem childOfType (h : Shared S ρ st st2) (ht : TidyIn S.mine st) (wf : WF st) (ap : Apart S.mine st)
    {i : Nat} (hi : Inside S.mine st i) (ty : U32) :
    findChildOfType st2 ty (childList cfg (st2.at (ρ.to i)).children) =
      (findChildOfType st ty (childList cfg (st.at i).children)).map ρ.to := by
  rcases h1 : findChildOfType st ty (childList cfg (st.at i).children) with _ | k
  · rcases h2 : findChildOfType st2 ty (childList cfg (st2.at (ρ.to i)).children) with _ | k
    · rfl
    · obtain ⟨k, rfl⟩ := ρ.surj k
      obtain ⟨a1, a2, a3, _⟩ := findChildOfType_mem h2
      have a1 := (h.lists hi).1 a1
      have hk := hi.child wf ap a1
      have a2 := (h.active_iff hk).1 a2
      rw [(h.live k hk).tci] at a3
      obtain ⟨j, hj⟩ := findChildOfType_some a1 a2 a3
      rw [h1] at hj; cases hj
  · obtain ⟨a1, a2, a3, _⟩ := findChildOfType_mem h1
    have hk := hi.child wf ap a1
    have b1 := (h.lists hi).2 a1
    have b2 := (h.active_iff hk).2 a2
    have b3 := (h.live k hk).tci
    obtain ⟨j, hj⟩ := findChildOfType_some b1 b2 (by rw [b3, a3])
    obtain ⟨c1, c2, c3, _⟩ := findChildOfType_mem hj
    obtain ⟨j, rfl⟩ := ρ.surj j
    have c1 := (h.lists hi).1 c1
    rw [(h.live j (hi.child wf ap c1)).tci] at c3
    have e := ht.sib i j k c1 a1 (c3.trans a3.symm)
    rw [hj, e]
    rfl

theorem hasKids (h : Shared S ρ st st2) {i : Nat} (hi : Inside S.mine st i) :
    (st2.at (ρ.to i)).hasChildren = (st.at i).hasChildren := by
  rw [Bool.eq_iff_iff, hasChildren_iff, hasChildren_iff]
  constructor
  · rintro ⟨j, hj⟩
    obtain ⟨j, rfl⟩ := ρ.surj j
    exact ⟨j, (h.lists hi).1 hj⟩
  · rintro ⟨j, hj⟩
    exact ⟨ρ.to j, (h.lists hi).2 hj⟩

theorem destroy (h : Shared S ρ st st2) (ht : TidyIn S.mine st) (wf : WF st) (wf2 : WF st2)
    (ap : Apart S.mine st) (ap2 : Apart S.mine st2) {hd : Handle} {loc : U32} (hL : S.mine loc) :
    (∃ i t t2, Resolves st hd loc i ∧ destroyContext st hd loc = .ok t ∧ destroyContext st2 hd loc = .ok t2 ∧
      Shared S ρ t t2 ∧ (t.at i).handle = Handle.invalid ∧ (t2.at (ρ.to i)).handle = Handle.invalid) ∨
    ∃ e, destroyContext st hd loc = .error e ∧ destroyContext st2 hd loc = .error e := by
  rcases h.find ht (hd := hd) hL with ⟨i, hr, e1, e2⟩ | ⟨e, e1, e2⟩
  · left
    obtain ⟨S, hS, _⟩ := destroySet_spec wf e1
    obtain ⟨S2, hS2, _⟩ := destroySet_spec wf2 e2
    have d1 := destroyEffect_of wf hS e1
    have d2 := destroyEffect_of wf2 hS2 e2
    refine ⟨i, _, _, hr, by rw [destroyContext, hS]; rfl, by rw [destroyContext, hS2]; rfl,
      h.destroyed wf wf2 ap ap2 (.of_active hr.1.1 (hr.1.2.2 ▸ hL)) d1 d2, ?_, ?_⟩
    · rw [d1.1 i (.inl rfl)]; rfl
    · rw [d2.1 _ (.inl rfl)]; rfl
  · right
    refine ⟨e, ?_, ?_⟩
    · rw [destroyContext, destroySet, e1]; rfl
    · rw [destroyContext, destroySet, e2]; rfl

end Shared

/-! ### The commands -/

theorem Twin.some {Q : β → β → State cfg → State cfg → Prop} {a b : α} {e : Err} {f g : α → M cfg σ β}
    (hf : Twin S Q (f a) (g b) st st2) :
    Twin S Q (M.okOr (some a) e >>= f) (M.okOr (some b) e >>= g) st st2 := fun w out hw => hf w out hw

theorem Twin.ok {Q : β → β → State cfg → State cfg → Prop} {a b : α} {f g : α → M cfg σ β}
    (hf : Twin S Q (f a) (g b) st st2) :
    Twin S Q (M.lift (.ok a) >>= f) (M.lift (.ok b) >>= g) st st2 := fun w out hw => hf w out hw

/-- What lock step means at the end of a command. -/
theorem Twin.split {x y : M cfg σ α} (hx : Twin S (Done S) x y st st2) {w : σ} (hw : Avoids S.ops S.taken w)
    (out : Bytes) :
    (y ⟨st2, w, out⟩).1 = (x ⟨st, w, out⟩).1 ∧ (y ⟨st2, w, out⟩).2.w = (x ⟨st, w, out⟩).2.w ∧
    (y ⟨st2, w, out⟩).2.out = (x ⟨st, w, out⟩).2.out ∧
    Concur S (x ⟨st, w, out⟩).2.st (y ⟨st2, w, out⟩).2.st ∧ OpCalls S.ops w (x ⟨st, w, out⟩).2.w := by
  rcases hx w out hw with ⟨a, b, w', out', t, t2, e1, e2, hc, rfl, h4⟩ | ⟨e, w', out', t, t2, e1, e2, hc, h4⟩
  · rw [e1, e2]; exact ⟨rfl, rfl, rfl, h4, hc⟩
  · rw [e1, e2]; exact ⟨rfl, rfl, rfl, h4, hc⟩

theorem noRoom_iff : st.nextInactive = none ↔ NoRoom st := noFree_iff

/-- The first free slot in both states, after renumbering the free slots. -/
theorem Twin.free {Q : β → β → State cfg → State cfg → Prop} (h : Shared S ρ st st2) (wf : WF st)
    (wf2 : WF st2) (ap : Apart S.mine st) (ap2 : Apart S.mine st2) (hroom : NoRoom st ↔ NoRoom st2) {e : Err}
    {f g : Nat → M cfg σ β}
    (hf : ∀ (ρ' : Renumbering cfg.maxHandles) k, Shared S ρ' st st2 →
      (∀ i, Inside S.mine st i → ρ'.to i = ρ.to i) → FirstFree st k → Twin S Q (f k) (g (ρ'.to k)) st st2) :
    Twin S Q (M.okOr st.nextInactive e >>= f) (M.okOr st2.nextInactive e >>= g) st st2 := by
  rcases h1 : st.nextInactive with _ | k
  · have : st2.nextInactive = none := noRoom_iff.2 (hroom.1 (noRoom_iff.1 h1))
    rw [this]
    exact fun w out _ => .inr ⟨e, w, out, st, st2, rfl, rfl, .nil _, ρ, h⟩
  · rcases h2 : st2.nextInactive with _ | k2
    · rw [noRoom_iff.2 (hroom.2 (noRoom_iff.1 h2))] at h1
      cases h1
    · have hk := firstFree_iff.1 h1
      have hk2 := firstFree_iff.1 h2
      have l1 : ¬ Inside S.mine st2 (ρ.to k) := fun x => (h.live_iff.1 x).1 hk.2.1
      have l2 : ¬ Inside S.mine st2 k2 := fun x => x.1 hk2.2.1
      have hm := h.exchange wf wf2 ap ap2 (ρ.lt.2 hk.1) hk2.1 l1 l2
      have e2 : k2 = (ρ.swap (ρ.to k) k2 (ρ.lt.2 hk.1) hk2.1).to k := by
        show _ = if _ then _ else _
        rw [if_pos rfl]
      have := hf _ k hm (fun i hi => by
        show (if _ then _ else _) = _
        have hl := h.live_iff.2 hi
        rw [if_neg (fun x : ρ.to i = ρ.to k => l1 (x ▸ hl)), if_neg (fun x : ρ.to i = k2 => l2 (x ▸ hl))]) hk
      rw [← e2] at this
      exact fun w out hw => this w out hw

theorem relinked_new {a a2 : ActivateArgs} (h : a2 = { a with parentIdx := ρ.to a.parentIdx }) :
    Relinked ρ (Context.new.activate a : Context cfg) (Context.new.activate a2) := by
  subst h
  exact ⟨⟨0, rfl⟩, fun _ => by simp [Context.activate]⟩

section
variable (h : Shared S ρ st st2) (wf : WF st) (wf2 : WF st2) (ap : Apart S.mine st) (ap2 : Apart S.mine st2)
include h wf wf2 ap ap2

theorem twin_init (flags : U32) {loc : U32} (hL : S.mine loc) (hroom : NoRoom st ↔ NoRoom st2) :
    Twin S (Done S) (initCtx S.ops flags loc) (initCtx S.ops flags loc) st st2 := by
  unfold initCtx
  refine Twin.get ((Twin.failIf ⟨ρ, h⟩ (by rw [h.support, h.inited]) _).same fun _ =>
    (Twin.failIf ⟨ρ, h⟩ rfl _).same fun _ => Twin.free h wf wf2 ap ap2 hroom fun ρ' k hm _ hk => ?_)
  have hc : ∀ hd, Relinked ρ' (Context.new.activate (initArgs flags loc hd) : Context cfg)
      (Context.new.activate (initArgs flags loc hd)) := fun hd => relinked_new (by
    show _ = { initArgs flags loc hd with parentIdx := ρ'.to ROOT }
    rw [renumber_root]; rfl)
  unfold initHandle
  by_cases hd : initDefaultFlag flags = true
  · rw [if_pos hd]
    refine Twin.bind (R := fun a b t t2 => a = b ∧ Shared S ρ' t t2) ?_ ?_
    · exact Twin.modify (.pure ⟨rfl, hm.initialized⟩)
    · rintro a _ t t2 ⟨rfl, hm⟩
      exact Twin.modify (.reply ⟨ρ', hm.set hk.1 (hc a) (by simp [Context.activate]) hL⟩ _ _)
  · rw [if_neg hd]
    exact (twin_generate hm).same fun a =>
      Twin.modify (.reply ⟨ρ', hm.set hk.1 (hc a) (by simp [Context.activate]) hL⟩ _ _)

variable (ht : TidyIn S.mine st)
include ht

omit wf wf2 ap ap2 in
theorem twin_rotate (c : RotateCmd) {loc : U32} (hL : S.mine loc) :
    Twin S (Done S) (rotateCtx S.ops c loc) (rotateCtx S.ops c loc) st st2 := by
  unfold rotateCtx
  refine Twin.get ((Twin.failIf ⟨ρ, h⟩ (by rw [h.support]) _).same fun _ => Twin.find h ht hL fun i hr => ?_)
  have hl : Inside S.mine st i := .of_active hr.1.1 (hr.1.2.2 ▸ hL)
  refine (Twin.failIf ⟨ρ, h⟩ (by rw [h.hasDefault ht hL, h.nonDefault hL]) _).same fun _ =>
    (twin_pick h _).same fun x => Twin.slot hl h ?_
  exact Twin.modify (.reply ⟨ρ, h.set hr.lt ((h.live i hl).withHandle x) hl.1 hl.2⟩ _ _)

theorem twin_destroy (hd : Handle) {loc : U32} (hL : S.mine loc) :
    Twin S (Done S) (destroyCtx hd loc : M cfg σ Nat) (destroyCtx hd loc) st st2 := by
  unfold destroyCtx
  refine Twin.get ?_
  rcases h.destroy ht wf wf2 ap ap2 (hd := hd) hL with ⟨i, t, t2, _, e1, e2, hm, _⟩ | ⟨e, e1, e2⟩
  · rw [e1, e2]
    have := Twin.reply (σ := σ) ⟨ρ, hm⟩ (hdrBytes cfg.profile .noError)
      (hdrBytes cfg.profile .noError).length
    exact fun w out hw => this w out hw
  · rw [e1, e2]
    exact fun w out _ => .inr ⟨e, w, out, st, st2, rfl, rfl, .nil _, ρ, h⟩

omit wf2 ap2 in
theorem twin_sign (c : SignCmd) {loc : U32} (hL : S.mine loc) :
    Twin S (Done S) (signCmd S.ops c loc) (signCmd S.ops c loc) st st2 := by
  have ha : Concur S st st2 := ⟨ρ, h⟩
  unfold signCmd
  refine (Twin.lift ha _).same fun d => Twin.get (Twin.find h ht hL fun i hr => ?_)
  have hl : Inside S.mine st i := .of_active hr.1.1 (hr.1.2.2 ▸ hL)
  have hc := h.live i hl
  refine Twin.slot hl h ((Twin.failIf ha (by rw [hc.ctype]) _).same fun _ => ?_)
  refine Twin.same ((twin_measure h wf ap hl).same fun _ => (Twin.crypto ha _).same fun _ =>
    (Twin.crypto ha _).same fun _ => Twin.crypto ha _) fun sig => ?_
  refine (twin_roll h hc).ctx fun a b hab hs hlo => ?_
  rw [hab.handle]
  exact Twin.modify (.reply ⟨ρ, h.set hr.lt hab (by rw [hs]; exact hl.1) (by rw [hlo]; exact hl.2)⟩ _ _)

omit ap2 in
theorem twin_certify (c : CertifyCmd) {loc : U32} (hL : S.mine loc) :
    Twin S (Done S) (certifyKey (S.ops.env cfg) c loc) (certifyKey (S.ops.env cfg) c loc) st st2 := by
  have ha : Concur S st st2 := ⟨ρ, h⟩
  unfold certifyKey
  refine Twin.get (Twin.find h ht hL fun i hr => ?_)
  have hl : Inside S.mine st i := .of_active hr.1.1 (hr.1.2.2 ▸ hL)
  have hc := h.live i hl
  refine Twin.slot hl h ?_
  rw [h.support, hc.x509, hc.locality]
  refine (Twin.failIf ha rfl _).same fun _ => (Twin.failIf ha rfl _).same fun _ =>
    (Twin.failIf ha rfl _).same fun _ => (Twin.failIf ha rfl _).same fun _ =>
    (Twin.lift ha _).same fun kind => ?_
  have e : certifyArgs st2 c loc = certifyArgs st c loc := by unfold certifyArgs; rw [h.flags]
  rw [e]
  refine (twin_cert h ht wf wf2 ap _ _ hL _).same fun r => (twin_roll h hc).ctx fun a b hab hs hlo => ?_
  rw [hab.handle]
  have hm : Concur S (st.setCtx i a) (st2.setCtx (ρ.to i) b) :=
    ⟨ρ, h.set hr.lt hab (by rw [hs]; exact hl.1) (by rw [hlo]; exact hl.2)⟩
  exact Twin.modify ((Twin.okOr hm _ _).same fun hdr => .reply hm _ _)

omit wf2 ap2 in
theorem twin_update (c : UpdateCmd cfg) {loc : U32} (hL : S.mine loc) :
    Twin S (Done S) (updateCtx S.ops c loc) (updateCtx S.ops c loc) st st2 := by
  have ha : Concur S st st2 := ⟨ρ, h⟩
  unfold updateCtx
  refine (Twin.failIf ha rfl _).same fun _ => Twin.get ?_
  rcases h.find ht (hd := c.parentHandle) hL with ⟨i, hr, e1, e2⟩ | ⟨e, e1, e2⟩
  · rw [e1, e2]
    have hl : Inside S.mine st i := .of_active hr.1.1 (hr.1.2.2 ▸ hL)
    have hc := h.live i hl
    refine Twin.ok (Twin.slot hl h ?_)
    rw [h.childOfType ht wf ap hl]
    rcases hk : findChildOfType st c.tciType (childList cfg (st.at i).children) with _ | k
    · exact fun w out _ => .inr ⟨.invalidArgument, w, out, st, st2, rfl, rfl, .nil _, ha⟩
    · obtain ⟨hkm, _, _, _⟩ := findChildOfType_mem hk
      have hkl := hl.child wf ap hkm
      have hkc := h.live k hkl
      refine Twin.some (Twin.slot hkl h ?_)
      rw [hkc.locality]
      refine (twin_addTci ha hkc _ _).ctx fun x y hxy hsx hlx => (twin_roll h hc).ctx fun a b hab hs hlo =>
        Twin.modify ?_
      have hm := h.set hr.lt hab (by rw [hs]; exact hl.1) (by rw [hlo]; exact hl.2)
      refine (twin_roll hm hxy).ctx fun x' y' hxy' hsx' hlx' => ?_
      rw [hab.handle, hxy'.handle]
      exact Twin.modify (.reply ⟨ρ, hm.set hkl.lt hxy' (by rw [hsx', hsx]; exact hkl.1)
        (by rw [hlx', hlx]; exact hkl.2)⟩ _ _)
  · rw [e1, e2]
    exact fun w out _ => .inr ⟨.invalidParentLocality, w, out, st, st2, rfl, rfl, .nil _, ha⟩

omit ht wf wf2 ap ap2 in
theorem twin_parent (c : DeriveCmd cfg) {i : Nat} (hl : Inside S.mine st i) (hi : (st.at i).state = .active) :
    Twin S (fun a b t t2 => (∃ x s, s ≠ .inactive ∧ a = { st.at i with handle := x, state := s } ∧
        b = { st2.at (ρ.to i) with handle := x, state := s }) ∧ t = st ∧ t2 = st2)
      (deriveParent S.ops c (st.at i)) (deriveParent S.ops c (st2.at (ρ.to i))) st st2 := by
  have hc := h.live i hl
  have hi2 := (h.active_iff hl).2 hi
  unfold deriveParent
  rw [hc.handle]
  refine .ite (.ite ((twin_generate h).same fun x => .pure ⟨⟨x, .active, by simp, ?_, ?_⟩, rfl, rfl⟩)
    (.pure ⟨⟨(st.at i).handle, .active, by simp, ?_, ?_⟩, rfl, rfl⟩))
    (.pure ⟨⟨Handle.invalid, .retired, by simp, rfl, rfl⟩, rfl, rfl⟩)
  · rw [← hi]
  · rw [← hi2]
  · rw [← hi]
  · rw [← hi2, ← hc.handle]

omit ht wf wf2 ap ap2 in
theorem twin_recursive (c : DeriveCmd cfg) (tl : U32) {i : Nat} (hl : Inside S.mine st i) :
    Twin S (Done S) (deriveRecursive S.ops c i (st.at i) tl)
      (deriveRecursive S.ops c (ρ.to i) (st2.at (ρ.to i)) tl) st st2 := by
  have ha : Concur S st st2 := ⟨ρ, h⟩
  have hc := h.live i hl
  unfold deriveRecursive
  refine (Twin.failIf ha (by rw [hc.tci]) _).same fun _ => (twin_addTci ha hc _ _).ctx fun x y hxy hs hlo =>
    (twin_roll h hxy).ctx fun a b hab hs2 hlo2 => ?_
  rw [hab.handle]
  exact Twin.modify (.reply ⟨ρ, h.set hl.lt hab (by rw [hs2, hs]; exact hl.1) (by rw [hlo2, hlo]; exact hl.2)⟩ _ _)

theorem twin_export (c : DeriveCmd cfg) {loc : U32} (hL : S.mine loc) {i : Nat}
    (hr : Resolves st c.handle loc i) {a b : Context cfg} (hab : Relinked ρ a b) (hs : a.state ≠ .inactive)
    (hlo : a.locality = loc) :
    Twin S (Done S) (deriveExport (S.ops.env cfg) c loc i a) (deriveExport (S.ops.env cfg) c loc (ρ.to i) b)
      st st2 := by
  have ha : Concur S st st2 := ⟨ρ, h⟩
  have hl : Inside S.mine st i := .of_active hr.1.1 (hr.1.2.2 ▸ hL)
  unfold deriveExport
  refine (Twin.platform ha _).same fun u => (Twin.lift ha _).same fun ueid => Twin.get ?_
  have e : exportArgs st2 c loc ueid = exportArgs st c loc ueid := by unfold exportArgs; rw [h.flags]
  rw [e]
  refine (twin_cert h ht wf wf2 ap _ _ hL _).same fun r => Twin.get (Twin.slot hl h ?_)
  rw [h.hasKids hl]
  by_cases hk : (!c.retain && !(st.at i).hasChildren) = true
  · rw [if_pos hk, if_pos hk]
    rcases h.destroy ht wf wf2 ap ap2 (hd := c.handle) hL with ⟨j, t, t2, hj, e1, e2, hm, g1, g2⟩ | ⟨e, e1, e2⟩
    · have hij := hj.unique hr
      subst hij
      rw [e1, e2]
      refine Twin.ok (Twin.modify ?_)
      rw [getElem?_of_lt hr.lt, getElem?_of_lt (ρ.lt.2 hr.lt)]
      refine Twin.some ?_
      rw [g1, g2]
      exact .reply ⟨ρ, hm⟩ _ _
    · rw [e1, e2]
      exact fun w out _ => .inr ⟨e, w, out, st, st2, rfl, rfl, .nil _, ρ, h⟩
  · rw [if_neg hk, if_neg hk]
    refine Twin.ok (Twin.modify ?_)
    rw [getElem?_of_lt hr.lt, getElem?_of_lt (ρ.lt.2 hr.lt)]
    refine Twin.some ?_
    rw [at_setCtx_self hr.lt, at_setCtx_self (ρ.lt.2 hr.lt), hab.handle]
    exact .reply ⟨ρ, h.set hr.lt hab hs (hlo ▸ hL)⟩ _ _

theorem twin_child (c : DeriveCmd cfg) {loc tl : U32} (hL : S.mine loc) (hT : S.mine tl)
    (hroom : NoRoom st ↔ NoRoom st2) {i : Nat} (hr : Resolves st c.handle loc i)
    {x : Handle} {s : CtxState} (hs : s ≠ .inactive) :
    Twin S (Done S) (deriveChild S.ops c tl i (st.at i) { st.at i with handle := x, state := s })
      (deriveChild S.ops c tl (ρ.to i) (st2.at (ρ.to i)) { st2.at (ρ.to i) with handle := x, state := s })
      st st2 := by
  have hl : Inside S.mine st i := .of_active hr.1.1 (hr.1.2.2 ▸ hL)
  unfold deriveChild
  refine Twin.get (Twin.free h wf wf2 ap ap2 hroom fun ρ' k hm hag hk => ?_)
  rw [← hag i hl]
  have ha : Concur S st st2 := ⟨ρ', hm⟩
  have hc := hm.live i hl
  refine (Twin.failIf ha (by rw [hm.safe ht hL hT hr]) _).same fun _ => (twin_pick hm _).same fun hd => ?_
  have h64 := cfg.le64
  have hlt := hr.lt
  have hlt2 := ρ'.lt.2 hlt
  have hnew : Relinked ρ' (Context.new.activate (deriveArgs c tl i (st.at i) hd) : Context cfg)
      (Context.new.activate (deriveArgs c tl (ρ'.to i) (st2.at (ρ'.to i)) hd)) := by
    refine relinked_new ?_
    unfold deriveArgs
    rw [hc.ctype, hc.exports, hc.recursive, Nat.mod_eq_of_lt (show i < 256 by omega),
      Nat.mod_eq_of_lt (show ρ'.to i < 256 by omega)]
  refine (twin_addTci ha hnew _ _).ctx fun y z hyz hy hyl => ?_
  have hk1 := hk.1
  have hk2 := ρ'.lt.2 hk.1
  have e1 : ∀ (d : Context cfg) (j : Nat), j < cfg.maxHandles → d.addChild j = .ok (d.children ||| (1#64 <<< j)) := by
    intro d j hj
    unfold Context.addChild
    rw [if_neg (by omega), addChildBit_of_lt _ hj]
  rw [e1 _ _ hk.1, e1 _ _ hk2]
  refine Twin.ok (Twin.modify (.reply ⟨ρ', ?_⟩ _ _))
  refine (hm.set hk.1 hyz (by rw [hy]; simp [Context.activate]) (by rw [hyl]; exact hT)).set hlt ?_ hs hl.2
  obtain ⟨⟨ch, e⟩, hb⟩ := hc
  refine ⟨⟨(st2.at (ρ'.to i)).children ||| (1#64 <<< ρ'.to k), ?_⟩, fun j => ?_⟩
  · rw [e]
  · show ((st2.at (ρ'.to i)).children ||| _).getLsbD _ = ((st.at i).children ||| _).getLsbD _
    rw [BitVec.getLsbD_or, BitVec.getLsbD_or, hb, getLsbD_one_shift _ _ (by omega),
      getLsbD_one_shift _ _ (by omega)]
    congr 1
    rw [decide_eq_decide, ρ'.to_eq]

theorem twin_derive (c : DeriveCmd cfg) {loc : U32} (hL : S.mine loc) (hT : S.mine (targetOf c loc))
    (hroom : NoRoom st ↔ NoRoom st2) :
    Twin S (Done S) (deriveCtx (S.ops.env cfg) c loc) (deriveCtx (S.ops.env cfg) c loc) st st2 := by
  have ha : Concur S st st2 := ⟨ρ, h⟩
  unfold deriveCtx
  refine Twin.get ((Twin.failIf ha (by rw [h.support]) _).same fun _ => Twin.find h ht hL fun i hr => ?_)
  have hl : Inside S.mine st i := .of_active hr.1.1 (hr.1.2.2 ▸ hL)
  have hc := h.live i hl
  refine Twin.slot hl h ((Twin.failIf ha ?_ _).same fun _ => ?_)
  · unfold deriveBadArgs
    rw [hc.x509, hc.ctype, hc.exports, hc.recursive]
  · refine .ite (twin_recursive h c _ hl) ?_
    rw [h.typeFree wf ap hl]
    refine (Twin.lift ha _).same fun u => (Twin.failIf ha rfl _).same fun _ => ?_
    refine (twin_parent h c hl hr.1.1).bind ?_
    rintro a b t t2 ⟨⟨x, s, hs, ea, eb⟩, et, et2⟩
    rw [et, et2, ea, eb]
    refine .ite (twin_export h wf wf2 ap ap2 ht c hL hr ?_ hs hr.1.2.2)
      (twin_child h wf wf2 ap ap2 ht c hL hT hroom hr hs)
    obtain ⟨⟨ch, e⟩, hb⟩ := hc
    exact ⟨⟨ch, by rw [e]⟩, hb⟩

theorem twin_exec (c : Cmd cfg) {loc : U32} (hL : ∀ l, Concerns c loc l → S.mine l)
    (hroom : TakesSlot c → (NoRoom st ↔ NoRoom st2)) :
    Twin S (Done S) (exec (S.ops.env cfg) c loc) (exec (S.ops.env cfg) c loc) st st2 := by
  have ha : Concur S st st2 := ⟨ρ, h⟩
  have hl := hL loc (.inl rfl)
  cases c with
  | getProfile =>
    show Twin S (Done S) (getProfileCmd S.ops) (getProfileCmd S.ops) st st2
    unfold getProfileCmd
    refine Twin.get ?_
    rw [h.support]
    exact (twin_profile ha _).same fun b => .reply ha _ _
  | init f => exact twin_init h wf wf2 ap ap2 f hl (hroom trivial)
  | derive c => exact twin_derive h wf wf2 ap ap2 ht c hl (hL _ (.inr ⟨c, rfl, rfl⟩)) (hroom trivial)
  | certify c => exact twin_certify h wf wf2 ap ht c hl
  | sign c => exact twin_sign h wf ap ht c hl
  | rotate c => exact twin_rotate h ht c hl
  | destroy x => exact twin_destroy h wf wf2 ap ap2 ht x hl
  | chain c =>
    show Twin S (Done S) (getCertChain S.ops c) (getCertChain S.ops c) st st2
    unfold getCertChain
    exact (Twin.failIf ha rfl _).same fun _ => (Twin.platform ha _).same fun x => .reply ha _ _
  | update c => exact twin_update h wf ap ht c hl

omit ht in
theorem twin_new (hL : ∀ l, S.mine l) (hroom : NoRoom st ↔ NoRoom st2) :
    Twin S (Done S) (dpeNew S.ops) (dpeNew S.ops) st st2 := by
  have ha : Concur S st st2 := ⟨ρ, h⟩
  unfold dpeNew
  refine Twin.get ?_
  rw [h.support]
  refine .ite ((Twin.platform ha _).same fun loc => Twin.bind (R := Done S) ?_ ?_) (.pure ⟨rfl, ha⟩)
  · intro w out hw
    unfold withBuf
    rcases twin_init h wf wf2 ap ap2 0x40000000 (hL loc) hroom w (List.replicate 28 0) hw with
      ⟨a, b, w', out', t, t2, h1, h2, hc, h3⟩ | ⟨e, w', out', t, t2, h1, h2, hc, h3⟩
    · exact .inl ⟨a, b, w', out, t, t2, by simp only [h1], by simp only [h2], hc, h3⟩
    · exact .inr ⟨e, w', out, t, t2, by simp only [h1], by simp only [h2], hc, h3⟩
  · rintro a b t t2 ⟨_, hm⟩
    exact .pure ⟨rfl, hm⟩

end

end Dpe
