import Verif.Proofs.PlacementUndo
import Verif.Props.Effects
/-
Helpers for isolation between localities: which side of the border a command may touch.
-/
namespace Dpe
variable {cfg : Cfg} {σ : Type} {env : Env cfg σ} {c : Cmd cfg} {loc : U32} {s s' : Sys cfg σ}
  {r : Except Err Nat} {st st' st2 : State cfg} {P L : U32 → Prop} {i j idx : Nat}

theorem Apart.not (ap : Apart P st) : Apart (fun l => ¬ P l) st := fun i j h => not_congr (ap i j h)

theorem Inside.of_names {h : Handle} (hn : Names st h loc i) (hl : P loc) : Inside P st i :=
  .of_active hn.1 (hn.2.2 ▸ hl)

theorem Inside.desc (wf : WF st) (ap : Apart P st) (h : Inside P st i) (hd : Desc st i j) : Inside P st j := by
  induction hd with
  | child h1 => exact h.child wf ap h1
  | step _ h1 ih => exact ih.child wf ap h1

theorem Inside.retiredUp (wf : WF st) (ap : Apart P st) (h : Inside P st i) (hd : RetiredUp st i j) :
    Inside P st j := by
  induction hd with
  | parent h1 => exact h.parent wf ap h1
  | step _ h1 _ _ ih => exact ih.parent wf ap h1

theorem Inside.destroyed (wf : WF st) (ap : Apart P st) (h : Inside P st idx) (hd : DestroyedWith st idx i) :
    Inside P st i := by
  rcases hd with rfl | hd | hd
  · exact h
  · exact h.desc wf ap hd
  · exact h.retiredUp wf ap hd

theorem Inside.touched (wf : WF st) (ap : Apart P st) (h : Inside P st idx) (hd : DestroyTouches st idx i) :
    Inside P st i := by
  rcases hd with hd | ⟨j, hl, hd⟩
  · exact h.destroyed wf ap hd
  · exact ⟨live_of_lists wf hl, (ap _ _ hl).2 (h.destroyed wf ap hd).2⟩

/-- A command touches free slots and contexts on its own side. -/
theorem MayTouch.side (wf : WF st) (ap : Apart P st) (hl : P loc) (h : MayTouch st loc c i) :
    ¬ Live st i ∨ Inside P st i := by
  have free : FirstFree st i → ¬ Live st i ∨ Inside P st i := fun h => .inl (fun hi => hi h.2.1)
  cases c with
  | getProfile => exact h.elim
  | chain => exact h.elim
  | init => exact free h
  | rotate => exact .inr (.of_names h.1 hl)
  | sign => exact .inr (.of_names h.1 hl)
  | certify => exact .inr (.of_names h.1 hl)
  | destroy =>
    obtain ⟨idx, hr, hd⟩ := h
    exact .inr ((Inside.of_names hr.1 hl).touched wf ap hd)
  | derive =>
    rcases h with h | ⟨_, _, h⟩ | ⟨_, _, idx, hr, _, hd⟩
    · exact .inr (.of_names h.1 hl)
    · exact free h
    · exact .inr ((Inside.of_names hr.1 hl).touched wf ap hd)
  | update =>
    obtain ⟨idx, hr, rfl | hd⟩ := h
    · exact .inr (.of_names hr.1 hl)
    · exact .inr ((Inside.of_names hr.1 hl).child wf ap hd.1)

/-- A new context belongs to a locality that the command is about, and so does its parent. -/
def BornBy (st : State cfg) (c : Cmd cfg) (loc : U32) (j : Nat) (st' : State cfg) : Prop :=
  Concerns c loc (st'.at j).locality ∧
    ((st'.at j).parentIdx = ROOT ∨ (st.at (st'.at j).parentIdx).locality = loc)

theorem not_born_set {x : Context cfg} (hi : Live st i) (h : SetSlot st i x st') (hj : ¬ Live st j)
    (hj' : Live st' j) : False := by
  refine hj ?_
  have : j ≠ i := by rintro rfl; exact hj hi
  rw [Live, h.2.1 j this] at hj'
  exact hj'

theorem not_born_destroy (h : DestroyEffect st idx st') (hj : ¬ Live st j) (hj' : Live st' j) : False := by
  by_cases hd : DestroyedWith st idx j
  · rw [Live, h.1 j hd] at hj'
    exact hj' rfl
  · obtain ⟨⟨ch, h1⟩, _⟩ := h.2.1 j hd
    rw [Live, h1] at hj'
    exact hj hj'

theorem Effect.bornBy {D : Bytes → Bytes → Prop} {hs : List Handle} (h : Effect D st loc c hs st')
    (hj : ¬ Live st j) (hj' : Live st' j) : BornBy st c loc j st' := by
  cases c with
  | getProfile => obtain ⟨_, rfl⟩ := h; exact (hj hj').elim
  | chain => obtain ⟨_, rfl⟩ := h; exact (hj hj').elim
  | init f =>
    obtain ⟨hd, _, i, _, h1, h2, _⟩ := h
    by_cases e : j = i
    · subst e; rw [BornBy, h1]; exact ⟨.inl rfl, .inl rfl⟩
    · rw [Live, h2 j e] at hj'; exact (hj hj').elim
  | rotate =>
    obtain ⟨hd, _, i, hr, h1, _⟩ := h
    exact (not_born_set (live_of_active hr.1.1) h1 hj hj').elim
  | sign =>
    obtain ⟨hd, _, i, hr, _, h1⟩ := h
    exact (not_born_set (live_of_active hr.1.1) h1 hj hj').elim
  | certify =>
    obtain ⟨hd, _, i, hr, _, h1⟩ := h
    exact (not_born_set (live_of_active hr.1.1) h1 hj hj').elim
  | destroy =>
    obtain ⟨_, i, hr, h1⟩ := h
    exact (not_born_destroy h1 hj hj').elim
  | derive d =>
    obtain ⟨idx, a, b, _, hr, h1⟩ := h
    have hl := live_of_active hr.1.1
    cases h1 with
    | recursive _ _ _ h1 => exact (not_born_set hl h1 hj hj').elim
    | exported _ _ _ _ _ h1 => exact (not_born_set hl h1 hj hj').elim
    | exportedLast _ _ _ _ _ h1 => exact (not_born_destroy h1 hj hj').elim
    | @child _ _ v _ k _ _ _ _ hk _ _ _ _ h1 _ h2 _ =>
      by_cases e : j = k
      · subst e
        rw [BornBy, h1]
        exact ⟨.inr ⟨d, rfl, rfl⟩, .inr hr.1.2.2⟩
      · have e2 : j ≠ idx := by rintro rfl; exact hj hl
        rw [Live, h2 j e e2] at hj'
        exact (hj hj').elim
  | update =>
    obtain ⟨_, _, _, idx, k, v, hr, _, hk, _, _, _, _, _, _, h1, _⟩ := h
    have e1 : j ≠ idx := by rintro rfl; exact hj (live_of_active hr.1.1)
    have e2 : j ≠ k := by rintro rfl; exact hj (live_of_active hk.2.1)
    rw [Live, h1 j e1 e2] at hj'
    exact (hj hj').elim

theorem exec_born (hst : InService s.st) (h : exec env c loc s = (r, s')) (hj : ¬ Live s.st j)
    (hj' : Live s'.st j) : BornBy s.st c loc j s'.st := by
  rcases effect_cases_wf hst.wf (digests_true _) h with h1 | ⟨hs, h1⟩ | ⟨u, rfl, h1⟩
  · rw [h1] at hj'; exact (hj hj').elim
  · exact h1.bornBy hj hj'
  · obtain ⟨idx, k, hp, hr, _, _, _, _, h2⟩ := h1
    exact (not_born_set (live_of_active hr.1.1) h2 hj hj').elim

/-- A command that stays on one side keeps the sides apart. -/
theorem apart_exec (hst : InService s.st) (ap : Apart P s.st) (h : exec env c loc s = (r, s'))
    (hc : ∀ l, Concerns c loc l → P l) : Apart P s'.st := by
  have hst' : InService s'.st := by
    have := hst.step env c loc s.st s.w s.out
    rwa [show (⟨s.st, s.w, s.out⟩ : Sys cfg σ) = s from rfl, h] at this
  intro i j hij
  have hj' := (hst'.wf.down i j hij).1
  have hp := (hst'.wf.down i j hij).2
  have hi' := live_of_lists hst'.wf hij
  have hroot : i ≠ ROOT := by
    rintro rfl; exact root_not_lt (lt_of_live hi')
  by_cases hj : Live s.st j
  · have ej := C20_identity hst h hj hj'
    have hl : Lists s.st i j := by
      have := hst.wf.up j hj
      rw [← ej.1, hp] at this
      exact this hroot
    have ei := C20_identity hst h (live_of_lists hst.wf hl) hi'
    rw [ei.2.1, ej.2.1]
    exact ap i j hl
  · obtain ⟨b1, b2⟩ := exec_born hst h hj hj'
    rw [hp] at b2
    refine ⟨fun _ => hc _ b1, fun _ => ?_⟩
    by_cases hi : Live s.st i
    · rw [(C20_identity hst h hi hi').2.1, b2.resolve_left hroot]
      exact hc _ (.inl rfl)
    · exact hc _ (exec_born hst h hi hi').1

/-- The border for two states: what is found outside in either is not drawn. -/
def borderOf (L : U32 → Prop) (ops : Ops σ) (st st2 : State cfg) : Border σ :=
  ⟨ops, L, fun h => Foreign L st h ∨ Foreign L st2 h, .inl (.inl rfl)⟩

theorem AgreeInside.shared {ρ : Renumbering cfg.maxHandles} (ops : Ops σ) (h : AgreeInside L ρ st st2) :
    Shared (borderOf L ops st st2) ρ st st2 where
  marker := h.marker
  version := h.version
  support := h.support
  flags := h.flags
  inited := h.inited
  live := h.inside
  spare i hi := by
    refine ⟨⟨hi, ?_⟩, ⟨h.outside i hi, ?_⟩⟩
    · by_cases e : (st.at i).handle = Handle.default
      · exact .inl e
      · exact .inr (.inl (.inr ⟨e, i, hi, rfl⟩))
    · by_cases e : (st2.at (ρ.to i)).handle = Handle.default
      · exact .inl e
      · exact .inr (.inr (.inr ⟨e, ρ.to i, h.outside i hi, rfl⟩))

theorem Concur.sameInside {S : Border σ} (h : Concur S st st2) : SameInside S.mine st st2 := by
  obtain ⟨ρ, h⟩ := h
  exact ⟨ρ, h.marker, h.version, h.support, h.flags, h.inited, h.live, fun i hi => (h.spare i hi).2.1⟩

theorem SameInside.rfl' (L : U32 → Prop) (st : State cfg) : SameInside L st st :=
  ⟨Renumbering.id _, rfl, rfl, rfl, rfl, rfl, fun _ _ => ⟨⟨_, rfl⟩, fun _ => rfl⟩, fun _ h => h⟩

/-- States with the same slots inside can replace each other. -/
theorem SameInside.left (hs : SameConfig st st') (hi : st'.hasInitialized = st.hasInitialized)
    (h1 : ∀ i, Inside L st i → st'.at i = st.at i) (h2 : ∀ i, Inside L st' i → Inside L st i)
    (h : SameInside L st st2) : SameInside L st' st2 := by
  obtain ⟨ρ, h⟩ := h
  refine ⟨ρ, h.marker.trans hs.1.symm, h.version.trans hs.2.1.symm, h.support.trans hs.2.2.1.symm,
    h.flags.trans hs.2.2.2.symm, h.inited.trans hi.symm, fun i hi => ?_, fun i hi => h.outside i fun h3 => hi ?_⟩
  · rw [h1 i (h2 i hi)]; exact h.inside i (h2 i hi)
  · rw [Inside, Live, h1 i h3]; exact h3

theorem exec_inited (hst : InService s.st) (h : exec env c loc s = (r, s'))
    (hd : ∀ f, c = .init f → Bit f IFlag.default → s.st.hasInitialized = true) :
    s'.st.hasInitialized = s.st.hasInitialized := by
  rcases effect_cases_wf hst.wf (digests_true _) h with h1 | ⟨hs, h1⟩ | ⟨u, rfl, h1⟩
  · rw [h1]
  · rcases h1.config.2 with h2 | ⟨h2, f, h3, h4⟩
    · exact h2
    · rw [h2, hd f h3 h4]
  · obtain ⟨idx, k, hp, _, _, _, _, _, h2⟩ := h1
    exact h2.2.2.2

end Dpe
