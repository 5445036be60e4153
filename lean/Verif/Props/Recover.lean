import Verif.Spec.Recover
import Verif.Props.Service
/-
C75: contexts can always be got rid of.  Whatever happened before, whoever knows the handles of the
Active contexts of some localities can destroy them all, from these localities, with at most one
command each, in any order, and without the crypto implementation or the platform having a say; if
these are all localities, the table is empty afterwards.  An empty table can be used again, or the
instance is spent for good.
-/
namespace Dpe
section
variable {cfg : Cfg} {σ : Type} {env : Env cfg σ} {L : U32 → Bool} {s s' : Sys cfg σ} {n : Nat} {loc : U32}

/-- C75: DestroyContext with the handle of an Active context, from its locality, always succeeds; it
leaves the outside world as it was and destroys an Active context with that name. -/
theorem C75_succeeds {h : Handle} (hst : InService s.st) (hn : ∃ i, Names s.st h loc i)
    (hl : 12 ≤ s.out.length) :
    ∃ s', exec env (.destroy h) loc s = (.ok 12, s') ∧ s'.w = s.w ∧ s'.out.length = s.out.length ∧
      ∃ i, Names s.st h loc i ∧ DestroyEffect s.st i s'.st := by
  have hno : NoRefusal (rules s.st loc (.destroy (cfg := cfg) h)) := by
    simp only [NoRefusal, rules, earlyRules, lateRules, lookupRules, List.append_nil, List.mem_cons,
      List.not_mem_nil, or_false, forall_eq_or_imp, forall_eq]
    obtain ⟨i, hi⟩ := hn
    exact ⟨fun h => h ⟨i, hi.1, hi.2.2⟩, fun h => h ⟨i, hi⟩⟩
  rcases hx : exec env (.destroy h) loc s with ⟨r, s'⟩
  rcases C53_allowed hst hno hx with ⟨n, rfl⟩ | ⟨e, rfl, he⟩
  · obtain ⟨_, reply, st', w', ⟨i, h1, h2, rfl, rfl⟩, h3, rfl, rfl⟩ :=
      (C57_plain hst (show ¬ (Cmd.destroy (cfg := cfg) h).makesCert from id)).1 hx
    have h12 : (handlesReply cfg.profile []).length = 12 := rfl
    refine ⟨_, rfl, rfl, ?_, i, h1.1, h2⟩
    simp only [List.length_append, List.length_drop]
    omega
  · exfalso
    cases he with
    | crypto h => obtain ⟨w, ⟨h, _⟩ | ⟨h | h, _⟩ | ⟨h, _⟩⟩ := h <;> exact h
    | platform h =>
      obtain ⟨w, ⟨h | h, _⟩ | ⟨k, h, _⟩ | ⟨⟨k, h, _⟩, _⟩⟩ := h
      · cases h
      · exact h
      · cases h
      · cases h
    | stuck h => exact h
    | digest h => exact h
    | chunk h => exact h
    | endless h => exact h
    | ueid h => cases h
    | cert h => exact h
    | buffer h =>
      rcases h with h | ⟨h, _⟩
      · exact Nat.not_lt.2 hl h
      · exact h
    | wrongKey h => cases h

theorem count_filter_lt {n k : Nat} {p q : Nat → Bool} (hk : k < n) (hp : p k = true)
    (hq : q k = false) (h : ∀ j, j < n → q j = true → p j = true) :
    ((List.range n).filter q).length < ((List.range n).filter p).length := by
  induction n with
  | zero => omega
  | succ n ih =>
    have mono : ∀ {m}, m ≤ n → ((List.range m).filter q).length ≤ ((List.range m).filter p).length := by
      intro m hm
      induction m with
      | zero => simp
      | succ m ih' =>
        rw [List.range_succ, List.filter_append, List.filter_append, List.length_append,
          List.length_append]
        have := ih' (by omega)
        have := h m (by omega)
        cases hqm : q m <;> cases hpm : p m <;> simp_all <;> omega
    rw [List.range_succ, List.filter_append, List.filter_append, List.length_append,
      List.length_append]
    by_cases e : k = n
    · subst e
      have := mono (Nat.le_refl k)
      simp [hp, hq]
      omega
    · have h1 := ih (by omega) fun j hj => h j (by omega)
      have := h n (by omega)
      cases hqm : q n <;> cases hpm : p n <;> simp_all <;> omega

theorem activeIn_destroy {st st' : State cfg} {i : Nat} (ha : (st.at i).state = .active)
    (hL : L (st.at i).locality = true) (h : DestroyEffect st i st') :
    activeIn L st' < activeIn L st := by
  have hi : i < cfg.maxHandles := lt_of_live (by unfold Live; rw [ha]; decide)
  refine count_filter_lt hi ?_ ?_ ?_
  · simp [ha, hL]
  · have : (st'.at i).state = .inactive := by rw [h.1 i (.inl rfl)]; rfl
    simp [this]
  · intro j _ hj
    simp only [Bool.and_eq_true, decide_eq_true_eq] at hj ⊢
    obtain ⟨h1, _, h2⟩ := h.active hj.1
    exact ⟨h1, by rw [← h2]; exact hj.2⟩

theorem Destroys.inService (hst : InService s.st) (h : Destroys env L s n s') : InService s'.st := by
  induction h with
  | zero => exact hst
  | @succ n s1 s2 r h loc h0 _ _ hx ih =>
    have := InService.step env (.destroy h) loc s1.st s1.w s1.out ih
    rw [show exec env (.destroy h) loc ⟨s1.st, s1.w, s1.out⟩ = (r, s2) from hx] at this
    exact this

theorem Destroys.length (hst : InService s.st) (hl : 12 ≤ s.out.length) (h : Destroys env L s n s') :
    s'.out.length = s.out.length := by
  induction h with
  | zero => rfl
  | @succ n s1 s2 r h loc h0 _ hn hx ih =>
    obtain ⟨s3, h1, _, h2, _⟩ := C75_succeeds (h0.inService hst) hn (by rw [ih]; exact hl) (env := env)
    rw [hx] at h1
    obtain ⟨_, rfl⟩ := Prod.mk.inj h1
    rw [h2, ih]

/-- C75: every such command brings the end nearer, whichever context is chosen: there are never more
of them than Active contexts in these localities at the beginning. -/
theorem C75_bound (hst : InService s.st) (hl : 12 ≤ s.out.length) (h : Destroys env L s n s') :
    n + activeIn L s'.st ≤ activeIn L s.st := by
  induction h with
  | zero => omega
  | @succ n s1 s2 r h loc h0 hL hn hx ih =>
    obtain ⟨s3, h1, _, _, i, h2, h3⟩ :=
      C75_succeeds (h0.inService hst) hn (by rw [h0.length hst hl]; exact hl) (env := env)
    rw [hx] at h1
    obtain ⟨_, rfl⟩ := Prod.mk.inj h1
    have := activeIn_destroy (L := L) h2.1 (by rw [h2.2.2]; exact hL) h3
    omega

theorem activeIn_pos {st : State cfg} : 0 < activeIn L st ↔
    ∃ i, (st.at i).state = .active ∧ L (st.at i).locality = true := by
  unfold activeIn
  rw [List.length_pos_iff_exists_mem]
  constructor
  · rintro ⟨i, hi⟩
    simp only [List.mem_filter, List.mem_range, Bool.and_eq_true, decide_eq_true_eq] at hi
    exact ⟨i, hi.2⟩
  · rintro ⟨i, h1, h2⟩
    refine ⟨i, ?_⟩
    simp only [List.mem_filter, List.mem_range, Bool.and_eq_true, decide_eq_true_eq]
    exact ⟨lt_of_live (by unfold Live; rw [h1]; decide), h1, h2⟩

/-- C75: the Active contexts of any set of localities can be destroyed from these localities, with at
most as many commands as there are such contexts, whatever the crypto implementation and the
platform do. -/
theorem C75_clear (env : Env cfg σ) (L : U32 → Bool) (hst : InService s.st) (hl : 12 ≤ s.out.length) :
    ∃ n s', n ≤ activeIn L s.st ∧ Destroys env L s n s' ∧
      ∀ i, (s'.st.at i).state = .active → L (s'.st.at i).locality = false := by
  have key : ∀ k s1 m, activeIn L s1.st ≤ k → Destroys env L s m s1 →
      ∃ n s', Destroys env L s n s' ∧
        ∀ i, (s'.st.at i).state = .active → L (s'.st.at i).locality = false := by
    intro k
    induction k with
    | zero =>
      intro s1 m hk h
      refine ⟨m, s1, h, fun i hi => ?_⟩
      refine Bool.eq_false_iff.2 fun hL => ?_
      have := activeIn_pos.2 ⟨i, hi, hL⟩
      omega
    | succ k ih =>
      intro s1 m hk h
      by_cases h0 : 0 < activeIn L s1.st
      · obtain ⟨i, hi, hL⟩ := activeIn_pos.1 h0
        have hn : ∃ j, Names s1.st (s1.st.at i).handle (s1.st.at i).locality j := ⟨i, hi, rfl, rfl⟩
        obtain ⟨s2, h1, _, _, j, h2, h3⟩ :=
          C75_succeeds (h.inService hst) hn (by rw [h.length hst hl]; exact hl) (env := env)
        have := activeIn_destroy (L := L) h2.1 (by rw [h2.2.2]; exact hL) h3
        exact ih s2 (m + 1) (by omega) (.succ h hL hn h1)
      · refine ⟨m, s1, h, fun i hi => ?_⟩
        refine Bool.eq_false_iff.2 fun hL => ?_
        exact h0 (activeIn_pos.2 ⟨i, hi, hL⟩)
  obtain ⟨n, s', h1, h2⟩ := key _ s 0 (Nat.le_refl _) .zero
  have := C75_bound hst hl h1
  exact ⟨n, s', by omega, h1, h2⟩

/-- C75: if no context is Active then the table is empty; no Retired context is left behind. -/
theorem C75_empty {st : State cfg} (hst : InService st) (h : ∀ i, (st.at i).state ≠ .active) :
    NoContexts st := by
  intro i hi
  cases hs : (st.at i).state with
  | inactive => exact hi hs
  | active => exact h i hs
  | retired =>
    obtain ⟨_, j, _, hj⟩ := C07_retired_not_stranded hst hs
    exact h j hj

/-- C75: every slot can be recovered: with the handles of all Active contexts the table can be
emptied. -/
theorem C75_all (env : Env cfg σ) (hst : InService s.st) (hl : 12 ≤ s.out.length) :
    ∃ n s', n ≤ activeIn (fun _ => true) s.st ∧ Destroys env (fun _ => true) s n s' ∧
      NoContexts s'.st := by
  obtain ⟨n, s', h1, h2, h3⟩ := C75_clear env (fun _ => true) hst hl
  refine ⟨n, s', h1, h2, C75_empty (h2.inService hst) fun i hi => ?_⟩
  cases h3 i hi

/-- C75: an empty table can be used again.  If the default initialisation has not taken place it
succeeds; where simulation contexts are supported one can be initialised, provided that the random
source delivers a usable handle. -/
theorem C75_again (hst : InService s.st) (he : NoContexts s.st) (hl : 28 ≤ s.out.length) {f : U32}
    (hf : (Bit f IFlag.default ∧ ¬ Bit f IFlag.simulation ∧ s.st.hasInitialized = false) ∨
      (Bit f IFlag.simulation ∧ ¬ Bit f IFlag.default ∧ s.st.supports Feature.simulation ∧
        ∃ h w', GoodDraw env.toOps s.st 8 s.w h w')) :
    ∃ s', exec env (.init f) loc s = (.ok 28, s') ∧ (s'.st.at 0).state = .active := by
  have h0 : FirstFree s.st 0 := by
    refine ⟨cfg.pos, ?_, fun j hj => absurd hj (Nat.not_lt_zero _)⟩
    exact Classical.byContradiction fun h => he 0 h
  have hno : NoRefusal (rules s.st loc (.init (cfg := cfg) f)) := by
    simp only [NoRefusal, rules, earlyRules, lateRules, List.append_nil, List.mem_cons,
      List.not_mem_nil, or_false, forall_eq_or_imp, forall_eq]
    refine ⟨?_, ?_, ?_, fun h => he 0 (h 0 cfg.pos)⟩
    · rintro ⟨h1, h2⟩
      rcases hf with ⟨_, _, h3⟩ | ⟨_, h3, _⟩
      · rw [h3] at h2; cases h2
      · exact h3 h1
    · rintro ⟨h1, h2⟩
      rcases hf with ⟨_, h3, _⟩ | ⟨_, _, h3, _⟩
      · exact h3 h1
      · exact h2 h3
    · rintro h
      rcases hf with ⟨h1, h2, _⟩ | ⟨h1, h2, _⟩
      · exact h2 (h.1 h1)
      · exact h2 (h.2 h1)
  obtain ⟨hd, w', hw⟩ : ∃ hd w', Chosen env.toOps s.st (Bit f IFlag.default) s.w hd w' := by
    rcases hf with ⟨h1, _, _⟩ | ⟨_, h1, _, hd, w', h2⟩
    · exact ⟨_, _, .inl ⟨h1, rfl, rfl⟩⟩
    · exact ⟨hd, w', .inr ⟨h1, h2⟩⟩
  have hlen : (handlesReply cfg.profile [hd]).length = 28 := by
    have : (successBytes cfg.profile).length = 12 := rfl
    simp [handlesReply, this]
  refine ⟨_, (C57_plain hst (show ¬ (Cmd.init (cfg := cfg) f).makesCert from id)).2 ⟨hno, _,
    initPost s.st f loc 0 hd, w', ⟨0, hd, h0, hw, ?_, ?_, ⟨rfl, rfl, rfl, rfl⟩, ?_, rfl⟩,
    by rw [hlen]; exact hl, hlen.symm, rfl⟩, ?_⟩
  · rw [at_initPost h0.1, if_pos rfl, rootContext_eq]
  · intro j hj; rw [at_initPost h0.1, if_neg hj]
  · show (s.st.hasInitialized || initDefaultFlag f) = true ↔ _
    rw [Bool.or_eq_true]; rfl
  · show ((initPost s.st f loc 0 hd).at 0).state = .active
    rw [at_initPost h0.1, if_pos rfl]
    rfl

/-- C75: otherwise nothing can ever be created again, by no sequence of calls: the instance stays
exactly as it is. -/
theorem C75_spent {st st' : State cfg} (hst : InService st) (h : SpentForGood st) (hc : Calls st st') :
    st' = st := by
  obtain ⟨h1, h2, h3⟩ := h
  have none : ∀ {hd loc i}, ¬ Resolves st hd loc i := fun hr => h1 _ hr.1.live
  induction hc with
  | refl => rfl
  | @step st1 st2 _ hc ih =>
    subst ih
    rcases hc.cases hst.wf with h | ⟨c, loc, hs, h⟩ | ⟨u, loc, h⟩
    · exact h
    · cases c with
      | getProfile => exact h.2
      | chain c => exact h.2
      | init f =>
        obtain ⟨_, _, _, _, _, _, _, _, ⟨_, _, h4, _⟩ | ⟨_, _, h4, _⟩⟩ := h
        · rw [h2] at h4; cases h4
        · exact absurd h4 h3
      | rotate c => obtain ⟨_, _, _, hr, _⟩ := h; exact absurd hr none
      | sign c => obtain ⟨_, _, _, hr, _⟩ := h; exact absurd hr none
      | certify c => obtain ⟨_, _, _, hr, _⟩ := h; exact absurd hr none
      | destroy c => obtain ⟨_, _, hr, _⟩ := h; exact absurd hr none
      | derive c => obtain ⟨_, _, _, _, hr, _⟩ := h; exact absurd hr none
      | update c => obtain ⟨_, _, _, _, _, _, hr, _⟩ := h; exact absurd hr none
    · obtain ⟨_, _, _, hr, _⟩ := h; exact absurd hr none

end

/-! ### Concrete cases -/

namespace Toy

/-- The grandchild of `s4` is destroyed, and then the root. -/
def d1 : Sys cfg Nat := (exec env (.destroy (hd 4)) 0 s4.sys).2
@[inherit_doc d1] def d2 : Sys cfg Nat := (exec env (.destroy (hd 2)) 0 d1).2

/-- The root of `s4` is destroyed. -/
def d3 : Sys cfg Nat := (exec env (.destroy (hd 2)) 0 s4.sys).2

theorem none_active {st : State cfg} (h : ∀ i, i < 4 → (st.at i).state ≠ .active) (i : Nat) :
    (st.at i).state ≠ .active := fun hi =>
  h i (lt_of_live (cfg := cfg) (by unfold Live; rw [hi]; decide)) hi

end Toy

/-- Two Active contexts in `s4`, the root and the grandchild, with a Retired one between them.
Destroying the grandchild first and then the root empties the table; destroying the root first does it
with one command.  Afterwards a simulation context can be initialised. -/
example : activeIn (fun _ => true) Toy.s4.st = 2 ∧
    Destroys Toy.env (fun _ => true) Toy.s4.sys 2 Toy.d2 ∧ NoContexts Toy.d2.st ∧
    (∃ s', exec Toy.env (.init 0x80000000) 3 Toy.d2 = (.ok 28, s') ∧ (s'.st.at 0).state = .active) ∧
    Destroys Toy.env (fun _ => true) Toy.s4.sys 1 Toy.d3 ∧ NoContexts Toy.d3.st := by
  have step : ∀ p : Except Err Nat × Sys Toy.cfg Nat, p = (p.1, p.2) := fun _ => rfl
  have hl28 : 28 ≤ Toy.s4.sys.out.length := by
    show 28 ≤ (List.replicate 200 (0 : UInt8)).length
    rw [List.length_replicate]; omega
  have hl : 12 ≤ Toy.s4.sys.out.length := by omega
  have h1 : Destroys Toy.env (fun _ => true) Toy.s4.sys 1 Toy.d1 :=
    .succ (h := Toy.hd 4) (loc := 0) .zero rfl ⟨2, by unfold Names; decide +kernel⟩ (step _)
  have h2 : Destroys Toy.env (fun _ => true) Toy.s4.sys 2 Toy.d2 :=
    .succ (h := Toy.hd 2) (loc := 0) h1 rfl ⟨0, by unfold Names; decide +kernel⟩ (step _)
  have h3 : Destroys Toy.env (fun _ => true) Toy.s4.sys 1 Toy.d3 :=
    .succ (h := Toy.hd 2) (loc := 0) .zero rfl ⟨0, by unfold Names; decide +kernel⟩ (step _)
  have he := C75_empty (h2.inService (.reached Toy.s4.reach)) (Toy.none_active (by decide +kernel))
  refine ⟨by decide +kernel, h2, he, ?_, h3,
    C75_empty (h3.inService (.reached Toy.s4.reach)) (Toy.none_active (by decide +kernel))⟩
  refine C75_again (h2.inService (.reached Toy.s4.reach)) he ?_ (.inr ⟨by decide, by decide, ?_, ?_⟩)
  · rw [h2.length (.reached Toy.s4.reach) hl]; exact hl28
  · unfold State.supports; decide +kernel
  · exact ⟨_, _, .hit rfl (by unfold Unused; decide +kernel)⟩

/-- An instance without simulation contexts whose only context was destroyed: it is spent. -/
def Toy.spent : State Toy.cfg :=
  (Toy.run (.destroy Handle.default) 0 (Toy.run (.init 0x40000000) 0 (State.new Toy.cfg 0 0, 0)).2).2.1

example : Reachable Toy.spent ∧ SpentForGood Toy.spent ∧
    (exec Toy.env (.init 0x40000000) 0 ⟨Toy.spent, 0, Toy.buf⟩).1 = .error .argumentNotSupported := by
  have hr : Reachable Toy.spent := Toy.run_reach _ _ (Toy.run_reach _ _ (.new 0 0))
  refine ⟨hr, ⟨C75_empty (.reached hr) (Toy.none_active (by decide +kernel)), by decide +kernel, ?_⟩,
    by decide +kernel⟩
  unfold State.supports; decide +kernel

end Dpe
