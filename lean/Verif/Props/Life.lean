import Verif.Spec.Life
import Verif.Proofs.Calls
import Verif.Examples.Toy
/-
C05 (default initialisation at most once), C18 (slot accounting), C47 (fresh handles), C51
(automatic initialisation).
-/
namespace Dpe
variable {cfg : Cfg} {σ : Type} {env : Env cfg σ} {D : Bytes → Bytes → Prop} {c : Cmd cfg}
  {loc : U32} {s s' : Sys cfg σ} {r : Except Err Nat}

/-! ### C05 -/

/-- C05: once an instance is marked initialised (which no call ever undoes, see C21) a default
initialisation is refused with ArgumentNotSupported and changes nothing. -/
theorem C05_refused {f : U32} (hi : s.st.hasInitialized = true) (hf : Bit f IFlag.default) :
    exec env (.init f) loc s = (.error .argumentNotSupported, s) := by
  have hf : initDefaultFlag f = true := hf
  simp only [exec, initCtx, run_get, run_failIf, hf, hi, Bool.and_true, Bool.true_or, if_pos]

theorem dpeNew_ok {ops : Ops σ} {s' : Sys cfg σ} {u : Unit} (ha : s.st.supports Feature.autoInit)
    (h : dpeNew ops s = (.ok u, s')) :
    s.st.hasInitialized = false ∧ s'.st.hasInitialized = true := by
  have ha : autoInitBit s.st.support = true := ha
  unfold dpeNew at h
  rw [get_bind, ha] at h
  unfold M.when at h
  rw [if_pos rfl] at h
  rcases world_u (WorldOnly.platform _) h with h | ⟨loc, w, _, h⟩
  · exact absurd h not_untouched_ok
  rw [bind_iff] at h
  rcases h with ⟨e, _, h⟩ | ⟨a, s1, h1, h⟩
  · cases h
  rw [pure_iff] at h
  rw [h.2]
  unfold withBuf at h1
  rcases hi : initCtx ops 0x40000000 loc { s with w := w, out := List.replicate 28 0 } with ⟨r2, s2⟩
  simp only [hi, Prod.mk.injEq] at h1
  obtain ⟨rfl, rfl⟩ := h1
  rcases initCtx_inv hi with hu | ⟨idx, hd, h1, _, h3, h4, h5, _⟩
  · exact absurd hu not_untouched_ok
  · rw [Bool.or_eq_false_iff] at h1
    refine ⟨by simpa [initDefaultFlag] using h1.1, ?_⟩
    show s2.st.hasInitialized = true
    rw [h5]; simp [initPost, initDefaultFlag]

theorem dpeNewAutoInit_ok {ops : Ops σ} {s' : Sys cfg σ} {u : Unit} {ty : U32}
    {m : BArr cfg.tciSize} (h : dpeNewAutoInit ops ty m s = (.ok u, s')) :
    s.st.supports Feature.autoInit ∧ s.st.hasInitialized = false ∧ s'.st.hasInitialized = true := by
  unfold dpeNewAutoInit at h
  rw [get_bind] at h
  rcases failIf_u h with h | ⟨ha, h⟩
  · exact absurd h not_untouched_ok
  have ha : s.st.supports Feature.autoInit := by
    show autoInitBit _ = true
    simpa using ha
  rw [bind_iff] at h
  rcases h with ⟨e, _, h⟩ | ⟨_, s1, h1, h⟩
  · cases h
  have hk := dpeNew_ok ha h1
  rcases world_u (WorldOnly.platform _) h with h | ⟨loc2, w, _, h⟩
  · exact absurd h not_untouched_ok
  rw [get_bind] at h
  rcases lift_u h with h | ⟨idx, hf, h⟩
  · exact absurd h not_untouched_ok
  rcases okOr_u h with h | ⟨c, hc, h⟩
  · exact absurd h not_untouched_ok
  rcases world_u (addTci_world _ _ _ _) h with h | ⟨c1, w2, ha, h⟩
  · exact absurd h not_untouched_ok
  rw [modify_iff] at h
  exact ⟨‹_›, hk.1, by rw [h.2]; exact hk.2⟩

theorem History.config {support : U32} {flags : BitVec 16} {evs : List (Event cfg)}
    {st : State cfg} (h : History support flags evs st) :
    st.support = (State.new cfg support flags).support := by
  induction h with
  | new => rfl
  | @auto σ ops ty m w out r s' hr =>
    obtain ⟨st0, h1, h2⟩ := autoInit_boot rfl hr
    generalize s'.st = st1 at h2
    have hb : st0.support = (State.new cfg support flags).support := by cases h1 <;> rfl
    rw [← hb]
    clear hb h1
    induction h2 with
    | refl => rfl
    | tail _ h ih => rw [← ih]; cases h <;> rfl
  | create _ hr ih =>
    rcases dpeNew_effect hr with h | ⟨loc, h⟩
    · rw [h]; exact ih
    · obtain ⟨_, _, _, _, h, _⟩ := h
      exact h.2.2.1.trans ih
  | cmd h hr ih =>
    rcases effect_cases_wf h.reachable.wf (digests_true _) hr with h1 | ⟨hs, h1⟩ | ⟨u, rfl, h1⟩
    · rw [h1]; exact ih
    · exact h1.config.1.2.2.1.trans ih
    · obtain ⟨idx, k, hp, _, _, _, _, _, h2⟩ := h1
      exact h2.2.2.1.2.2.1.trans ih

/-- C05: in any history, at most one default initialisation succeeds — counting
InitializeContext with the default flag as well as the automatic initialisations done by
`new` and `new_auto_init`.  In particular, on an automatically initialised instance no default
InitializeContext ever succeeds. -/
theorem C05_at_most_once {support : U32} {flags : BitVec 16} {evs : List (Event cfg)}
    {st : State cfg} (h : History support flags evs st) :
    evs.countP (Event.initialised (decide (Bit st.support Feature.autoInit))) ≤ 1 := by
  suffices key : (st.hasInitialized = false →
      evs.countP (Event.initialised (decide (Bit st.support Feature.autoInit))) = 0) ∧
      evs.countP (Event.initialised (decide (Bit st.support Feature.autoInit))) ≤ 1 from key.2
  have hcfg := h.config
  rw [hcfg]
  clear hcfg
  generalize ha : decide (Bit (State.new cfg support flags).support Feature.autoInit) = a
  -- one more event
  have snoc : ∀ {evs : List (Event cfg)} {ev : Event cfg} {st0 st1 : State cfg},
      ((st0.hasInitialized = false → evs.countP (Event.initialised a) = 0) ∧
        evs.countP (Event.initialised a) ≤ 1) →
      (st0.hasInitialized = true → st1.hasInitialized = true) →
      (ev.initialised a = true → st0.hasInitialized = false ∧ st1.hasInitialized = true) →
      (st1.hasInitialized = false → (evs ++ [ev]).countP (Event.initialised a) = 0) ∧
        (evs ++ [ev]).countP (Event.initialised a) ≤ 1 := by
    intro evs ev st0 st1 ih hm he
    rw [List.countP_append, List.countP_singleton]
    cases hv : ev.initialised a
    · simp only [Bool.false_eq_true, if_false, Nat.add_zero]
      refine ⟨fun h1 => ih.1 ?_, ih.2⟩
      cases h0 : st0.hasInitialized
      · rfl
      · rw [hm h0] at h1; cases h1
    · obtain ⟨h0, h1⟩ := he hv
      refine ⟨fun h => ?_, ?_⟩
      · rw [h1] at h; cases h
      · rw [ih.1 h0]; simp
  induction h with
  | new => exact ⟨fun _ => rfl, by simp⟩
  | @auto σ ops ty m w out r s' hr =>
    have := snoc (evs := []) (ev := .auto r) (st0 := State.new cfg support flags) (st1 := s'.st)
      ⟨fun _ => rfl, by simp⟩ (fun h => by cases h) (fun hv => by
        cases r with
        | error e => cases hv
        | ok u => exact (dpeNewAutoInit_ok hr).2)
    exact this
  | @create σ ops st w out evs r s' hh hr ih =>
    refine snoc ih ?_ fun hv => ?_
    · intro h0
      rcases dpeNew_effect hr with h | ⟨loc, h⟩
      · rw [h]; exact h0
      · obtain ⟨_, _, _, _, _, h, _⟩ := h
        exact h.mpr (.inl h0)
    · cases r with
      | error e => cases hv
      | ok u =>
        have hv : a = true := hv
        rw [hv, decide_eq_true_eq] at ha
        refine dpeNew_ok (s := ⟨st, w, out⟩) ?_ hr
        unfold State.supports
        rw [hh.config]; exact ha
  | @cmd σ env c loc st w out evs r s' hh hr ih =>
    refine snoc ih ?_ fun hv => ?_
    · intro h0
      rcases effect_cases_wf hh.reachable.wf (digests_true _) hr with h1 | ⟨hs, h1⟩ | ⟨u, rfl, h1⟩
      · rw [h1]; exact h0
      · rcases h1.config.2 with h2 | h2
        · rw [h2]; exact h0
        · exact h2.1
      · obtain ⟨idx, k, hp, _, _, _, _, _, h2⟩ := h1
        rw [h2.2.2.2]; exact h0
    · cases r with
      | error e => cases c <;> cases hv
      | ok n =>
        cases c with
        | init f =>
          have hv : Bit f IFlag.default := hv
          have h0 : st.hasInitialized = false := by
            cases h0 : st.hasInitialized
            · rfl
            · rw [C05_refused (s := ⟨st, w, out⟩) h0 hv] at hr; cases hr
          refine ⟨h0, ?_⟩
          rcases exec_outcome hh.reachable.wf (digests_true _) hr with ⟨⟨_, h1⟩, _⟩ | ⟨hs, h1, _⟩ |
            ⟨_, _, _, h1, _⟩ | ⟨_, _, _, h1, _⟩
          · cases h1
          · obtain ⟨_, _, _, _, _, _, _, h, _⟩ := h1
            exact h.mpr (.inr hv)
          · cases h1
          · cases h1
        | _ => cases hv

/-- Non-vacuity for C05: a history with one successful default initialisation, whose root is
then destroyed, and after which a second default initialisation is refused. -/
example : ∃ s', exec Toy.env (.destroy Handle.default) 0 Toy.s1.sys = (.ok 12, s') ∧
    (s'.st.at 0).state = .inactive ∧
    (exec Toy.env (.init 0x40000000) 0 { s' with out := Toy.buf }).1 = .error .argumentNotSupported ∧
    (exec Toy.env (.init 0x40000000) 0 Toy.s0.sys).1 = .ok 28 :=
  ⟨_, Prod.ext (by decide +kernel) rfl, by decide +kernel⟩

/-! ### C18 -/

theorem liveCount_le (st : State cfg) : liveCount st ≤ cfg.maxHandles := by
  unfold liveCount
  have := List.length_filter_le (fun i => decide ((st.at i).state ≠ .inactive))
    (List.range cfg.maxHandles)
  rwa [List.length_range] at this

theorem liveCount_same {st st' : State cfg}
    (h : ∀ i, i < cfg.maxHandles → ((st'.at i).state = .inactive ↔ (st.at i).state = .inactive)) :
    liveCount st' = liveCount st :=
  count_filter_congr fun j hj => by simp [h j hj]

theorem liveCount_new {st st' : State cfg} {k : Nat} (hk : FirstFree st k)
    (h1 : (st'.at k).state ≠ .inactive)
    (h : ∀ i, i ≠ k → ((st'.at i).state = .inactive ↔ (st.at i).state = .inactive)) :
    liveCount st' = liveCount st + 1 :=
  count_filter_succ hk.1 (by simp [hk.2.1]) (by simp [h1]) fun j _ hj => by simp [h j hj]

theorem DestroyEffect.count {st st' : State cfg} (wf : WF st) {idx : Nat} (hl : Live st idx)
    (h : DestroyEffect st idx st') : liveCount st = liveCount st' + destroyedCount st idx := by
  refine count_filter_split fun j _ => ?_
  by_cases hd : DestroyedWith st idx j
  · have := Doomed.live wf hl hd
    unfold Live at this
    simp [hd, h.1 j hd, wiped, this]
  · obtain ⟨⟨ch, e⟩, _⟩ := h.2.1 j hd
    simp [hd, e]

theorem SetSlot.count {st st' : State cfg} {i : Nat} {x : Context cfg} (h : SetSlot st i x st')
    (hl : Live st i) (hx : x.state ≠ .inactive) : liveCount st' = liveCount st := by
  refine liveCount_same fun j _ => ?_
  by_cases e : j = i
  · subst e; rw [h.1]; exact ⟨fun h => absurd h hx, fun h => absurd h hl⟩
  · rw [h.2.1 j e]

theorem ParentNext.live {st : State cfg} {c : DeriveCmd cfg} {p : Context cfg} {h : Handle}
    {x : CtxState} (hp : ParentNext st c p h x) : x ≠ .inactive := by
  rcases hp with ⟨_, rfl, _⟩ | ⟨_, rfl, _⟩ <;> decide

/-- What a successful command does to the number of live contexts. -/
def Accounts (st : State cfg) (loc : U32) (c : Cmd cfg) (before after : Nat) : Prop :=
  match c with
  | .init _ => after = before + 1
  | .destroy h => ∃ idx, Resolves st h loc idx ∧ before = after + destroyedCount st idx
  | .derive d =>
    if Bit d.flags DFlag.recursive then after = before
    else if Bit d.flags DFlag.exportCdi then
      ∃ idx, Resolves st d.handle loc idx ∧
        if Bit d.flags DFlag.retainParent ∨ (st.at idx).children ≠ 0 then after = before
        else before = after + destroyedCount st idx
    else after = before + 1
  | _ => after = before

/-- C18: a successful InitializeContext or child-creating DeriveContext adds one live context,
DestroyContext (and the export of an unretained childless context) removes exactly the
destroyed set, everything else keeps the number; it never exceeds the number of slots. -/
theorem C18_accounting {n : Nat} (hst : InService s.st) (h : exec env c loc s = (.ok n, s')) :
    Accounts s.st loc c (liveCount s.st) (liveCount s'.st) ∧ liveCount s'.st ≤ cfg.maxHandles := by
  refine ⟨?_, liveCount_le _⟩
  have h : ∃ hs, Effect (fun _ _ => True) s.st loc c hs s'.st := by
    rcases exec_outcome hst.wf (digests_true _) h with ⟨⟨_, h1⟩, _⟩ | ⟨hs, h1, _⟩ |
      ⟨_, _, _, h1, _⟩ | ⟨_, _, _, h1, _⟩
    · cases h1
    · exact ⟨hs, h1⟩
    · cases h1
    · cases h1
  obtain ⟨hs, h⟩ := h
  generalize s'.st = st' at h
  cases c with
  | getProfile => rw [h.2]; rfl
  | chain c => rw [h.2]; rfl
  | init f =>
    obtain ⟨_, _, k, hk, h1, h2, _⟩ := h
    exact liveCount_new hk (by rw [h1]; simp [rootContext]) fun i hi => by rw [h2 i hi]
  | rotate c =>
    obtain ⟨_, _, k, hr, h2, _⟩ := h
    exact h2.count hr.1.live hr.1.live
  | sign c =>
    obtain ⟨_, _, k, hr, _, h2⟩ := h
    exact h2.count hr.1.live hr.1.live
  | certify c =>
    obtain ⟨_, _, k, hr, _, h2⟩ := h
    exact h2.count hr.1.live hr.1.live
  | destroy hd =>
    obtain ⟨_, idx, h1, h2⟩ := h
    exact ⟨idx, h1, h2.count hst.wf h1.1.live⟩
  | derive c =>
    obtain ⟨idx, hd, hp, _, hres, h⟩ := h
    have hl := hres.1.live
    unfold Accounts
    simp only
    cases h with
    | «recursive» hb _ _ h => rw [if_pos hb]; exact h.count hl hl
    | «child» hr hx hff _ _ hpn _ hk h1 h2 _ =>
      rw [if_neg hr, if_neg hx]
      refine liveCount_new hff (by rw [hk]; simp [childContext]) fun i hi => ?_
      by_cases e : i = idx
      · subst e; rw [h1]; exact ⟨fun h => absurd h hpn.live, fun h => absurd h hl⟩
      · rw [h2 i hi e]
    | exported hr hx _ hk hpn h =>
      rw [if_neg hr, if_pos hx]
      refine ⟨idx, hres, ?_⟩
      rw [if_pos (hk.imp id fun hk => children_ne_zero.mpr hk)]
      exact h.count hl hpn.live
    | exportedLast hr hx _ hrt hnc h =>
      rw [if_neg hr, if_pos hx]
      refine ⟨idx, hres, ?_⟩
      rw [if_neg (by
        rintro (h | h)
        · exact hrt h
        · obtain ⟨j, hj⟩ := children_ne_zero.mp h
          exact hnc j hj)]
      exact h.count hst.wf hl
  | update c =>
    obtain ⟨_, _, _, idx, k, v, hr, _, hac, _, _, _, _, h1, h2, h3, _⟩ := h
    refine liveCount_same fun j _ => ?_
    by_cases e : j = idx
    · subst e; rw [h1]
    · by_cases e' : j = k
      · subst e'; rw [h2]
      · rw [h3 j e e']

/-- Non-vacuity for C18: the second derive makes three live contexts out of two; destroying the
grandchild takes two away. -/
example : liveCount Toy.s3.st = 2 ∧ liveCount Toy.s4.st = 3 ∧
    ∃ s', exec Toy.env (.destroy (Toy.hd 4)) 0 Toy.s4.sys = (.ok 12, s') ∧
      liveCount s'.st = 1 :=
  ⟨by decide +kernel, by decide +kernel, _, Prod.ext (by decide +kernel) rfl, by decide +kernel⟩

/-! ### C47 -/

/-- A draw that cannot be used: the default handle, or one that some slot carries. -/
def Unusable (st : State cfg) (h : Handle) : Prop :=
  h = Handle.default ∨ ∃ i, i < cfg.maxHandles ∧ (st.at i).handle = h

theorem unusable_iff {st : State cfg} {h : Handle} :
    (!h.isDefault && !st.contexts.any (fun c => c.handle == h)) = false ↔ Unusable st h := by
  rw [Bool.and_eq_false_iff, Bool.not_eq_false', Bool.not_eq_false', isDefault_iff, List.any_eq_true]
  refine or_congr Iff.rfl ⟨?_, ?_⟩
  · rintro ⟨c, hc, he⟩
    obtain ⟨i, hi, rfl⟩ := mem_contexts.mp hc
    exact ⟨i, hi, by simpa using he⟩
  · rintro ⟨i, hi, he⟩
    exact ⟨_, at_mem hi, by simpa using he⟩

/-- C47: handle generation draws at most 8 times; every draw before the last was unusable; it
yields the first usable draw, fails with the random source's error, or — after 8 unusable draws
— fails as exhausted.  Nothing but the random source's own state changes. -/
theorem C47_generate {s s' : Sys cfg σ} {ops : Ops σ} {r : Except Err Handle}
    (h : generateNewHandle ops s = (r, s')) :
    s'.st = s.st ∧ s'.out = s.out ∧
    ∃ bad : List Handle, (∀ x ∈ bad, Unusable s.st x) ∧
      ((bad.length = 8 ∧ Draws ops s.w (bad.map .ok) s'.w ∧
          r = .error (.internal .handleGenerationExhausted)) ∨
       (bad.length < 8 ∧ ∃ e, Draws ops s.w (bad.map .ok ++ [.error e]) s'.w ∧
          r = .error (.crypto e)) ∨
       (bad.length < 8 ∧ ∃ x, Draws ops s.w (bad.map .ok ++ [.ok x]) s'.w ∧ r = .ok x ∧
          Unused s.st x)) := by
  obtain ⟨e1, e2⟩ := generateNewHandle_world ops s
  rw [h] at e1 e2
  refine ⟨e1, e2, ?_⟩
  clear e1 e2
  unfold generateNewHandle at h
  generalize 8 = n at h
  induction n generalizing s with
  | zero =>
    simp only [genHandleLoop, fail_iff] at h
    obtain ⟨rfl, rfl⟩ := h
    exact ⟨[], by simp, .inl ⟨rfl, .nil, rfl⟩⟩
  | succ n ih =>
    simp only [genHandleLoop, run_bind] at h
    unfold M.crypto at h
    rcases hr : ops.rand s.w with ⟨e | x, w1⟩
    · simp only [hr] at h
      cases h
      exact ⟨[], by simp, .inr (.inl ⟨by simp, e, .cons hr .nil, rfl⟩)⟩
    · simp only [hr, M.get] at h
      by_cases hu : (!x.isDefault && !s.st.contexts.any (fun c => c.handle == x)) = true
      · rw [if_pos hu] at h
        cases h
        refine ⟨[], by simp, .inr (.inr ⟨by simp, x, .cons hr .nil, rfl, ?_⟩)⟩
        have hn : ¬ Unusable s.st x := fun hc => by
          rw [unusable_iff.mpr hc] at hu; cases hu
        exact ⟨fun e => hn (.inl e), fun i hi e => hn (.inr ⟨i, hi, e⟩)⟩
      · rw [if_neg hu] at h
        rw [Bool.not_eq_true, unusable_iff] at hu
        obtain ⟨bad, h1, h2⟩ := ih (s := { s with w := w1 }) h
        refine ⟨x :: bad, ?_, ?_⟩
        · intro y hy
          rcases List.mem_cons.mp hy with rfl | hy
          · exact hu
          · exact h1 y hy
        · rcases h2 with ⟨h2, h3, h4⟩ | ⟨h2, e, h3, h4⟩ | ⟨h2, y, h3, h4, h5⟩
          · exact .inl ⟨by simp [h2], .cons hr h3, h4⟩
          · exact .inr (.inl ⟨by simp [h2], e, .cons hr h3, h4⟩)
          · exact .inr (.inr ⟨by simp [h2], y, .cons hr h3, h4, h5⟩)

/-- The toy environment with a random source that first repeats handle 2 three times. -/
def Toy.stutter : Ops Nat :=
  { Toy.ops with rand := fun n => (.ok (Toy.hd (if n < 3 then 2 else n)), n + 1) }

/-- Non-vacuity for C47: three unusable draws (the root of `Toy.s3` carries handle 2), one more
(handle 3, the child's), then handle 4; and exhaustion with a constant random source. -/
example : (generateNewHandle Toy.stutter { Toy.s3.sys with w := 0 }).1 = .ok (Toy.hd 4) ∧
    (generateNewHandle Toy.stutter { Toy.s3.sys with w := 0 }).2.w = 5 ∧
    (generateNewHandle { Toy.ops with rand := fun n => (.ok (Toy.hd 2), n + 1) }
      { Toy.s3.sys with w := 0 }).1 = .error (.internal .handleGenerationExhausted) ∧
    (generateNewHandle { Toy.ops with rand := fun n => (.ok (Toy.hd 2), n + 1) }
      { Toy.s3.sys with w := 0 }).2.w = 8 := by decide +kernel

end Dpe
