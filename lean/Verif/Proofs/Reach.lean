import Verif.Proofs.Rights
/-
Reachable states satisfy the invariant.
-/
namespace Dpe
variable {cfg : Cfg} {σ : Type}

theorem dpeNew_steps {ops : Ops σ} {s s' : Sys cfg σ} {r : Except Err Unit}
    (h : dpeNew ops s = (r, s')) :
    s'.st = s.st ∨ ∃ loc idx, s.st.hasInitialized = false ∧ s.st.nextInactive = some idx ∧
      s'.st = initPost s.st 0x40000000 loc idx Handle.default := by
  unfold dpeNew at h
  rw [get_bind] at h
  unfold M.when at h
  split at h
  · rcases world_u (WorldOnly.platform _) h with h | ⟨loc, w, _, h⟩
    · exact .inl h.2.1
    · rw [bind_iff] at h
      have key : ∀ {r1 : Except Err Nat} {s1 : Sys cfg σ},
          withBuf 28 (initCtx ops 0x40000000 loc) { s with w := w } = (r1, s1) →
          s1.st = s.st ∨ ∃ loc idx, s.st.hasInitialized = false ∧ s.st.nextInactive = some idx ∧
            s1.st = initPost s.st 0x40000000 loc idx Handle.default := by
        intro r1 s1 h1
        unfold withBuf at h1
        rcases hi : initCtx ops 0x40000000 loc { s with w := w, out := List.replicate 28 0 } with
          ⟨r2, s2⟩
        simp only [hi, Prod.mk.injEq] at h1
        obtain ⟨_, rfl⟩ := h1
        rcases initCtx_inv hi with hu | ⟨idx, hd, h1, _, h3, h4, h5, _⟩
        · exact .inl hu.2.1
        · right
          rcases h4 with ⟨_, rfl⟩ | ⟨h4, _⟩
          · refine ⟨loc, idx, ?_, h3, h5⟩
            rw [Bool.or_eq_false_iff] at h1
            simpa [initDefaultFlag] using h1.1
          · simp [initDefaultFlag] at h4
      rcases h with ⟨e, h1, _⟩ | ⟨a, s1, h1, h⟩
      · exact key h1
      · rw [pure_iff] at h
        rw [h.2]; exact key h1
  · rw [pure_iff] at h
    exact .inl (by rw [h.2])

theorem init_default_step {st : State cfg} {loc : U32} {idx : Nat}
    (h1 : st.hasInitialized = false) (h2 : st.nextInactive = some idx) :
    SStep st (initPost st 0x40000000 loc idx Handle.default) :=
  .init 0x40000000 loc idx Handle.default (by simp [h1]) (by simp [initSimFlag])
    (by simp [initDefaultFlag, initSimFlag]) h2 (.inl ⟨by simp [initDefaultFlag], rfl⟩)

/-- The states the state machine can start from: `State::new`, or the result of a successful
`new_auto_init` on it. -/
inductive Boot (support : U32) (flags : BitVec 16) : State cfg → Prop
  | new : Boot support flags (State.new cfg support flags)
  | auto (loc ty : U32) (v m : BArr cfg.tciSize) :
      Boot support flags
        ((initPost (State.new cfg support flags) 0x40000000 loc 0 Handle.default).setCtx 0
          { (initPost (State.new cfg support flags) 0x40000000 loc 0 Handle.default).at 0 with
            tci := { ((initPost (State.new cfg support flags) 0x40000000 loc 0
                Handle.default).at 0).tci with tciType := ty, cumulative := v, current := m } })

theorem nextInactive_new {support : U32} {flags : BitVec 16} :
    (State.new cfg support flags).nextInactive = some 0 := by
  have h := cfg.pos
  unfold State.nextInactive State.new
  simp only
  cases hn : cfg.maxHandles with
  | zero => omega
  | succ n => simp [List.replicate_succ, List.findIdx?_cons, Context.new]

theorem autoInit_boot {ops : Ops σ} {ty : U32} {m : BArr cfg.tciSize} {support : U32}
    {flags : BitVec 16} {s s' : Sys cfg σ} {r : Except Err Unit}
    (hs : s.st = State.new cfg support flags) (h : dpeNewAutoInit ops ty m s = (r, s')) :
    ∃ st0, Boot support flags st0 ∧ SSteps st0 s'.st := by
  have hini : s.st.hasInitialized = false := by rw [hs]; rfl
  have key : ∀ {s1 : Sys cfg σ} {r1 : Except Err Unit}, dpeNew ops s = (r1, s1) →
      s1.st = State.new cfg support flags ∨
      ∃ loc, s1.st = initPost (State.new cfg support flags) 0x40000000 loc 0 Handle.default := by
    intro s1 r1 h1
    rcases dpeNew_steps h1 with h1 | ⟨loc, idx, _, h2, h1⟩
    · exact .inl (h1.trans hs)
    · rw [hs, nextInactive_new] at h2
      cases h2
      exact .inr ⟨loc, by rw [h1, hs]⟩
  have fin : ∀ {st : State cfg}, (st = State.new cfg support flags ∨
      ∃ loc, st = initPost (State.new cfg support flags) 0x40000000 loc 0 Handle.default) →
      ∃ st0, Boot support flags st0 ∧ SSteps st0 st := by
    rintro st (rfl | ⟨loc, rfl⟩)
    · exact ⟨_, .new, .refl⟩
    · exact ⟨_, .new, (init_default_step rfl nextInactive_new).one⟩
  unfold dpeNewAutoInit at h
  rw [get_bind] at h
  rcases failIf_u h with h | ⟨_, h⟩
  · rw [h.2.1, hs]; exact ⟨_, .new, .refl⟩
  rw [bind_iff] at h
  rcases h with ⟨e, h, _⟩ | ⟨_, s1, h1, h⟩
  · exact fin (key h)
  have hk := key h1
  rcases world_u (WorldOnly.platform _) h with h | ⟨loc2, w, _, h⟩
  · rw [h.2.1]; exact fin hk
  rw [get_bind] at h
  rcases lift_u h with h | ⟨idx, hf, h⟩
  · rw [h.2.1]; exact fin hk
  rcases okOr_u h with h | ⟨c, hc, h⟩
  · rw [h.2.1]; exact fin hk
  rcases world_u (addTci_world _ _ _ _) h with h | ⟨c1, w2, ha, h⟩
  · rw [h.2.1]; exact fin hk
  rw [modify_iff] at h
  obtain ⟨_, _, v, _, rfl⟩ := addTci_ok ha
  rw [h.2]
  obtain ⟨c0, hc0, hact, _⟩ := findActive_ok hf
  simp only at hc0 hc
  rw [hc] at hc0; cases hc0
  have e := at_of_getElem? hc
  rcases hk with hk | ⟨loc, hk⟩
  · rw [hk, at_new] at e; rw [← e] at hact; simp [Context.new] at hact
  · have hidx : idx = 0 := by
      by_contra hne
      rw [hk, at_initPost cfg.pos, if_neg hne, at_new] at e
      rw [← e] at hact; simp [Context.new] at hact
    subst hidx
    refine ⟨_, .auto loc ty v m, ?_⟩
    simp only
    rw [← e, hk]
    exact .refl

theorem WF.boot {support : U32} {flags : BitVec 16} {st : State cfg} (h : Boot support flags st) :
    WF st := by
  cases h with
  | new => exact WF.new _ _ _
  | auto loc ty v m =>
    have wf1 : WF (initPost (State.new cfg support flags) 0x40000000 loc 0 Handle.default) :=
      (WF.new _ _ _).step (init_default_step rfl nextInactive_new)
    have e := at_initPost (st := State.new cfg support flags) (f := 0x40000000) (loc := loc)
      (hd := Handle.default) cfg.pos 0
    rw [if_pos rfl] at e
    refine wf1.similar cfg.pos (by rw [Live, e]; simp [Context.activate])
      (by rw [e]; simp [Context.activate]) (by rw [e]; simp [Context.activate])
      rfl rfl rfl rfl rfl rfl rfl rfl

theorem Rights.boot {support : U32} {flags : BitVec 16} {st : State cfg} (h : Boot support flags st) :
    Rights st := by
  cases h with
  | new =>
    refine .none fun i j hl => ?_
    rw [Lists, at_new] at hl
    simp [Context.new] at hl
  | auto loc ty v m =>
    refine .none fun i j hl => ?_
    rw [Lists, at_setCtx cfg.pos] at hl
    split at hl
    · simp only [at_initPost cfg.pos, if_pos] at hl
      simp [Context.activate] at hl
    · rename_i hi
      rw [at_initPost cfg.pos, if_neg hi, at_new] at hl
      simp [Context.new] at hl

theorem SSteps.trans {a b c : State cfg} (h1 : SSteps a b) (h2 : SSteps b c) : SSteps a c := by
  induction h2 with
  | refl => exact h1
  | tail _ h ih => exact .tail ih h

/-- Every reachable state satisfies the invariant and is reached from a boot state by
atomic steps. -/
theorem reachable_inv {st : State cfg} (h : Reachable st) :
    WF st ∧ ∃ support flags st0, Boot support flags st0 ∧ SSteps st0 st := by
  have close : ∀ {st : State cfg}, (∃ support flags st0, Boot support flags st0 ∧ SSteps st0 st) →
      WF st ∧ ∃ support flags st0, Boot support flags st0 ∧ SSteps st0 st := by
    rintro st ⟨a, b, st0, h1, h2⟩
    exact ⟨(WF.boot h1).steps h2, a, b, st0, h1, h2⟩
  induction h with
  | new support flags => exact close ⟨support, flags, _, .new, .refl⟩
  | create ops st w out _ ih =>
    obtain ⟨_, a, b, st0, h1, h2⟩ := ih
    refine close ⟨a, b, st0, h1, ?_⟩
    rcases hr : dpeNew ops ⟨st, w, out⟩ with ⟨r, s'⟩
    rcases dpeNew_steps hr with h | ⟨loc, idx, h3, h4, h5⟩
    · simp only at h; rw [h]; exact h2
    · simp only at h3 h4 h5; rw [h5]; exact .tail h2 (init_default_step h3 h4)
  | autoInit ops ty m support flags w out =>
    rcases hr : dpeNewAutoInit ops ty m ⟨State.new cfg support flags, w, out⟩ with ⟨r, s'⟩
    obtain ⟨st0, h1, h2⟩ := autoInit_boot rfl hr
    exact close ⟨support, flags, st0, h1, h2⟩
  | step env c loc st w out _ ih =>
    obtain ⟨wf, a, b, st0, h1, h2⟩ := ih
    refine close ⟨a, b, st0, h1, ?_⟩
    rcases hr : exec env c loc ⟨st, w, out⟩ with ⟨r, s'⟩
    exact h2.trans (exec_steps (s := ⟨st, w, out⟩) wf.no_self hr)

theorem Reachable.wf {st : State cfg} (h : Reachable st) : WF st := (reachable_inv h).1

theorem Reachable.rights {st : State cfg} (h : Reachable st) : Rights st := by
  obtain ⟨_, _, _, st0, h1, h2⟩ := reachable_inv h
  exact (Rights.boot h1).steps (WF.boot h1) h2

end Dpe
