import Verif.Spec.Boot
import Verif.Proofs.Calls
import Verif.Examples.Toy
/-
C51: automatic initialisation is a default initialisation.
-/
namespace Dpe
section
variable {cfg : Cfg} {σ : Type} {ops : Ops σ} {support : U32} {flags : BitVec 16} {w : σ}
  {out : Bytes} {s' : Sys cfg σ} {r : Except Err Unit} {D : Bytes → Bytes → Prop}

theorem initCtx_new {loc : U32} (ops : Ops σ) (w : σ) (out : Bytes) (ho : 28 ≤ out.length) :
    ∃ out', initCtx ops 0x40000000 loc ⟨State.new cfg support flags, w, out⟩ =
      (.ok 28, ⟨initPost (State.new cfg support flags) 0x40000000 loc 0 Handle.default, w, out'⟩) := by
  rcases h : initCtx ops 0x40000000 loc ⟨State.new cfg support flags, w, out⟩ with ⟨r, s'⟩
  unfold initCtx at h
  rw [run_get, run_failIf, if_neg (by simp [State.new, initSimFlag]), run_failIf,
    if_neg (by simp [initSimFlag, initDefaultFlag]), run_okOr, nextInactive_new] at h
  simp only [initHandle, if_pos (show initDefaultFlag 0x40000000 = true from rfl)] at h
  rw [run_bind] at h
  have hl : (newHandleBytes cfg.profile Handle.default).length = 28 := by
    simp [newHandleBytes, hdrBytes_length]
  simp only [run_modify, run_pure] at h
  rw [run_writeAt0, if_pos (by rw [hl]; exact ho), run_pure, hl] at h
  rw [← h]
  exact ⟨_, rfl⟩

theorem afterInit {loc : U32} : AfterDefaultInit support flags loc
    (initPost (State.new cfg support flags) 0x40000000 loc 0 Handle.default) := by
  intro τ env w out ho
  obtain ⟨out', h⟩ := initCtx_new (cfg := cfg) (support := support) (flags := flags) (loc := loc)
    env.toOps w out ho
  exact ⟨28, _, h, rfl⟩

theorem dpeNew_new (h : dpeNew ops ⟨State.new cfg support flags, w, out⟩ = (r, s')) :
    s'.out = out ∧
    ((¬ (State.new cfg support flags).supports Feature.autoInit ∧ r = .ok () ∧ s'.st = State.new cfg support flags) ∨
     ((State.new cfg support flags).supports Feature.autoInit ∧ ∃ e, ops.autoInitLocality w = (.error e, s'.w) ∧
        r = .error (.platform e) ∧ s'.st = State.new cfg support flags) ∨
     ((State.new cfg support flags).supports Feature.autoInit ∧ ∃ loc, ops.autoInitLocality w = (.ok loc, s'.w) ∧
        r = .ok () ∧ s'.st = initPost (State.new cfg support flags) 0x40000000 loc 0 Handle.default)) := by
  unfold dpeNew at h
  rw [run_get] at h
  unfold M.when at h
  by_cases ha : autoInitBit (State.new cfg support flags).support = true
  · rw [if_pos (show autoInitBit (State.new cfg support flags).support = true from ha), run_bind] at h
    rcases hp : ops.autoInitLocality w with ⟨e | loc, w'⟩
    · rw [show M.platform ops.autoInitLocality (⟨State.new cfg support flags, w, out⟩ : Sys cfg σ) =
        (.error (.platform e), ⟨State.new cfg support flags, w', out⟩) by simp [M.platform, hp]] at h
      cases h
      exact ⟨rfl, .inr (.inl ⟨ha, e, rfl, rfl, rfl⟩)⟩
    · rw [show M.platform ops.autoInitLocality (⟨State.new cfg support flags, w, out⟩ : Sys cfg σ) =
        (.ok loc, ⟨State.new cfg support flags, w', out⟩) by simp [M.platform, hp]] at h
      simp only at h
      rw [run_bind] at h
      obtain ⟨out', hi⟩ := initCtx_new (cfg := cfg) (support := support) (flags := flags) (loc := loc)
        ops w' (List.replicate 28 0) (by simp)
      unfold withBuf at h
      simp only [hi] at h
      cases h
      exact ⟨rfl, .inr (.inr ⟨ha, loc, rfl, rfl, rfl⟩)⟩
  · rw [if_neg (show ¬ autoInitBit (State.new cfg support flags).support = true from ha)] at h
    cases h
    exact ⟨rfl, .inl ⟨ha, rfl, rfl⟩⟩

/-- C51: `DpeInstance::new` on a fresh state does nothing without the auto-init feature; with it,
it leaves exactly the state of a default InitializeContext from the auto-init locality. -/
theorem C51_new (h : dpeNew ops ⟨State.new cfg support flags, w, out⟩ = (r, s')) :
    s'.out = out ∧
    ((¬ (State.new cfg support flags).supports Feature.autoInit ∧ r = .ok () ∧ s'.st = State.new cfg support flags) ∨
     ((State.new cfg support flags).supports Feature.autoInit ∧ ∃ e, ops.autoInitLocality w = (.error e, s'.w) ∧
        r = .error (.platform e) ∧ s'.st = State.new cfg support flags) ∨
     ((State.new cfg support flags).supports Feature.autoInit ∧ ∃ loc, ops.autoInitLocality w = (.ok loc, s'.w) ∧
        r = .ok () ∧ AfterDefaultInit support flags loc s'.st)) := by
  obtain ⟨h0, h1 | h1 | ⟨h1, loc, h2, h3, h4⟩⟩ := dpeNew_new h
  · exact ⟨h0, .inl h1⟩
  · exact ⟨h0, .inr (.inl h1)⟩
  · exact ⟨h0, .inr (.inr ⟨h1, loc, h2, h3, by rw [h4]; exact afterInit⟩)⟩

/-- C51: `DpeInstance::new_auto_init` is refused without the auto-init feature.  If it succeeds
the state is that of a default InitializeContext from the auto-init locality, except that the
root got the given type and the given measurement on top of the zero value.  If it fails, the
state is the fresh one or that of the default InitializeContext. -/
theorem C51_auto_init {ty : U32} {m : BArr cfg.tciSize} (hD : Digests ops D)
    (h : dpeNewAutoInit ops ty m ⟨State.new cfg support flags, w, out⟩ = (r, s')) :
    s'.out = out ∧
    (¬ (State.new cfg support flags).supports Feature.autoInit → r = .error .argumentNotSupported ∧
      s' = ⟨State.new cfg support flags, w, out⟩) ∧
    ((∃ e, r = .error e) → s'.st = State.new cfg support flags ∨
      ∃ loc w', ops.autoInitLocality w = (.ok loc, w') ∧ AfterDefaultInit support flags loc s'.st) ∧
    (r = .ok () → ∃ (loc : U32) (w' w'' : σ) (st1 : State cfg) (v : BArr cfg.tciSize),
      ops.autoInitLocality w = (.ok loc, w') ∧ ops.autoInitLocality w' = (.ok loc, w'') ∧
      AfterDefaultInit support flags loc st1 ∧
      D (List.replicate cfg.tciSize 0 ++ m.toList) v.toList ∧
      SetSlot st1 0 { st1.at 0 with
        tci := { (st1.at 0).tci with tciType := ty, cumulative := v, current := m } } s'.st) := by
  unfold dpeNewAutoInit at h
  rw [run_get, run_failIf] at h
  by_cases ha : (State.new cfg support flags).supports Feature.autoInit
  case neg =>
    rw [if_pos (by simpa [State.supports, Bit, Feature.autoInit, autoInitBit] using ha)] at h
    cases h
    exact ⟨rfl, fun _ => ⟨rfl, rfl⟩, fun _ => .inl rfl, fun h => by cases h⟩
  rw [if_neg (by simpa [State.supports, Bit, Feature.autoInit, autoInitBit] using ha), run_bind] at h
  rcases hn : dpeNew ops ⟨State.new cfg support flags, w, out⟩ with ⟨r1, s1⟩
  rw [hn] at h
  obtain ⟨h0, h1 | ⟨_, e, he, rfl, h2⟩ | ⟨_, loc, hl, rfl, h2⟩⟩ := dpeNew_new hn
  · exact absurd ha h1.1
  · cases h
    exact ⟨h0, fun hc => absurd ha hc, fun _ => .inl h2, fun h => by cases h⟩
  simp only at h
  have fail : ∀ {e : Err} {s' : Sys cfg σ}, s'.out = s1.out → s'.st = s1.st →
      s'.out = out ∧ (¬ (State.new cfg support flags).supports Feature.autoInit → (.error e : Except Err Unit) = .error .argumentNotSupported ∧
      s' = ⟨State.new cfg support flags, w, out⟩) ∧
    ((∃ e', (.error e : Except Err Unit) = .error e') → s'.st = State.new cfg support flags ∨
      ∃ loc w', ops.autoInitLocality w = (.ok loc, w') ∧ AfterDefaultInit support flags loc s'.st) ∧
    ((.error e : Except Err Unit) = .ok () → ∃ (loc : U32) (w' w'' : σ) (st1 : State cfg) (v : BArr cfg.tciSize),
      ops.autoInitLocality w = (.ok loc, w') ∧ ops.autoInitLocality w' = (.ok loc, w'') ∧
      AfterDefaultInit support flags loc st1 ∧
      D (List.replicate cfg.tciSize 0 ++ m.toList) v.toList ∧
      SetSlot st1 0 { st1.at 0 with
        tci := { (st1.at 0).tci with tciType := ty, cumulative := v, current := m } } s'.st) := by
    intro e s' ho hs
    refine ⟨by rw [ho, h0], fun hc => absurd ha hc, fun _ => .inr ⟨loc, _, hl, ?_⟩, fun h => by cases h⟩
    rw [hs, h2]; exact afterInit
  rw [bind_iff] at h
  rcases h with ⟨e, h3, rfl⟩ | ⟨loc2, s2, h3, h⟩
  · rw [platform_iff] at h3
    rcases h3 with ⟨_, _, _, _, rfl⟩ | ⟨_, _, _, h3, _⟩
    · exact fail rfl rfl
    · cases h3
  rw [platform_iff] at h3
  rcases h3 with ⟨_, _, _, h3, _⟩ | ⟨_, w2, h3, hx, rfl⟩
  · cases h3
  cases hx
  rw [run_get] at h
  rcases lift_u h with ⟨⟨e, rfl⟩, h3, h4⟩ | ⟨idx, hf, h⟩
  · exact fail h4 h3
  rcases okOr_u h with ⟨⟨e, rfl⟩, h3, h4⟩ | ⟨c, hc, h⟩
  · exact fail h4 h3
  rcases world_u (addTci_world _ _ _ _) h with ⟨⟨e, rfl⟩, h3, h4⟩ | ⟨c1, w3, hadd, h⟩
  · exact fail h4 h3
  rw [modify_iff] at h
  obtain ⟨_, hcl, v, hv, rfl⟩ := addTci_ok hadd
  obtain ⟨rfl, rfl⟩ := h
  obtain ⟨c0, hc0, hact, _⟩ := findActive_ok hf
  simp only at hc0 hc
  rw [hc] at hc0; cases hc0
  have e := at_of_getElem? hc
  have hidx : idx = 0 := by
    by_contra hne
    rw [h2, at_initPost cfg.pos, if_neg hne, at_new] at e
    rw [← e] at hact; simp [Context.new] at hact
  subst hidx
  have e0 : s1.st.at 0 = rootContext cfg 0x40000000 loc Handle.default := by
    rw [h2, at_initPost cfg.pos, if_pos rfl, rootContext_eq]
  have hloc : loc = loc2 := by rw [← hcl, ← e, e0]; rfl
  subst hloc
  refine ⟨h0, fun hc => absurd ha hc, fun ⟨_, hc⟩ => (by cases hc), fun _ =>
    ⟨loc, _, _, s1.st, v, hl, h3, by rw [h2]; exact afterInit, ?_, ?_⟩⟩
  · have := hD.hashAll hv
    rw [← e, e0] at this
    simpa [rootContext] using this
  · have := setSlot_of (st := s1.st) cfg.pos { s1.st.at 0 with
        tci := { (s1.st.at 0).tci with tciType := ty, cumulative := v, current := m } }
    rw [← e]
    exact this

end

/-- Non-vacuity: an instance with the auto-init feature, its root of type 0x42 and measurement
1 2. -/
example : let x := dpeNewAutoInit Toy.ops 0x42 (Toy.data 1 2) ⟨State.new Toy.cfg 0x20000000 0, 0, []⟩
    x.1 = .ok () ∧ (x.2.st.at 0).tci.tciType = 0x42 ∧ (x.2.st.at 0).tci.current = Toy.data 1 2 ∧
    (x.2.st.at 0).tci.cumulative = Toy.data 7 7 ∧ x.2.st.hasInitialized = true := by
  decide +kernel

end Dpe
