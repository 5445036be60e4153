import Verif.Proofs.ValidateForest
import Verif.Props.Unique
/-
Properties of the state validator: C02, C03 and C04.
-/
namespace Dpe
variable {cfg : Cfg}

/-- All the rules but the one about default contexts. -/
structure LawfulBase (st : State cfg) : Prop where
  marker : st.marker = 0x44504553 ∧ st.version = 1
  supported : ∀ i, SupportOk st i
  blank : ∀ i, ¬ Live st i → (st.at i).parentIdx = ROOT ∧ (∀ j, ¬ Lists st i j) ∧
    (st.at i).tci = Tci.new ∧ (st.at i).usesDice = false ∧ (st.at i).allowX509 = false ∧
    (st.at i).usesInfo = false
  initialised : ∀ i, (st.at i).state = .active → (st.at i).ctype = .normal →
    st.hasInitialized = true
  locality : ∀ i, (st.at i).locality = (st.at i).tci.locality
  retired : ∀ i, (st.at i).state = .retired → ∃ j, Lists st i j
  forest : Forest st
  types : ∀ i j, Lists st i j → (st.at i).ctype = (st.at j).ctype
  normal : ∀ i j, IsRoot st i → IsRoot st j → (st.at i).ctype = .normal →
    (st.at j).ctype = .normal → i = j

theorem Lawful.base {st : State cfg} (h : Lawful st) : LawfulBase st :=
  ⟨h.marker, h.supported, h.blank, h.initialised, h.locality, h.retired, h.forest, h.types, h.normal⟩

theorem LawfulBase.lawful {st : State cfg} (h : LawfulBase st) (ha : DefaultAlone st) : Lawful st :=
  ⟨h.marker, h.supported, h.blank, h.initialised, h.locality, h.retired, ha, h.forest, h.types,
    h.normal⟩

theorem LawfulBase.no_violation {st : State cfg} (h : LawfulBase st) (v : ValErr)
    (h1 : v ≠ .multipleDefaultContexts) (h2 : v ≠ .mixedContextLocality) : ¬ Violates st v := by
  have hf := h.forest
  cases v <;> simp only [Violates, not_false_eq_true]
  case multipleDefaultContexts => exact absurd rfl h1
  case mixedContextLocality => exact absurd rfl h2
  case invalidMarker => exact fun hc => hc h.marker.1
  case versionMismatch => exact fun hc => hc h.marker.2
  case simulationNotSupported =>
    rintro ⟨i, h1, h2⟩; exact h2 ((h.supported i).1 h1)
  case internalDiceNotSupported =>
    rintro ⟨i, h1, h2⟩; exact h2 ((h.supported i).2.1 h1)
  case internalInfoNotSupported =>
    rintro ⟨i, h1, h2⟩; exact h2 ((h.supported i).2.2.1 h1)
  case allowX509NotSupported =>
    rintro ⟨i, h1, h2, h3⟩; exact h3 ((h.supported i).2.2.2 h1 h2)
  case inactiveContextInvalidParent => rintro ⟨i, h1, h2⟩; exact h2 (h.blank i h1).1
  case inactiveContextWithChildren => rintro ⟨i, j, h1, h2⟩; exact (h.blank i h1).2.1 j h2
  case inactiveContextWithMeasurement => rintro ⟨i, h1, h2⟩; exact h2 (h.blank i h1).2.2.1
  case inactiveContextWithFlagSet =>
    rintro ⟨i, h1, h2⟩
    obtain ⟨_, _, _, a, b, c⟩ := h.blank i h1
    rw [a, b, c] at h2; simp at h2
  case dpeNotMarkedInitialized =>
    rintro ⟨i, h1, h2, h3⟩; rw [h.initialised i h1 h2] at h3; cases h3
  case parentDoesNotExist =>
    rintro ⟨i, h1, h2, h3⟩
    have := lt_of_live (hf.parent_lists i h1 h2).1
    omega
  case inactiveParent =>
    rintro ⟨i, h1, h2, h3⟩
    exact h3 (hf.parent_lists i h1 fun e => root_not_lt (e ▸ h2)).1
  case childDoesNotExist =>
    rintro ⟨i, j, h1, h2, h3⟩
    have := lt_of_live (hf.child_live i j h2).2.1
    omega
  case inactiveChild => rintro ⟨i, j, h1, h2, h3, h4⟩; exact h4 (hf.child_live i j h2).2.1
  case parentChildLinksCorrupted =>
    rintro (⟨i, h1, h2, h3⟩ | ⟨i, j, h1, h2, h3, h4⟩)
    · exact h3 (hf.parent_lists i h1 fun e => root_not_lt (e ▸ h2)).2.1
    · exact h4 (hf.child_live i j h3).2.2
  case danglingRetiredContext =>
    rintro ⟨i, h1, h2⟩
    obtain ⟨j, hj⟩ := h.retired i h1
    exact h2 j hj
  case localityMismatch => rintro ⟨i, h1⟩; exact h1 (h.locality i)
  case cyclesInTree =>
    rintro ⟨i, h1, h2⟩
    obtain ⟨l, hl, _, _⟩ := hf.acyclic i h1
    have : ∀ j, Anc st i j → ∃ t, Path st j t ∧ t.length < l.length := by
      intro j hj
      induction hj with
      | parent _ hn =>
        cases hl with
        | root _ hr => exact absurd hr hn
        | step _ _ hp => exact ⟨_, hp, by simp⟩
      | step _ _ hn ih =>
        obtain ⟨t, ht, hlt⟩ := ih
        cases ht with
        | root _ hr => exact absurd hr hn
        | step _ _ hp => exact ⟨_, hp, by simp at hlt; omega⟩
    obtain ⟨t, ht, hlt⟩ := this i h2
    rw [ht.unique hl] at hlt
    omega
  case mixedContextTypeConnectedComponents =>
    rintro ⟨i, j, h1, h2⟩; exact h2 (h.types i j h1)
  case multipleNormalConnectedComponents =>
    rintro ⟨i, j, h1, h2, h3, h4, h5⟩; exact h1 (h.normal i j h2 h3 h4 h5)

theorem Lawful.no_violation {st : State cfg} (h : Lawful st) (v : ValErr) : ¬ Violates st v := by
  by_cases h1 : v = .multipleDefaultContexts
  · subst h1
    rintro ⟨i, j, h1, h2, h3, h4, h5, _⟩; exact h1 (h.alone i j h2 h3 h4 h5)
  by_cases h2 : v = .mixedContextLocality
  · subst h2
    rintro ⟨i, j, h2, h3, h4, h5, h6⟩; rw [h.alone i j h2 h3 h4 h5] at h5; exact h6 h5
  exact h.base.no_violation v h1 h2

/-- C03: a state the validator accepts is lawful, whatever its bits. -/
theorem C03_sound {fuel : Nat} (hf : cfg.maxHandles ≤ fuel) {st : State cfg}
    (h : validateDpe fuel st = .ok ()) : Lawful st := by
  have := validateDpe_res (st := st) hf
  rw [h] at this
  exact this

/-- C04: the validator accepts every lawful state; on any state at all it terminates without
running out of a stack of depth `MAX_HANDLES`, and a rejection names a rule that the state
really breaks. -/
theorem C04_complete {fuel : Nat} (hf : cfg.maxHandles ≤ fuel) (st : State cfg) :
    (Lawful st → validateDpe fuel st = .ok ()) ∧
    ∀ e, validateDpe fuel st = .error e → ∃ v, e = .validation v ∧ Violates st v := by
  have h := validateDpe_res (st := st) hf
  refine ⟨fun hl => ?_, fun e he => by rw [he] at h; exact h⟩
  cases hr : validateDpe fuel st with
  | ok u => rfl
  | error e =>
    rw [hr] at h
    obtain ⟨v, _, hv⟩ := h
    exact absurd hv (hl.no_violation v)

/-- C04, second half: the recursion depth beyond `MAX_HANDLES` makes no difference, so the
verdict is that of the unbounded recursion of the Rust code. -/
theorem C04_depth {fuel : Nat} (hf : cfg.maxHandles ≤ fuel) (st : State cfg) :
    validateDpe fuel st ≠ .error .panic ∧
    (validateDpe fuel st = .ok () ↔ validateDpe cfg.maxHandles st = .ok ()) := by
  refine ⟨fun h => ?_, fun h => (C04_complete (Nat.le_refl _) st).1 (C03_sound hf h),
    fun h => (C04_complete hf st).1 (C03_sound (Nat.le_refl _) h)⟩
  obtain ⟨v, h1, _⟩ := (C04_complete hf st).2 _ h
  cases h1

/-! ### States of an instance in service -/

theorem SStep.marker {st st' : State cfg} (h : SStep st st') :
    st'.marker = st.marker ∧ st'.version = st.version := by
  cases h <;> exact ⟨rfl, rfl⟩

theorem SSteps.marker {st st' : State cfg} (h : SSteps st st') :
    st'.marker = st.marker ∧ st'.version = st.version := by
  induction h with
  | refl => exact ⟨rfl, rfl⟩
  | tail _ h ih =>
    obtain ⟨e1, e2⟩ := h.marker
    exact ⟨e1.trans ih.1, e2.trans ih.2⟩

theorem InService.marker {st : State cfg} (h : InService st) :
    st.marker = 0x44504553 ∧ st.version = 1 := by
  induction h with
  | reached h =>
    obtain ⟨a, b, st0, h1, h2⟩ := (reachable_inv h).2
    obtain ⟨e1, e2⟩ := h2.marker
    rw [e1, e2]
    cases h1 <;> exact ⟨rfl, rfl⟩
  | restored fuel hf h _ => exact (C03_sound hf h).marker
  | create ops st w out hst ih =>
    rcases hr : dpeNew ops ⟨st, w, out⟩ with ⟨r, s'⟩
    rcases dpeNew_steps hr with h | ⟨loc, idx, h3, h4, h5⟩
    · simp only at h; rw [h]; exact ih
    · simp only at h5; rw [h5]
      obtain ⟨e1, e2⟩ := (init_default_step (loc := loc) h3 h4).marker
      exact ⟨e1.trans ih.1, e2.trans ih.2⟩
  | step env c loc st w out hst ih =>
    obtain ⟨e1, e2⟩ := (exec_steps (env := env) (c := c) (loc := loc) (s := ⟨st, w, out⟩) hst.wf.no_self rfl).marker
    exact ⟨e1.trans ih.1, e2.trans ih.2⟩

theorem InService.lawfulBase {st : State cfg} (h : InService st) : LawfulBase st := by
  have wf := h.wf
  refine ⟨h.marker, fun i => ⟨wf.sim i, wf.dice i, wf.info i, wf.x509 i⟩, fun i hi => ?_,
    fun i h1 => wf.inited i (live_of_active h1), fun i => (wf.tloc i).symm, wf.retired,
    C01_forest h, fun i j hl => (wf.kind i j hl).symm, wf.norm⟩
  obtain ⟨a, b, c, d, e, f, _⟩ := wf.clean i (by unfold Live at hi; simpa using hi)
  refine ⟨a, fun j hj => ?_, c, e, f, d⟩
  rw [Lists, b] at hj
  simp at hj

/-- C02 (partial): the validator accepts every state of an instance without
simulation support; with simulation support the only complaints it can have about a reachable
state are the two about default contexts.  Missing: acceptance of every reachable state with
simulation support, which is false (`C02_false_simulation`). -/
theorem C02_partial {fuel : Nat} (hf : cfg.maxHandles ≤ fuel) {st : State cfg}
    (h : InService st) : validateDpe fuel st = .ok () ∨
      (Bit st.support Feature.simulation ∧ ¬ DefaultAlone st ∧
        (validateDpe fuel st = .error (.validation .multipleDefaultContexts) ∨
          validateDpe fuel st = .error (.validation .mixedContextLocality))) := by
  by_cases ha : DefaultAlone st
  · exact .inl ((C04_complete hf st).1 (h.lawfulBase.lawful ha))
  · have hs : Bit st.support Feature.simulation := by
      by_contra hn
      exact ha (C13_alone_partial h hn)
    refine .inr ⟨hs, ha, ?_⟩
    cases hr : validateDpe fuel st with
    | ok u => exact absurd (C03_sound hf hr).alone ha
    | error e =>
      obtain ⟨v, rfl, hv⟩ := (C04_complete hf st).2 e hr
      by_cases h1 : v = .multipleDefaultContexts
      · exact .inl (by rw [h1])
      by_cases h2 : v = .mixedContextLocality
      · exact .inr (by rw [h2])
      exact absurd hv (h.lawfulBase.no_violation v h1 h2)

/-- C02 is false with simulation support: a simulation context made default and then the
default context of the same locality is a reachable state the validator rejects; so is a
default context followed by a simulation context. -/
theorem C02_false_simulation :
    (∃ st : State Toy.cfg, Reachable st ∧
      validateDpe 4 st = .error (.validation .multipleDefaultContexts)) ∧
    ∃ st : State Toy.cfg, Reachable st ∧
      validateDpe 4 st = .error (.validation .mixedContextLocality) := by
  refine ⟨⟨(((Toy.s0.step (.init 0x80000000) 0).step (.rotate ⟨Toy.hd 1, 0x80000000⟩) 0).step
      (.init 0x40000000) 0).st, Toy.R.reach _, by decide +kernel⟩,
    (Toy.s1.step (.init 0x80000000) 0).st, Toy.R.reach _, by decide +kernel⟩

/-- Non-vacuity for C02 and C03: the validator accepts the example chain through a Retired
context. -/
example : validateDpe 4 Toy.s4.st = .ok () ∧ Lawful Toy.s4.st := by
  have h : validateDpe 4 Toy.s4.st = .ok () := by decide +kernel
  exact ⟨h, C03_sound (by decide) h⟩

/-- Slot `i` rewritten by hand, as a corruption of the stored state would. -/
def Toy.tamper (i : Nat) (f : Context Toy.cfg → Context Toy.cfg) : State Toy.cfg :=
  Toy.s4.st.setCtx i (f (Toy.s4.st.at i))

/-- Non-vacuity for C04: tampered states are rejected, each with the rule it breaks.  The
two-cycle between slots 0 and 2 keeps all links consistent in both directions. -/
example :
    validateDpe 4 (Toy.tamper 2 fun c => { c with parentIdx := 0 }) =
      .error (.validation .parentChildLinksCorrupted) ∧
    validateDpe 4 (Toy.tamper 2 fun c => { c with children := 0x100 }) =
      .error (.validation .childDoesNotExist) ∧
    validateDpe 4 (Toy.tamper 1 fun c => { c with ctype := .simulation }) =
      .error (.validation .mixedContextTypeConnectedComponents) ∧
    validateDpe 4 ((Toy.tamper 2 fun c => { c with children := 1 }).setCtx 0
      { Toy.s4.st.at 0 with parentIdx := 2 }) = .error (.validation .cyclesInTree) ∧
    validateDpe 4 (Toy.tamper 3 fun c => { c with allowX509 := true }) =
      .error (.validation .inactiveContextWithFlagSet) := by
  decide +kernel

end Dpe
