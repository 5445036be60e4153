import Verif.Props.Validate
import Verif.Props.Faults
import Verif.Props.Complete
/-
C68: an instance that continues from a restored state.  The theorems of the other properties
that ask for `InService` cover these instances; here is what becomes of the rules the validator
checked, what becomes of the ones it does not check, and what it lets through.
-/
namespace Dpe

section
variable {cfg : Cfg} {σ : Type}

theorem Calls.inService {st st' : State cfg} (hst : InService st) (h : Calls st st') :
    InService st' := by
  induction h with
  | refl => exact hst
  | step _ hc ih => exact hc.inService ih

/-- C68: whatever calls are made after the validator accepted a state, every rule it checked
still holds, except that with simulation support default contexts may share a locality; without
simulation support the validator accepts the new state as well. -/
theorem C68_kept {fuel : Nat} (hf : cfg.maxHandles ≤ fuel) {st st' : State cfg}
    (hv : validateDpe fuel st = .ok ()) (hd : ∀ f, Bit cfg.disabled f → ¬ st.supports f)
    (h : Calls st st') :
    (∀ v, Violates st' v → Bit st.support Feature.simulation ∧
      (v = .multipleDefaultContexts ∨ v = .mixedContextLocality)) ∧
    (¬ Bit st.support Feature.simulation → validateDpe fuel st' = .ok ()) := by
  have hst : InService st := .restored fuel hf hv hd
  have hs : st'.support = st.support := (C21_config_history hst h).1.2.2.1
  have h' := Calls.inService hst h
  have key : ¬ Bit st.support Feature.simulation → Lawful st' := fun hn =>
    h'.lawfulBase.lawful (C13_alone_partial h' (by unfold State.supports; rw [hs]; exact hn))
  refine ⟨fun v hv => ?_, fun hn => (C04_complete hf st').1 (key hn)⟩
  by_cases hn : Bit st.support Feature.simulation
  · refine ⟨hn, by_contra fun hc => ?_⟩
    exact h'.lawfulBase.no_violation v (fun e => hc (.inl e)) (fun e => hc (.inr e)) hv
  · exact absurd hv ((key hn).no_violation v)

theorem SSteps.support {st st' : State cfg} (h : SSteps st st') : st'.support = st.support := by
  induction h with
  | refl => rfl
  | tail _ h ih => exact (show _ = _ by cases h <;> rfl).trans ih

/-- C68: an instance in service never has a feature that the build excludes, and none of its
contexts uses an internal input of that kind. -/
theorem C68_excluded {st : State cfg} (hst : InService st) :
    (∀ f, Bit cfg.disabled f → ¬ st.supports f) ∧
    (Bit cfg.disabled Feature.internalInfo → ∀ i, (st.at i).usesInfo = false) ∧
    (Bit cfg.disabled Feature.internalDice → ∀ i, (st.at i).usesDice = false) := by
  have key : ∀ f, Bit cfg.disabled f → ¬ st.supports f := by
    induction hst with
    | reached h =>
      obtain ⟨sup, fl, st0, h1, h2⟩ := (reachable_inv h).2
      intro f hb hs
      unfold State.supports at hs
      rw [h2.support, show st0.support = sup &&& ~~~cfg.disabled by cases h1 <;> rfl] at hs
      unfold Bit at hs hb
      rw [BitVec.getLsbD_and, BitVec.getLsbD_not, hb] at hs
      simp at hs
    | restored fuel hf h hd => exact hd
    | create ops st w out _ ih =>
      rcases hr : dpeNew ops ⟨st, w, out⟩ with ⟨r, s'⟩
      rcases dpeNew_steps hr with h | ⟨loc, idx, h3, h4, h5⟩
      · simp only at h; rw [h]; exact ih
      · simp only at h5; rw [h5]; exact ih
    | step env c loc st w out hst ih =>
      rcases hr : exec env c loc ⟨st, w, out⟩ with ⟨r, s'⟩
      intro f hb hs
      unfold State.supports at hs
      rw [(exec_steps (s := ⟨st, w, out⟩) hst.wf.no_self hr).support] at hs
      exact ih f hb hs
  refine ⟨key, fun hb i => ?_, fun hb i => ?_⟩
  · exact Bool.eq_false_iff.2 fun h => key _ hb (hst.wf.info i h)
  · exact Bool.eq_false_iff.2 fun h => key _ hb (hst.wf.dice i h)

/-- C68: if the restored state also had different types among siblings and no privilege that a
parent lacks, so does every later state. -/
theorem C68_rights {st st' : State cfg} (hst : InService st) (rt : Rights st) (h : Calls st st') :
    Rights st' := by
  have key : InService st' ∧ Rights st' := by
    induction h with
    | refl => exact ⟨hst, rt⟩
    | @step st1 st2 _ hc ih =>
      obtain ⟨h1, h2⟩ := ih
      refine ⟨hc.inService h1, ?_⟩
      cases hc with
      | cmd env c loc _ w out =>
        exact h2.steps h1.wf (exec_steps (s := ⟨st1, w, out⟩) h1.wf.no_self rfl)
      | create ops _ w out =>
        rcases hr : dpeNew ops ⟨st1, w, out⟩ with ⟨r, s'⟩
        rcases dpeNew_steps hr with h | ⟨loc, idx, h3, h4, h5⟩
        · simp only at h; rw [h]; exact h2
        · simp only at h5; rw [h5]
          exact h2.step h1.wf (init_default_step h3 h4)
  exact key.2

/-- C68: under the same condition privileges come from all ancestors, as in C15, so that the
guarantees of C28 and C29 about ancestors hold as well. -/
theorem C68_ancestors {st st' : State cfg} (hst : InService st) (rt : Rights st) (h : Calls st st')
    {i j : Nat} (ha : Anc st' i j) :
    ((st'.at i).allowX509 = true → (st'.at j).allowX509 = true) ∧
    ((st'.at i).allowExport = true → (st'.at j).allowExport = true) ∧
    ((st'.at i).allowRecursive = true → (st'.at j).allowRecursive = true) :=
  (C68_rights hst rt h).up (Calls.inService hst h).wf ha

end

/-! ### What the validator lets through -/

/-- Slot `i` of any state rewritten by hand. -/
def Toy.forge (st : State Toy.cfg) (i : Nat) (f : Context Toy.cfg → Context Toy.cfg) : State Toy.cfg :=
  st.setCtx i (f (st.at i))

/-- C68 (limits of the validator): it accepts states in which a child has a privilege that its
parent lacks, two children of one context have the same type, two Active contexts of one locality
have the same handle, or a free slot still has privileges. -/
theorem C68_unchecked :
    (∃ st : State Toy.cfg, validateDpe 4 st = .ok () ∧ Lists st 0 1 ∧ (st.at 1).allowX509 = true ∧
      (st.at 0).allowX509 = false) ∧
    (∃ st : State Toy.cfg, validateDpe 4 st = .ok () ∧ Lists st 0 1 ∧ (st.at 1).allowExport = true ∧
      (st.at 0).allowExport = false) ∧
    (∃ st : State Toy.cfg, validateDpe 4 st = .ok () ∧ Lists st 0 1 ∧ (st.at 1).allowRecursive = true ∧
      (st.at 0).allowRecursive = false) ∧
    (∃ st : State Toy.cfg, validateDpe 4 st = .ok () ∧ Lists st 0 1 ∧ Lists st 0 2 ∧
      (st.at 1).tci.tciType = (st.at 2).tci.tciType) ∧
    (∃ st : State Toy.cfg, validateDpe 4 st = .ok () ∧ Names st (Toy.hd 2) 0 0 ∧
      Names st (Toy.hd 2) 0 2) ∧
    ∃ st : State Toy.cfg, validateDpe 4 st = .ok () ∧ ¬ Live st 3 ∧ (st.at 3).allowExport = true ∧
      (st.at 3).allowRecursive = true := by
  refine ⟨⟨Toy.forge Toy.s3.st 0 fun c => { c with allowX509 := false }, by decide +kernel, ?_⟩,
    ⟨Toy.forge Toy.s3.st 0 fun c => { c with allowExport := false }, by decide +kernel, ?_⟩,
    ⟨Toy.forge Toy.s3.st 0 fun c => { c with allowRecursive := false }, by decide +kernel, ?_⟩,
    ⟨Toy.forge Toy.s3b.st 2 fun c => { c with tci := { c.tci with tciType := 5 } }, by decide +kernel, ?_⟩,
    ⟨Toy.forge Toy.s4.st 2 fun c => { c with handle := Toy.hd 2 }, by decide +kernel, ?_⟩,
    ⟨Toy.forge Toy.s4.st 3 fun c => { c with allowExport := true, allowRecursive := true },
      by decide +kernel, ?_⟩⟩
  · unfold Lists; decide +kernel
  · unfold Lists; decide +kernel
  · unfold Lists; decide +kernel
  · unfold Lists; decide +kernel
  · unfold Names; decide +kernel
  · unfold Live; decide +kernel

/-- Slot 0 of `Toy.s3` without the right to X.509 certificates; its child in slot 1 keeps it. -/
def Toy.forged : State Toy.cfg := Toy.forge Toy.s3.st 0 fun c => { c with allowX509 := false }

/-- C68 (consequence): C29 does not extend to restored states.  The validator accepts a state in
which CertifyKey issues an X.509 certificate for a context whose parent may not have one. -/
theorem C68_x509_false : validateDpe 4 Toy.forged = .ok () ∧
    (∃ n s', exec Toy.env (.certify (.p256 (Toy.hd 3) 0 0 (Vector.replicate 32 0))) 0
      ⟨Toy.forged, 0, Toy.buf⟩ = (.ok n, s')) ∧
    Anc Toy.forged 1 0 ∧ (Toy.forged.at 0).allowX509 = false := by
  refine ⟨by decide +kernel, ?_, ?_, by decide +kernel⟩
  · have h : (exec Toy.env (.certify (.p256 (Toy.hd 3) 0 0 (Vector.replicate 32 0))) 0
        ⟨Toy.forged, 0, Toy.buf⟩).1.toOption.isSome = true := by decide +kernel
    rcases hx : exec Toy.env (.certify (.p256 (Toy.hd 3) 0 0 (Vector.replicate 32 0))) 0
        ⟨Toy.forged, 0, Toy.buf⟩ with ⟨r, s'⟩
    rw [hx] at h
    cases r with
    | error e => cases h
    | ok n => exact ⟨n, s', rfl⟩
  · have := Anc.parent (st := Toy.forged) (i := 1) (by unfold Live; decide +kernel) (by decide +kernel)
    rwa [show (Toy.forged.at 1).parentIdx = 0 by decide +kernel] at this

/-! ### Non-vacuity -/

/-- The toy build excludes nothing. -/
theorem Toy.allFeatures {st : State Toy.cfg} (f : Nat) : Bit Toy.cfg.disabled f → ¬ st.supports f := by
  intro h
  unfold Bit at h
  rw [show Toy.cfg.disabled = 0#32 from rfl, BitVec.getLsbD_zero] at h
  cases h

/-- The state of `Toy.s4` with the measurement of its root replaced: no sequence of commands need
lead here, but the validator accepts it, and the instance can go on from it. -/
example : InService (Toy.forge Toy.s4.st 0 fun c => { c with tci := { c.tci with cumulative := Toy.data 9 9 } }) :=
  .restored 4 (by decide) (by decide +kernel) Toy.allFeatures

/-- A build that excludes internal-info does not grant it, whatever it is asked for. -/
example (sup : U32) (fl : BitVec 16) :
    ¬ (State.new { Toy.cfg with disabled := 0x00400000 } sup fl).supports Feature.internalInfo :=
  (C68_excluded (.reached (.new sup fl))).1 _ (show Bit (0x00400000 : U32) 22 by decide)

/-- C68 applied: after a forged but accepted state, any command leaves a forest behind. -/
example (c : Cmd Toy.cfg) (loc : U32) (w : Nat) :
    Forest (exec Toy.env c loc ⟨Toy.forged, w, Toy.buf⟩).2.st :=
  C01_forest (.step Toy.env c loc _ w Toy.buf (.restored 4 (by decide) C68_x509_false.1 Toy.allFeatures))

/-- C68 applied: on a forged state with two children of type 5, UpdateContextMeasurement measures
into the lower slot. -/
example : let st := Toy.forge Toy.s3b.st 2 fun c => { c with tci := { c.tci with tciType := 5 } }
    ActiveChild st 0 5 1 ∧ ¬ ActiveChild st 0 5 2 := by
  refine ⟨⟨by unfold Lists; decide +kernel, by decide +kernel, by decide +kernel, fun j hj hl _ => ?_⟩,
    fun h => absurd (h.2.2.2 1 (by unfold Lists; decide +kernel) (by decide +kernel) (by decide +kernel)) (by decide)⟩
  cases j with
  | zero => revert hj; unfold Lists; decide +kernel
  | succ j => omega

end Dpe
