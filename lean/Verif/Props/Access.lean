import Verif.Proofs.Run
import Verif.Examples.Toy
/-
C08 and C30: who may use which context.
-/
namespace Dpe
variable {cfg : Cfg} {σ : Type}

/-- C08: a command that takes a handle succeeds only if that handle names an Active context
of the caller's locality. -/
theorem C08_success_needs_handle {env : Env cfg σ} {c : Cmd cfg} {loc : U32} {s s' : Sys cfg σ}
    {n : Nat} {h : Handle} (hh : c.usesHandle = some h) (hr : exec env c loc s = (.ok n, s')) :
    ∃ i, Names s.st h loc i := by
  cases c with
  | getProfile => cases hh
  | init f => cases hh
  | chain c => cases hh
  | derive c =>
    cases hh
    rcases deriveCtx_inv hr with ⟨⟨_, hu⟩, _⟩ | ⟨idx, p, _, h2, _⟩
    · cases hu
    · exact ⟨idx, (findActive_resolves h2).1⟩
  | certify c =>
    cases hh
    rcases certifyKey_inv hr with ⟨⟨_, hu⟩, _⟩ | ⟨idx, _, _, _, _, _, _, h2, _⟩
    · cases hu
    · exact ⟨idx, (findActive_resolves h2).1⟩
  | sign c =>
    cases hh
    rcases signCmd_inv hr with hu | ⟨_, idx, _, _, _, _, _, h2, _⟩
    · exact absurd hu not_untouched_ok
    · exact ⟨idx, (findActive_resolves h2).1⟩
  | rotate c =>
    cases hh
    rcases rotateCtx_inv hr with hu | ⟨idx, _, _, _, h2, _⟩
    · exact absurd hu not_untouched_ok
    · exact ⟨idx, (findActive_resolves h2).1⟩
  | destroy h =>
    cases hh
    rcases destroyCtx_inv hr with hu | ⟨set, h1, _⟩
    · exact absurd hu not_untouched_ok
    · obtain ⟨idx, h2⟩ := destroySet_ok h1
      exact ⟨idx, (findActive_resolves h2).1⟩
  | update c =>
    cases hh
    rcases updateCtx_inv hr with hu | ⟨idx, _, _, _, _, _, _, _, h2, _⟩
    · exact absurd hu not_untouched_ok
    · exact ⟨idx, (findActive_resolves h2).1⟩

/-- C08: when the handle names no Active context of the caller's locality the command fails,
nothing at all changes (state, environment, buffer), and the error is the documented one. -/
theorem C08_errors {env : Env cfg σ} {c : Cmd cfg} {loc : U32} {s s' : Sys cfg σ}
    {r : Except Err Nat} {h : Handle} (hh : c.usesHandle = some h)
    (hno : ∀ i, ¬ Names s.st h loc i) (hr : exec env c loc s = (r, s')) :
    s' = s ∧ ∃ e, r = .error e ∧
      (EarlyError s.st c e ∨ ((∀ e', ¬ EarlyError s.st c e') ∧ LookupError s.st loc c e)) := by
  have hf : ∀ {h}, c.usesHandle = some h →
      ∃ e, s.st.findActive h loc = .error e ∧ ((LocalityInUse s.st loc ∧ e = .invalidHandle) ∨
        (¬ LocalityInUse s.st loc ∧ e = .invalidLocality)) := by
    intro h' hh'
    rw [hh] at hh'; cases hh'
    rcases hf : s.st.findActive h loc with e | i
    · refine ⟨e, rfl, ?_⟩
      rcases (findActive_error hf).2 with ⟨h1, h2⟩ | ⟨h1, h2⟩
      · exact .inl ⟨h2, h1⟩
      · exact .inr ⟨h2, h1⟩
    · exact absurd (findActive_resolves hf).1 (hno i)
  cases c with
  | getProfile => cases hh
  | init f => cases hh
  | chain c => cases hh
  | derive c =>
    obtain ⟨e, he, hl⟩ := hf rfl
    simp only [exec, deriveCtx, run_get, run_failIf, run_lift, he] at hr
    split at hr
    · cases hr
      exact ⟨rfl, _, rfl, .inl ⟨deriveUnsupported_iff.mp ‹_›, rfl⟩⟩
    · rename_i hs
      cases hr
      refine ⟨rfl, e, rfl, .inr ⟨?_, hl⟩⟩
      rintro e' ⟨h1, _⟩
      exact hs (deriveUnsupported_iff.mpr h1)
  | certify c =>
    obtain ⟨e, he, hl⟩ := hf rfl
    simp only [exec, certifyKey, run_get, run_lift, he] at hr
    cases hr
    exact ⟨rfl, e, rfl, .inr ⟨fun _ h => h, hl⟩⟩
  | sign c =>
    obtain ⟨e, he, hl⟩ := hf rfl
    cases c with
    | mldsa87Raw hd lb fl size d =>
      simp only [exec, signCmd, run_get, run_lift, SignCmd.data] at hr
      split at hr
      · rename_i a ha
        rw [he] at hr
        cases hr
        refine ⟨rfl, e, rfl, .inr ⟨?_, hl⟩⟩
        rintro e' ⟨h1, _⟩
        rw [if_neg (by omega)] at ha; cases ha
      · rename_i a ha
        cases hr
        split at ha
        · cases ha
        · cases ha
          exact ⟨rfl, _, rfl, .inl ⟨by omega, rfl⟩⟩
    | _ =>
      simp only [exec, signCmd, run_get, run_lift, SignCmd.data, he] at hr
      cases hr
      exact ⟨rfl, e, rfl, .inr ⟨fun _ h => h, hl⟩⟩
  | rotate c =>
    obtain ⟨e, he, hl⟩ := hf rfl
    simp only [exec, rotateCtx, run_get, run_failIf, run_lift, he] at hr
    split at hr
    · cases hr
      rename_i hs
      exact ⟨rfl, _, rfl, .inl ⟨by simpa [State.supports, Bit, rotateBit, Feature.rotate] using hs, rfl⟩⟩
    · rename_i hs
      cases hr
      refine ⟨rfl, e, rfl, .inr ⟨?_, hl⟩⟩
      rintro e' ⟨h1, _⟩
      exact hs (by simpa [State.supports, Bit, rotateBit, Feature.rotate] using h1)
  | destroy h =>
    obtain ⟨e, he, hl⟩ := hf rfl
    have hd : destroyContext s.st h loc = .error e := by
      simp only [destroyContext, destroySet, he]; rfl
    simp only [exec, destroyCtx, run_get, run_lift, hd] at hr
    cases hr
    exact ⟨rfl, e, rfl, .inr ⟨fun _ h => h, hl⟩⟩
  | update c =>
    obtain ⟨e, he, hl⟩ := hf rfl
    simp only [exec, updateCtx, run_get, run_failIf, run_lift, he, mapParentErr] at hr
    split at hr
    · cases hr
      exact ⟨rfl, _, rfl, .inl ⟨isDefault_iff.mp ‹_›, rfl⟩⟩
    · rename_i hs
      cases hr
      refine ⟨rfl, _, rfl, .inr ⟨?_, rfl⟩⟩
      rintro e' ⟨h1, _⟩
      exact hs (isDefault_iff.mpr h1)

/-- Non-vacuity for C08: a derive that succeeds, the same derive from another locality
(refused: no context there) and with a stale handle (refused: handle unknown). -/
example : (exec Toy.env Toy.s3cmd 0 Toy.s2.sys).1.toOption = some 44 ∧
    (exec Toy.env Toy.s3cmd 7 Toy.s2.sys).1 = .error .invalidLocality ∧
    (exec Toy.env Toy.s3cmd 0 Toy.s3.sys).1 = .error .invalidHandle := by decide +kernel

/-- C30: if every context that stores the supplied handle is Retired or Inactive (or belongs
to another locality) the command fails and changes nothing. -/
theorem C30_only_active {env : Env cfg σ} {c : Cmd cfg} {loc : U32} {s s' : Sys cfg σ}
    {r : Except Err Nat} {h : Handle} (hh : c.usesHandle = some h)
    (hno : ∀ i, (s.st.at i).handle = h → (s.st.at i).locality = loc →
      (s.st.at i).state = .retired ∨ (s.st.at i).state = .inactive)
    (hr : exec env c loc s = (r, s')) : s' = s ∧ ∃ e, r = .error e := by
  obtain ⟨h1, e, h2, _⟩ := C08_errors hh (fun i hn => by
    rcases hno i hn.2.1 hn.2.2 with h | h <;> rw [hn.1] at h <;> cases h) hr
  exact ⟨h1, e, h2⟩

/-- Non-vacuity for C30: slot 1 of `Toy.s4` is Retired and stores the all-ones handle, which
therefore names nothing. -/
example : (Toy.s4.st.at 1).handle = Handle.invalid ∧
    (exec Toy.env (.destroy Handle.invalid) 0 Toy.s4.sys).1 = .error .invalidHandle := by
  decide +kernel

end Dpe
