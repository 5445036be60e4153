import Verif.Spec.Service
import Verif.Proofs.Reach
import Verif.Proofs.ValidateForest
/-
The states of an instance in service satisfy the invariant.
-/
namespace Dpe
variable {cfg : Cfg} {σ : Type}

theorem active_under {st : State cfg} (hl : Links st)
    (hret : ∀ i, (st.at i).state = .retired → ∃ j, Lists st i j) (n : Nat) :
    ∀ (i : Nat) (l : List Nat), Path st i l → cfg.maxHandles < l.length + n →
    (st.at i).state = .retired → ∃ j, Desc st i j ∧ (st.at j).state = .active := by
  induction n with
  | zero => intro i l hp hn; have := hp.length_le; omega
  | succ n ih =>
    intro i l hp hn hr
    obtain ⟨j, hj⟩ := hret i hr
    cases hs : (st.at j).state with
    | inactive => exact absurd hs (hl.down i j hj).1
    | active => exact ⟨j, .child hj, hs⟩
    | retired =>
      obtain ⟨k, hk, hk2⟩ := ih j (j :: l) (hp.cons_of_lists hl hj) (by simp; omega) hs
      exact ⟨k, Desc.head hj hk, hk2⟩

/-- What the validator accepts satisfies the invariant. -/
theorem Lawful.wf {st : State cfg} (h : Lawful st) : WF st := by
  have hl := h.forest.links
  refine ⟨fun i hi => ?_, hl.up, hl.down, hl.path, h.retired, fun i j hj => (h.types i j hj).symm,
    h.normal, fun i hi hn => ?_, fun i => (h.supported i).1, fun i => (h.supported i).2.2.1,
    fun i => (h.supported i).2.1, fun i => (h.supported i).2.2.2, fun i => (h.locality i).symm⟩
  · obtain ⟨h1, h2, h3, h4, h5, h6⟩ := h.blank i (fun hlive => hlive hi)
    refine ⟨h1, ?_, h3, h6, h4, h5, ?_⟩
    · apply BitVec.eq_of_getLsbD_eq
      intro j _
      cases hb : (st.at i).children.getLsbD j
      · simp
      · exact absurd hb (h2 j)
    · rw [h.locality i, h3]; rfl
  · cases hs : (st.at i).state with
    | inactive => exact absurd hs hi
    | active => exact h.initialised i hs hn
    | retired =>
      obtain ⟨l, hp⟩ := hl.path i hi
      obtain ⟨j, hd, ha⟩ := active_under hl h.retired (cfg.maxHandles + 1) i l hp (by omega) hs
      refine h.initialised j ha ?_
      clear ha hs hp
      induction hd with
      | child hj => rw [← h.types _ _ hj]; exact hn
      | step _ hj ih => rw [← h.types _ _ hj]; exact ih

theorem WF.create {ops : Ops σ} {s s' : Sys cfg σ} {r : Except Err Unit} (wf : WF s.st)
    (h : dpeNew ops s = (r, s')) : WF s'.st := by
  rcases dpeNew_steps h with h | ⟨loc, idx, h3, h4, h5⟩
  · rw [h]; exact wf
  · rw [h5]; exact wf.step (init_default_step h3 h4)

theorem WF.exec {env : Env cfg σ} {c : Cmd cfg} {loc : U32} {s s' : Sys cfg σ}
    {r : Except Err Nat} (wf : WF s.st) (h : exec env c loc s = (r, s')) : WF s'.st :=
  wf.steps (exec_steps wf.no_self h)

theorem InService.wf {st : State cfg} (h : InService st) : WF st := by
  induction h with
  | reached h => exact h.wf
  | restored fuel hf h _ =>
    have := validateDpe_res hf (st := _) |> fun r => h ▸ r
    exact Lawful.wf this
  | create ops st w out _ ih => exact ih.create (s := ⟨st, w, out⟩) rfl
  | step env c loc st w out _ ih => exact ih.exec (s := ⟨st, w, out⟩) rfl

end Dpe
