import Verif.Proofs.Verdict
import Verif.Props.Structure
import Verif.Props.Effects
import Batteries.Data.List.Perm
/-
C53: the exact conditions under which every command is refused, and that an allowed command
can only fail through the environment.  C16, C18, C27, C28, C29, C49 and C50 follow.
-/
namespace Dpe
section
variable {cfg : Cfg} {σ : Type} {env : Env cfg σ} {c : Cmd cfg} {loc : U32} {s s' : Sys cfg σ}
  {r : Except Err Nat} {e : Err}

theorem exec_verdict (wf : WF s.st) (h : exec env c loc s = (r, s')) :
    Verdict env c loc s r s' := by
  cases c with
  | getProfile => exact verdict_getProfile h
  | init f => exact verdict_init h
  | derive k => exact verdict_derive wf h
  | certify k => exact verdict_certify h
  | sign k => exact verdict_sign wf h
  | rotate k => exact verdict_rotate h
  | destroy hd => exact verdict_destroy wf h
  | chain k => exact verdict_chain h
  | update k => exact verdict_update h

theorem FirstRefusal.unique {L : List Rule} : ∀ {e e' : Err}, FirstRefusal L e →
    FirstRefusal L e' → e = e' := by
  induction L with
  | nil => intro e e' h; exact h.elim
  | cons x L ih =>
    rintro e e' (⟨h1, h2⟩ | ⟨h1, h2⟩) (⟨h3, h4⟩ | ⟨h3, h4⟩)
    · rw [h2, h4]
    · exact absurd h1 h3
    · exact absurd h3 h1
    · exact ih h2 h4

theorem FirstRefusal.not_none {L : List Rule} : ∀ {e : Err}, FirstRefusal L e → ¬ NoRefusal L := by
  induction L with
  | nil => intro e h; exact h.elim
  | cons x L ih =>
    rintro e (⟨h1, _⟩ | ⟨_, h2⟩) hn
    · exact hn x List.mem_cons_self h1
    · exact ih h2 fun y hy => hn y (List.mem_cons_of_mem _ hy)

/-- The rules always decide: some first rule applies or none does. -/
theorem refusal_or_not (L : List Rule) : (∃ e, FirstRefusal L e) ∨ NoRefusal L := by
  induction L with
  | nil => exact .inr fun _ h => (List.not_mem_nil h).elim
  | cons x L ih =>
    by_cases hx : x.1
    · exact .inl ⟨x.2, .inl ⟨hx, rfl⟩⟩
    · rcases ih with ⟨e, h⟩ | h
      · exact .inl ⟨e, .inr ⟨hx, h⟩⟩
      · refine .inr fun y hy => ?_
        rcases List.mem_cons.mp hy with rfl | hy
        · exact hx
        · exact h y hy

theorem NoRefusal.append {A B : List Rule} :
    NoRefusal (A ++ B) ↔ NoRefusal A ∧ NoRefusal B := by
  unfold NoRefusal
  simp only [List.mem_append]
  exact ⟨fun h => ⟨fun x hx => h x (.inl hx), fun x hx => h x (.inr hx)⟩,
    fun ⟨h1, h2⟩ x hx => hx.elim (h1 x) (h2 x)⟩

/-- C53: a command to which one of its refusal rules applies reports exactly the error of the
first one, and touches neither the DPE state, nor the buffer, nor the environment. -/
theorem C53_refused (hst : InService s.st) (h : exec env c loc s = (r, s'))
    (hf : FirstRefusal (earlyRules s.st loc c) e) : r = .error e ∧ s' = s := by
  rcases exec_verdict hst.wf h with ⟨e', h1, h2⟩ | ⟨h1, _⟩
  · rw [hf.unique h1]; exact h2
  · exact absurd h1 hf.not_none

/-- C53: the two rules of DeriveContext that are checked after the retained parent's new handle
has been drawn.  The state and the buffer stay as they were; the error is that of the rule,
unless the draw itself already failed. -/
theorem C53_refused_late (hst : InService s.st) (hn : NoRefusal (earlyRules s.st loc c))
    (hf : FirstRefusal (lateRules s.st loc c) e) (h : exec env c loc s = (r, s')) :
    s'.st = s.st ∧ s'.out = s.out ∧ (r = .error e ∨
      ∃ k e', c = .derive k ∧ Bit k.flags DFlag.retainParent ∧ k.handle ≠ Handle.default ∧
        r = .error e' ∧ DrawFault env.toOps s.st e') := by
  rcases exec_verdict hst.wf h with ⟨e', h1, _⟩ | ⟨_, ⟨e', h1, h2⟩ | ⟨h1, _⟩⟩
  · exact absurd hn h1.not_none
  · rw [hf.unique h1]; exact h2
  · exact absurd h1 hf.not_none

/-- C53: a command to which no refusal rule applies succeeds, unless the environment or the
buffer makes it fail. -/
theorem C53_allowed (hst : InService s.st) (hn : NoRefusal (rules s.st loc c))
    (h : exec env c loc s = (r, s')) :
    (∃ n, r = .ok n) ∨ ∃ e, r = .error e ∧ EnvFault env s c e := by
  obtain ⟨hn1, hn2⟩ := NoRefusal.append.mp hn
  rcases exec_verdict hst.wf h with ⟨e', h1, _⟩ | ⟨_, ⟨e', h1, h2⟩ | ⟨h1, h2⟩⟩
  · exact absurd hn1 h1.not_none
  · exact absurd hn2 h1.not_none
  · exact h2

/-- C53: a command that succeeds violates none of the rules. -/
theorem C53_success {n : Nat} (hst : InService s.st) (h : exec env c loc s = (.ok n, s')) :
    NoRefusal (rules s.st loc c) := by
  rcases exec_verdict hst.wf h with ⟨e', _, h1, _⟩ | ⟨h0, ⟨e', _, h2⟩ | ⟨h1, h2⟩⟩
  · cases h1
  · rcases h2 with ⟨_, _, h2 | ⟨_, _, _, _, _, h2, _⟩⟩ <;> cases h2
  · exact NoRefusal.append.mpr ⟨h0, h1⟩

theorem WellBehaved.no_fault (hw : WellBehaved env s c) : ¬ EnvFault env s c e := by
  rintro (h | h | ⟨_, h⟩ | ⟨_, h, h'⟩ | ⟨_, h, h'⟩ | ⟨_, h⟩ | ⟨_, _, h, h'⟩ | ⟨hm, _, h⟩ | h | ⟨hc, h⟩)
  · exact hw.crypto _ h
  · exact hw.platform _ h
  · exact hw.rng h
  · exact h' (hw.digest _ _ _ h)
  · have := hw.chunk _ _ _ _ _ h; omega
  · exact hw.finite _ h
  · have := hw.ueid _ _ _ _ h; omega
  · obtain ⟨_, _, _, h1, _⟩ := hw.cert (Cmd.issues_makes hm) _ _ _ _
    rw [h] at h1; cases h1
  · rcases h with h | ⟨hm, kind, args, w, base, h⟩
    · have := hw.buffer; omega
    · obtain ⟨_, _, _, h1, h2, _⟩ := hw.cert hm kind args w (s.out.drop base)
      rw [h1] at h
      simp only at h
      omega
  · obtain ⟨kind, args, w, win, res, w', win', h1, h2⟩ := h
    subst hc
    obtain ⟨_, _, _, h3, _, h4⟩ := hw.cert trivial kind args w win
    rw [h1] at h3
    cases h3
    exact h2 (h4 _ rfl)

/-- C53 (summary): with a well-behaved environment and a sufficient buffer a command succeeds
exactly when no refusal rule applies. -/
theorem C53_exact (hst : InService s.st) (hw : WellBehaved env s c)
    (h : exec env c loc s = (r, s')) : (∃ n, r = .ok n) ↔ NoRefusal (rules s.st loc c) := by
  constructor
  · rintro ⟨n, rfl⟩; exact C53_success hst h
  · intro hn
    rcases C53_allowed hst hn h with h1 | ⟨e, _, h1⟩
    · exact h1
    · exact absurd h1 hw.no_fault


/-! ### C16: unsupported features -/

/-- C16: a DeriveContext asking for a feature the instance lacks is refused. -/
theorem C16_derive {k : DeriveCmd cfg} (hst : InService s.st) (hu : AsksUnsupported s.st k.flags)
    (h : exec env (.derive k) loc s = (r, s')) : r = .error .argumentNotSupported ∧ s' = s :=
  C53_refused hst h (Or.inl ⟨hu, rfl⟩)

/-- C16: a simulation context is refused where simulation is not supported. -/
theorem C16_init {f : U32} (hst : InService s.st) (hf : Bit f IFlag.simulation)
    (hu : ¬ s.st.supports Feature.simulation)
    (h : exec env (.init f) loc s = (r, s')) : r = .error .argumentNotSupported ∧ s' = s := by
  by_cases hd : Bit f IFlag.default ∧ s.st.hasInitialized = true
  · exact C53_refused hst h (Or.inl ⟨hd, rfl⟩)
  · exact C53_refused hst h (Or.inr ⟨hd, .inl ⟨⟨hf, hu⟩, rfl⟩⟩)

/-- C16: RotateContextHandle is refused where rotation is not supported. -/
theorem C16_rotate {k : RotateCmd} (hst : InService s.st) (hu : ¬ s.st.supports Feature.rotate)
    (h : exec env (.rotate k) loc s = (r, s')) : r = .error .invalidCommand ∧ s' = s :=
  C53_refused hst h (Or.inl ⟨hu, rfl⟩)

/-- C16: CertifyKey is refused for a format the instance does not support (once the handle
has been found). -/
theorem C16_certify {k : CertifyCmd} (hst : InService s.st)
    (hl : ∃ i, Names s.st k.handle loc i)
    (hu : (k.format = 0 ∧ ¬ s.st.supports Feature.x509) ∨
      (k.format = 1 ∧ ¬ s.st.supports Feature.csr))
    (h : exec env (.certify k) loc s = (r, s')) : r = .error .argumentNotSupported ∧ s' = s := by
  have h1 : ¬ ¬ LocalityInUse s.st loc := by
    obtain ⟨i, hn⟩ := hl
    exact fun hc => hc ⟨i, hn.1, hn.2.2⟩
  rcases hu with hu | hu
  · exact C53_refused hst h (Or.inr ⟨h1, .inr ⟨not_not_intro hl, .inl ⟨hu, rfl⟩⟩⟩)
  · have h0 : k.format ≠ 0 := by rw [hu.1]; decide
    exact C53_refused hst h (Or.inr ⟨h1, .inr ⟨not_not_intro hl, .inr ⟨fun hc => h0 hc.1,
      .inr ⟨fun hc => h0 hc.1, .inl ⟨hu, rfl⟩⟩⟩⟩⟩)

/-! ### C18: running out of slots -/

/-- C18: InitializeContext reports MaxTcis exactly when the other checks pass and every slot is
in use. -/
theorem C18_init_full {f : U32} (hst : InService s.st) (h : exec env (.init f) loc s = (r, s')) :
    r = .error .maxTcis ↔
      (¬ (Bit f IFlag.default ∧ s.st.hasInitialized = true) ∧
       ¬ (Bit f IFlag.simulation ∧ ¬ s.st.supports Feature.simulation) ∧
       ¬ (Bit f IFlag.default ↔ Bit f IFlag.simulation)) ∧
      ∀ i, i < cfg.maxHandles → Live s.st i := by
  constructor
  · rintro rfl
    rcases exec_verdict hst.wf h with ⟨e', h1, h2, _⟩ | ⟨_, ⟨e', h1, _⟩ | ⟨_, h2⟩⟩
    · cases h2
      rcases h1 with ⟨_, h1⟩ | ⟨a, ⟨_, h1⟩ | ⟨b, ⟨_, h1⟩ | ⟨c, ⟨d, _⟩ | ⟨_, h1⟩⟩⟩⟩
      · cases h1
      · cases h1
      · cases h1
      · exact ⟨⟨a, b, c⟩, d⟩
      · exact h1.elim
    · exact h1.elim
    · rcases h2 with ⟨_, h2⟩ | ⟨e, h2, h3⟩
      · cases h2
      · cases h2
        cases h3 with
        | cert hm => exact hm.elim
  · rintro ⟨⟨a, b, c⟩, d⟩
    exact (C53_refused hst h (Or.inr ⟨a, .inr ⟨b, .inr ⟨c, .inl ⟨d, rfl⟩⟩⟩⟩)).1

/-- C18: a child-creating DeriveContext reports MaxTcis exactly when every earlier check passes
and every slot is in use, provided the new handle of a retained parent can be drawn. -/
theorem C18_derive_full {k : DeriveCmd cfg} (hst : InService s.st)
    (hx : ¬ Bit k.flags DFlag.exportCdi) (hr : ¬ Bit k.flags DFlag.recursive)
    (hd : ∀ e, ¬ DrawFault env.toOps s.st e)
    (h : exec env (.derive k) loc s = (r, s')) :
    r = .error .maxTcis ↔ NoRefusal (earlyRules s.st loc (.derive k)) ∧
      ∀ i, i < cfg.maxHandles → Live s.st i := by
  constructor
  · rintro rfl
    rcases exec_verdict hst.wf h with ⟨e', h1, h2, _⟩ | ⟨hn, ⟨e', h1, h2⟩ | ⟨_, h2⟩⟩
    · cases h2
      exfalso
      rcases h1 with ⟨_, h1⟩ | ⟨_, ⟨_, h1⟩ | ⟨_, ⟨_, h1⟩ | ⟨_, ⟨_, h1⟩ | ⟨_, ⟨_, h1⟩ |
        ⟨_, ⟨_, h1⟩ | ⟨_, ⟨_, h1⟩ | ⟨_, h1⟩⟩⟩⟩⟩⟩⟩ <;> first | exact h1.elim | cases h1
    · refine ⟨hn, ?_⟩
      rcases h2 with ⟨_, _, h2 | ⟨_, _, _, _, _, _, h2⟩⟩
      · cases h2
        rcases h1 with ⟨h1, _⟩ | ⟨_, ⟨_, h1⟩ | ⟨_, h1⟩⟩
        · exact h1.2.2
        · cases h1
        · exact h1.elim
      · exact absurd h2 (hd _)
    · rcases h2 with ⟨_, h2⟩ | ⟨e, h2, h3⟩
      · cases h2
      · cases h2
        cases h3 with
        | cert hm => exact absurd hm.1 hx
  · rintro ⟨hn, hf⟩
    rcases C53_refused_late hst hn (e := .maxTcis) (Or.inl ⟨⟨hr, hx, hf⟩, rfl⟩) h with ⟨_, _, h1 | ⟨_, _, _, _, _, _, h1⟩⟩
    · exact h1
    · exact absurd h1 (hd _)

/-! ### C27, C28, C29: authorisation -/

theorem not_named {st : State cfg} {h : Handle} {i : Nat} {P : Nat → Prop} (hi : Resolves st h loc i)
    (hn : ¬ Named st h loc P) : ¬ P i := fun hp => hn ⟨i, hi, hp⟩

theorem NoRefusal.cons {x : Rule} {L : List Rule} : NoRefusal (x :: L) ↔ ¬ x.1 ∧ NoRefusal L := by
  unfold NoRefusal
  simp only [List.mem_cons, forall_eq_or_imp]

/-- C27: Sign succeeds only on a Normal context, all of whose ancestors are Normal. -/
theorem C27_sign {k : SignCmd} {n i j : Nat} (hst : InService s.st)
    (hi : Resolves s.st k.handle loc i) (hj : j = i ∨ Anc s.st i j)
    (h : exec env (.sign k) loc s = (.ok n, s')) : (s.st.at j).ctype = .normal := by
  have hn := (NoRefusal.append.mp (C53_success hst h)).1
  simp only [earlyRules, lookupRules, List.cons_append, List.nil_append, NoRefusal.cons] at hn
  have h2 : (s.st.at i).ctype = .normal := by
    cases hc : (s.st.at i).ctype
    · rfl
    · exact absurd hc (not_named hi hn.2.2.2.1)
  rcases hj with rfl | hj
  · exact h2
  · rw [← C06_tree_type hst hj]; exact h2

/-- C27: a Sign naming a Simulation context, or a descendant of one, is refused. -/
theorem C27_sign_refused {k : SignCmd} {i j : Nat} (hst : InService s.st)
    (hi : Resolves s.st k.handle loc i) (hj : j = i ∨ Anc s.st i j)
    (hs : (s.st.at j).ctype = .simulation)
    (h : exec env (.sign k) loc s = (r, s')) : r = .error .invalidArgument ∧ s' = s := by
  have h2 : (s.st.at i).ctype = .simulation := by
    rcases hj with rfl | hj
    · exact hs
    · rw [C06_tree_type hst hj]; exact hs
  have h0 : ¬ ¬ LocalityInUse s.st loc := fun hc => hc ⟨i, hi.1.1, hi.1.2.2⟩
  by_cases ht : k.TooLong
  · exact C53_refused hst h (Or.inl ⟨ht, rfl⟩)
  · exact C53_refused hst h (Or.inr ⟨ht, .inr ⟨h0, .inr ⟨not_not_intro ⟨i, hi.1⟩,
      .inl ⟨⟨i, hi, h2⟩, rfl⟩⟩⟩⟩)

/-- C27, C28: a successful EXPORT_CDI derivation was supported, asked for a certificate, was
neither RECURSIVE nor CHANGE_LOCALITY, and the context and all its ancestors are Normal and
allow export.  The reply carries the invalid marker instead of a child handle, and no context
comes into being. -/
theorem C28_export {k : DeriveCmd cfg} {n i : Nat} (hst : Reachable s.st)
    (hi : Resolves s.st k.handle loc i) (hx : Bit k.flags DFlag.exportCdi)
    (h : exec env (.derive k) loc s = (.ok n, s')) :
    s.st.supports Feature.cdiExport ∧ Bit k.flags DFlag.createCert ∧
    ¬ Bit k.flags DFlag.recursive ∧ ¬ Bit k.flags DFlag.changeLocality ∧
    (∀ j, j = i ∨ Anc s.st i j →
      (s.st.at j).ctype = .normal ∧ (s.st.at j).allowExport = true) ∧
    replyHandle s'.out 0 = Handle.invalid.toList ∧
    ∀ j, Live s'.st j → Live s.st j := by
  have hn := (NoRefusal.append.mp (C53_success hst h)).1
  simp only [earlyRules, lookupRules, List.cons_append, List.nil_append, NoRefusal.cons] at hn
  have hb := not_named hi hn.2.2.2.1
  have hb2 := fun hq => hb (.inr (.inl ⟨hx, hq⟩))
  have hcc : Bit k.flags DFlag.createCert := by
    by_contra hc; exact hb2 (.inl hc)
  have hct : (s.st.at i).ctype = .normal := by
    cases hc : (s.st.at i).ctype
    · rfl
    · exact absurd (.inr (.inr (.inr (.inl hc)))) hb2
  have hae : (s.st.at i).allowExport = true := by
    cases hc : (s.st.at i).allowExport
    · exact absurd (.inr (.inr (.inr (.inr hc)))) hb2
    · rfl
  refine ⟨?_, hcc, fun hc => hb2 (.inr (.inl hc)), fun hc => hb2 (.inr (.inr (.inl hc))), ?_, ?_⟩
  · by_contra hc
    exact hn.1 ⟨(DFlag.exportCdi, Feature.cdiExport), by simp [deriveNeeds], hx, hc⟩
  · rintro j (rfl | hj)
    · exact ⟨hct, hae⟩
    · exact ⟨by rw [← C06_tree_type hst hj]; exact hct, (C15_privileges hst hj).2.1 hae⟩
  · obtain ⟨hs, ⟨idx, a, b, rfl, hr, he⟩, rest, ho⟩ :=
      C52_success_effect (D := fun _ _ => True) hst (fun _ _ _ _ _ => trivial) h
    have : idx = i := hr.unique hi
    subst this
    cases he with
    | recursive h1 => exact absurd h1 fun hc => hb2 (.inr (.inl hc))
    | child _ h1 => exact absurd hx h1
    | exported _ _ _ _ hp hs =>
      constructor
      · rw [ho]; simp [replyHandle]
      · intro j hj
        unfold Live at *
        by_cases hji : j = idx
        · subst hji; rw [hr.1.1]; simp
        · rwa [← hs.2.1 j hji]
    | exportedLast _ _ _ _ _ hd =>
      constructor
      · rw [ho]; simp [replyHandle]
      · intro j hj
        unfold Live at *
        by_cases hji : DestroyedWith s.st idx j
        · rw [hd.1 j hji] at hj; exact absurd rfl hj
        · obtain ⟨ch, hc⟩ := (hd.2.1 j hji).1
          rw [hc] at hj; exact hj

/-- C29: an X.509 certificate is issued only if supported and permitted for the context and all
of its ancestors. -/
theorem C29_x509 {k : CertifyCmd} {n i : Nat} (hst : Reachable s.st)
    (hi : Resolves s.st k.handle loc i) (hf : k.format = 0)
    (h : exec env (.certify k) loc s = (.ok n, s')) :
    s.st.supports Feature.x509 ∧ ∀ j, j = i ∨ Anc s.st i j → (s.st.at j).allowX509 = true := by
  have hn := (NoRefusal.append.mp (C53_success hst h)).1
  simp only [earlyRules, lookupRules, List.cons_append, List.nil_append, NoRefusal.cons] at hn
  obtain ⟨_, _, h1, h2, _⟩ := hn
  have h3 : (s.st.at i).allowX509 = true := by
    cases hc : (s.st.at i).allowX509
    · exact absurd ⟨hf, i, hi, hc⟩ h2
    · rfl
  refine ⟨by by_contra hc; exact h1 ⟨hf, hc⟩, ?_⟩
  rintro j (rfl | hj)
  · exact h3
  · exact (C15_privileges hst hj).1 h3

/-! ### C49: internal errors -/

theorem FirstRefusal.mem {L : List Rule} : ∀ {e : Err}, FirstRefusal L e → ∃ p, (p, e) ∈ L := by
  induction L with
  | nil => intro e h; exact h.elim
  | cons x L ih =>
    rintro e (⟨_, rfl⟩ | ⟨_, h⟩)
    · exact ⟨x.1, List.mem_cons_self⟩
    · obtain ⟨p, hp⟩ := ih h
      exact ⟨p, List.mem_cons_of_mem _ hp⟩

/-- The errors refusal rules are reported as. -/
def Err.isRefusal : Err → Prop
  | .invalidArgument | .argumentNotSupported | .invalidCommand | .invalidHandle
  | .invalidLocality | .invalidParentLocality | .maxTcis => True
  | _ => False

theorem refusal_kind {st : State cfg} (h : FirstRefusal (earlyRules st loc c) e ∨
    FirstRefusal (lateRules st loc c) e) : e.isRefusal := by
  have : ∃ p, (p, e) ∈ rules st loc c := by
    unfold rules
    rcases h with h | h
    · obtain ⟨p, hp⟩ := h.mem; exact ⟨p, List.mem_append_left _ hp⟩
    · obtain ⟨p, hp⟩ := h.mem; exact ⟨p, List.mem_append_right _ hp⟩
  obtain ⟨p, hp⟩ := this
  have : ∀ x ∈ rules st loc c, x.2.isRefusal := by
    cases c <;> simp [rules, earlyRules, lateRules, lookupRules, Err.isRefusal]
  exact this _ hp

/-- C49: an error that is not a refusal comes from the environment or the buffer. -/
theorem error_cause (hst : InService s.st) (h : exec env c loc s = (.error e, s')) :
    e.isRefusal ∨ (c.draws ∧ DrawFault env.toOps s.st e) ∨ EnvFault env s c e := by
  rcases exec_verdict hst.wf h with ⟨e', h1, h2, _⟩ | ⟨_, ⟨e', h1, h2⟩ | ⟨_, ⟨_, h2⟩ | ⟨e', h2, h3⟩⟩⟩
  · cases h2; exact .inl (refusal_kind (.inl h1))
  · rcases h2 with ⟨_, _, h2 | ⟨_, _, rfl, _, _, h2, h3⟩⟩
    · cases h2; exact .inl (refusal_kind (.inr h1))
    · cases h2; exact .inr (.inl ⟨trivial, h3⟩)
  · cases h2
  · cases h2; exact .inr (.inr h3)

/-- C49: from a reachable state the only internal errors are: eight useless random handles, a
digest of the wrong size, a certificate chain chunk longer than its buffer, and those of the
certificate generator; each only if the environment really misbehaves in that way. -/
theorem C49_internal {ie : Internal} (hst : InService s.st)
    (h : exec env c loc s = (.error (.internal ie), s')) :
    (ie = .handleGenerationExhausted ∧ c.draws ∧ RngStuck env.toOps s.st) ∨
    (ie = .digestLengthMismatch ∧ c.measures ∧
      ∃ w d w', env.hashFinish w = (.ok d, w') ∧ d.length ≠ cfg.tciSize) ∨
    (ie = .certChainChunkSliceOob ∧ c.signs ∧
      ∃ off len ch w w', env.certChain off 2048 w = (.ok (len, ch), w') ∧ 2048 < len.toNat) ∨
    (c.makesCert ∧ ∃ kind args w w' win win',
      env.certGen kind args s.st w win = ((.error (.internal ie), w'), win')) := by
  rcases error_cause hst h with h1 | ⟨h0, ⟨h1, h2⟩ | ⟨_, _, h1, _⟩⟩ | h1
  · exact h1.elim
  · cases h1; exact .inl ⟨rfl, h0, h2⟩
  · cases h1
  · cases h1 with
    | stuck h1 h2 => exact .inl ⟨rfl, h1, h2⟩
    | digest h1 h2 h3 => exact .inr (.inl ⟨rfl, h1, _, _, _, h2, h3⟩)
    | chunk h1 h2 h3 => exact .inr (.inr (.inl ⟨rfl, h1, _, _, _, _, _, h2, h3⟩))
    | cert hm _ h2 => exact .inr (.inr (.inr ⟨(Cmd.issues_makes hm), _, _, _, _, _, _, h2⟩))

/-- C49: no command panics or runs forever, except a Sign whose platform keeps serving
certificate chain chunks (the loop reading the chain has no other end), and unless the
certificate generator does. -/
theorem C49_no_panic (hst : InService s.st) (h : exec env c loc s = (.error .panic, s')) :
    (c.signs ∧ ∃ w, ChainGoes env.toOps cfg.diceFuel 0 w) ∨
    (c.makesCert ∧ ∃ kind args w w' win win',
      env.certGen kind args s.st w win = ((.error .panic, w'), win')) := by
  rcases error_cause hst h with h1 | ⟨h0, ⟨h1, h2⟩ | ⟨_, _, h1, _⟩⟩ | h1
  · exact h1.elim
  · cases h1
  · cases h1
  · cases h1 with
    | endless h1 h2 => exact .inl ⟨h1, _, h2⟩
    | cert hm _ h2 => exact .inr ⟨(Cmd.issues_makes hm), _, _, _, _, _, _, h2⟩

/-! ### C50: when DeriveContext succeeds -/

/-- C50: with a well-behaved environment and an adequate buffer a DeriveContext succeeds exactly
when the features are supported, the handle resolves, no forbidden flag combination or missing
permission applies, the type fits, and a child finds a slot and respects the default rule of
its locality. -/
theorem C50_derive {k : DeriveCmd cfg} (hst : InService s.st) (hw : WellBehaved env s (.derive k))
    (h : exec env (.derive k) loc s = (r, s')) :
    (∃ n, r = .ok n) ↔
      ¬ AsksUnsupported s.st k.flags ∧
      ∃ i, Resolves s.st k.handle loc i ∧ ¬ BadDerive (s.st.at i) k.flags ∧
        if Bit k.flags DFlag.recursive then
          (s.st.at i).tci.tciType = k.tciType ∧ targetOf k loc = loc
        else
          (∀ j, Lists s.st i j → (s.st.at j).tci.tciType ≠ k.tciType) ∧
          (¬ Bit k.flags DFlag.exportCdi →
            (∃ j, j < cfg.maxHandles ∧ ¬ Live s.st j) ∧ ¬ DefaultClash s.st k i (targetOf k loc)) := by
  rw [C53_exact hst hw h]
  simp only [rules, earlyRules, lateRules, lookupRules, List.cons_append, List.nil_append,
    NoRefusal.cons, not_not]
  constructor
  · rintro ⟨h1, h2, h3, h4, h5, h6, h7, h8, h9, _⟩
    obtain ⟨i0, hi0⟩ := h3
    obtain ⟨i, hi⟩ := exists_resolves hi0
    refine ⟨h1, i, hi, not_named hi h4, ?_⟩
    by_cases hr : Bit k.flags DFlag.recursive
    · rw [if_pos hr]
      constructor
      · by_contra hc; exact h5 ⟨hr, i, hi, hc⟩
      · by_contra hc; exact h6 ⟨hr, hc⟩
    · rw [if_neg hr]
      refine ⟨fun j hj hc => h7 ⟨hr, i, hi, j, hj, hc⟩, fun hx => ⟨?_, fun hc => h9 ⟨hr, hx, i, hi, hc⟩⟩⟩
      by_contra hc
      exact h8 ⟨hr, hx, fun j hj => by_contra fun hl => hc ⟨j, hj, hl⟩⟩
  · rintro ⟨h1, i, hi, h4, h5⟩
    have hq : ∀ {P : Nat → Prop}, ¬ P i → ¬ Named s.st k.handle loc P := by
      rintro P hp ⟨i', hi', hp'⟩
      rw [hi'.unique hi] at hp'; exact hp hp'
    refine ⟨h1, ⟨i, hi.1.1, hi.1.2.2⟩, ⟨i, hi.1⟩, hq h4, ?_⟩
    by_cases hr : Bit k.flags DFlag.recursive
    · rw [if_pos hr] at h5
      exact ⟨fun hc => hq (not_not_intro h5.1) hc.2, fun hc => hc.2 h5.2, fun hc => hc.1 hr,
        fun hc => hc.1 hr, fun hc => hc.1 hr, fun _ hx => absurd hx List.not_mem_nil⟩
    · rw [if_neg hr] at h5
      refine ⟨fun hc => hr hc.1, fun hc => hr hc.1, fun hc => hq (fun ⟨j, hj, hc⟩ => h5.1 j hj hc) hc.2,
        ?_, ?_, fun _ hx => absurd hx List.not_mem_nil⟩
      · rintro ⟨_, hx, hf⟩
        obtain ⟨j, hj, hl⟩ := (h5.2 hx).1
        exact hl (hf j hj)
      · rintro ⟨_, hx, hc⟩
        exact hq (h5.2 hx).2 hc

end

/-! ### Non-vacuity -/

namespace Toy

theorem hd_inj {a b : Nat} (h : hd a = hd b) : a % 256 = b % 256 := by
  have := congrArg (fun v : Handle => v[0].toNat) h
  simpa [hd] using this

theorem draws {l : List Handle} : ∀ {w w' : Nat}, Draws ops w (l.map .ok) w' →
    l = (List.range l.length).map fun i => hd (w + 1 + i) := by
  induction l with
  | nil => intro w w' _; rfl
  | cons a l ih =>
    intro w w' h
    cases h with
    | cons h1 h2 =>
      cases h1
      have := ih h2
      rw [List.length_cons, List.range_succ_eq_map, List.map_cons, List.map_map]
      congr 1
      rw [this]
      simp only [List.length_map, List.length_range]
      apply List.map_congr_left
      intro i _
      simp only [Function.comp]
      congr 1
      omega

theorem not_stuck (st : State cfg) : ¬ RngStuck ops st := by
  rintro ⟨w, l, w', x, h1, h2, h3⟩
  have hl := draws h1
  rw [h2] at hl
  have hn : l.Nodup := by
    rw [hl]
    unfold List.Nodup
    rw [List.pairwise_map]
    refine List.Pairwise.imp_of_mem ?_ (List.nodup_range (n := 8))
    intro a b ha hb hab he
    have := hd_inj he
    rw [List.mem_range] at ha hb
    omega
  have hs : l ⊆ Handle.default :: x :: (List.range 4).map fun i => (st.at i).handle := by
    intro y hy
    rcases h3 y hy with rfl | ⟨i, hi, rfl⟩ | rfl
    · exact List.mem_cons_self
    · exact List.mem_cons_of_mem _ (List.mem_cons_of_mem _ (List.mem_map.mpr ⟨i, List.mem_range.mpr (show i < 4 from hi), rfl⟩))
    · exact List.mem_cons_of_mem _ List.mem_cons_self
  have := (List.subperm_of_subset hn hs).length_le
  simp [h2] at this

/-- The toy environment behaves well for every command other than GetCertificateChain. -/
theorem well (c : Cmd cfg) (hc : ∀ k, c ≠ .chain k) (hk : ∀ k, c = .certify k → k.variant = .p256)
    (s : Sys cfg Nat) (hb : c.replyMax ≤ s.out.length) : WellBehaved env s c where
  crypto := by
    rintro e ⟨w, ⟨_, h⟩ | ⟨_, h | h | ⟨_, h⟩ | h⟩ | ⟨_, ⟨_, _, h⟩ | ⟨_, _, _, h⟩ | ⟨_, _, h⟩⟩⟩ <;> cases h
  platform := by
    rintro e ⟨w, ⟨_, h | h⟩ | ⟨k, h, _⟩ | ⟨_, h⟩⟩
    · cases h
    · cases h
    · exact hc k h
    · cases h
  rng := not_stuck _
  digest := by intro w d w' h; cases h; rfl
  chunk := by
    intro off len ch w w' h
    have h : ops.certChain off 2048 w = (.ok (len, ch), w') := h
    simp only [ops] at h
    split at h
    · cases h; decide
    · cases h
  finite := by
    intro w h
    cases h with
    | succ h1 h2 h3 =>
      cases h1
      cases h3 with
      | succ h1 h2 h3 => cases h1
  ueid := by intro w b n w' h; cases h; decide
  cert := by
    intro _ kind args w win
    refine ⟨_, _, _, rfl, ?_, ?_⟩
    · simp; omega
    · intro k h; rw [hk k h]; rfl
  buffer := hb

end Toy

namespace Toy

theorem no_draw_fault (st : State cfg) (e : Err) : ¬ DrawFault env.toOps st e := by
  rintro (⟨_, h⟩ | ⟨_, _, _, h⟩)
  · exact not_stuck _ h
  · cases h

end Toy

/-- Non-vacuity for C53_refused: a second default initialisation. -/
example : FirstRefusal (earlyRules Toy.s4.st 0 (.init 0x40000000)) .argumentNotSupported :=
  Or.inl ⟨⟨by decide, by decide +kernel⟩, rfl⟩

/-- Non-vacuity for C53_allowed, C53_exact and C50: the derive of `Toy.s3` meets no rule, in a
well-behaved environment, and succeeds. -/
example : NoRefusal (rules Toy.s2.st 0 Toy.s3cmd) ∧ WellBehaved Toy.env Toy.s2.sys Toy.s3cmd ∧
    ∃ s', exec Toy.env Toy.s3cmd 0 Toy.s2.sys = (.ok 44, s') := by
  have h : ∃ s', exec Toy.env Toy.s3cmd 0 Toy.s2.sys = (.ok 44, s') :=
    ⟨_, Prod.ext (by decide +kernel) rfl⟩
  obtain ⟨s', hs⟩ := h
  refine ⟨C53_success Toy.s2.sys_reach hs, Toy.well _ (fun _ h => by cases h) (fun _ h => by cases h)
    _ (by decide +kernel), s', hs⟩

/-- Non-vacuity for C53_refused_late and C18_derive_full: with four live contexts a further
child is refused late. -/
example : ∃ (x : Toy.R) (k : DeriveCmd Toy.cfg), NoRefusal (earlyRules x.st 0 (.derive k)) ∧
    FirstRefusal (lateRules x.st 0 (.derive k)) .maxTcis := by
  refine ⟨Toy.s4.step (.init 0x80000000) 1, ⟨Toy.hd 4, Toy.data 0 0, 0, 9, 0, 0⟩, ?_⟩
  generalize hx : Toy.s4.step (.init 0x80000000) 1 = x
  generalize hk : (⟨Toy.hd 4, Toy.data 0 0, 0, 9, 0, 0⟩ : DeriveCmd Toy.cfg) = k
  generalize he : exec Toy.env (.derive k) 0 x.sys = y
  obtain ⟨r, s'⟩ := y
  have hr : r = .error .maxTcis := by
    rw [← show (exec _ _ _ _).1 = r from congrArg Prod.fst he, ← hx, ← hk]; decide +kernel
  have h := (C18_derive_full x.sys_reach (by rw [← hk]; decide) (by rw [← hk]; decide)
    (Toy.no_draw_fault _) he).mp hr
  exact ⟨h.1, Or.inl ⟨⟨by rw [← hk]; decide, by rw [← hk]; decide, h.2⟩, rfl⟩⟩

/-- Non-vacuity for C16: an instance without any feature refuses X.509 children, simulation
contexts, rotation, and certification through an existing handle. -/
example : let st : State Toy.cfg := (Toy.run (.init 0x40000000) 0 (State.new Toy.cfg 0 0, 0)).2.1
    Reachable st ∧ AsksUnsupported st Toy.fX509 ∧ ¬ st.supports Feature.simulation ∧
    ¬ st.supports Feature.rotate ∧ ¬ st.supports Feature.x509 ∧ Names st Handle.default 0 0 := by
  refine ⟨Toy.run_reach _ _ (.new _ _), ⟨(DFlag.allowX509, Feature.x509), by decide, by decide, ?_⟩,
    ?_, ?_, ?_, ?_⟩
  all_goals first
    | (unfold State.supports; decide +kernel)
    | (unfold Names; decide +kernel)

/-- Non-vacuity for C18_init_full: all four slots live. -/
example : (exec Toy.env (.init 0x80000000) 1 (Toy.s4.step (.init 0x80000000) 1).sys).1 =
    .error .maxTcis := by decide +kernel

/-- Non-vacuity for C27: Sign on a Normal grandchild succeeds, on a Simulation root it does
not. -/
example : (∃ n, (exec Toy.env (.sign (.p256 (Toy.hd 4) (Vector.replicate _ 0) 0 (Vector.replicate _ 0)))
      0 ⟨Toy.s4.st, Toy.s4.p.2, List.replicate 5000 0⟩).1 = .ok n) ∧
    (exec Toy.env (.sign (.p256 (Toy.hd 5) (Vector.replicate _ 0) 0 (Vector.replicate _ 0)))
      1 (Toy.s4.step (.init 0x80000000) 1).sys).1 = .error .invalidArgument :=
  ⟨⟨92, by decide +kernel⟩, by decide +kernel⟩

/-- Non-vacuity for C28: an export through the root of `Toy.s3`. -/
example : ∃ n, (exec Toy.env (.derive ⟨Toy.hd 2, Toy.data 0 0, Toy.fExport, 7, 0, 0⟩) 0
    Toy.s3.sys).1 = .ok n := ⟨83, by decide +kernel⟩

/-- Non-vacuity for C29: an X.509 certificate for the grandchild of `Toy.s4`. -/
example : ∃ n, (exec Toy.env (.certify (.p256 (Toy.hd 4) 0 0 (Vector.replicate _ 0))) 0
    Toy.s4.sys).1 = .ok n := ⟨99, by decide +kernel⟩

/-- Non-vacuity for C49_internal: a random source that always delivers the same handle ends in
the exhaustion error. -/
example : (exec { Toy.env with rand := fun n => (.ok (Toy.hd 2), n) }
    (.rotate ⟨Toy.hd 2, 0⟩) 0 Toy.s3.sys).1 = .error (.internal .handleGenerationExhausted) := by
  decide +kernel

/-- Non-vacuity for C49_no_panic: a platform whose certificate chain never ends. -/
example : (exec { Toy.env with certChain := fun _ _ n => (.ok (0, Vector.replicate 2048 0), n) }
    (.sign (.p256 (Toy.hd 3) (Vector.replicate _ 0) 0 (Vector.replicate _ 0))) 0
    (Toy.s2.step (.derive ⟨Toy.hd 1, Toy.data 1 2, Toy.fRetain ||| 0x40000000, 5, 0, 9⟩) 0).sys).1
      = .error .panic := by decide +kernel

end Dpe
