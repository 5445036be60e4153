import Verif.Proofs.Keep
import Verif.Props.SameKey
/-
C74: a handle stays good until it is used.  Whatever other callers do in between, and whatever
becomes of their commands, a context that no command is about keeps its contents, its handle leads to
it and to nothing else, and, if its ancestors are not measured into, its key stays the same.
-/
namespace Dpe
section
variable {cfg : Cfg} {σ : Type} {st st' : State cfg} {i : Nat} {loc : U32}

/-- C74: calls that are not about an Active context leave all of it in place, but for its list of
children. -/
theorem C74_kept (hst : InService st) (ha : (st.at i).state = .active) (h : LeavesAlone i st st') :
    ∃ ch, st'.at i = { st.at i with children := ch } := by
  induction h with
  | refl => exact ⟨(st.at i).children, rfl⟩
  | @cmd σ st1 env c loc w out h0 hm ih =>
    obtain ⟨ch, e⟩ := ih
    have hst1 := CallsWith.inService hst h0
    rcases hx : exec env c loc ⟨st1, w, out⟩ with ⟨r, s'⟩
    obtain ⟨ch', e'⟩ := exec_left (s := ⟨st1, w, out⟩) hst1 hx (by rw [e]; exact ha) hm
    exact ⟨ch', by rw [e']; simp only; rw [e]⟩
  | @create σ st1 ops w out h0 ih =>
    obtain ⟨ch, e⟩ := ih
    rcases hx : dpeNew ops ⟨st1, w, out⟩ with ⟨r, s'⟩
    refine ⟨ch, ?_⟩
    rcases dpeNew_effect hx with h1 | ⟨loc, k, hk, _, h2, _⟩
    · rw [h1]; exact e
    · rw [h2 i ?_]
      · exact e
      · rintro rfl
        have := hk.2.1
        simp only at this
        rw [e] at this
        rw [show _ = _ from ha] at this; cases this

theorem CallsWith.initialised {P : State cfg → U32 → Cmd cfg → Prop} (hst : InService st)
    (h : CallsWith P st st') (hi : st.hasInitialized = true) : st'.hasInitialized = true := by
  induction h with
  | refl => exact hi
  | @cmd σ st1 env c loc w out h0 _ ih =>
    rcases hx : exec env c loc ⟨st1, w, out⟩ with ⟨r, s'⟩
    rcases effect_cases_wf (s := ⟨st1, w, out⟩) (CallsWith.inService hst h0).wf (digests_true _) hx with
      h1 | ⟨hs, h1⟩ | ⟨u, _, h1⟩
    · rw [h1]; exact ih
    · rcases h1.config.2 with h2 | ⟨h2, _⟩
      · rw [h2]; exact ih
      · exact h2
    · obtain ⟨idx, k, hp, _, _, _, _, _, hset⟩ := h1
      rw [hset.2.2.2]; exact ih
  | @create σ st1 ops w out h0 ih =>
    rcases hx : dpeNew ops ⟨st1, w, out⟩ with ⟨r, s'⟩
    rcases dpeNew_effect hx with h1 | ⟨loc, k, hk, _, _, _, h2, _⟩
    · rw [h1]; exact ih
    · exact h2.2 (.inl ih)

/-- C74: if no other context has the name of an Active context, then none gets it during calls that
are not about that context.  (For a context with the default handle the instance must have gone
through its one default initialisation; see `C74_default_needed`.) -/
theorem C74_sole (hst : InService st) (ha : (st.at i).state = .active) (hso : Sole st i)
    (hin : (st.at i).handle = Handle.default → st.hasInitialized = true) (h : LeavesAlone i st st') :
    Sole st' i := by
  induction h with
  | refl => exact hso
  | @cmd σ st1 env c loc w out h0 hm ih =>
    obtain ⟨ch, e⟩ := C74_kept hst ha h0
    rcases hx : exec env c loc ⟨st1, w, out⟩ with ⟨r, s'⟩
    refine exec_sole (s := ⟨st1, w, out⟩) (CallsWith.inService hst h0) hx (by rw [e]; exact ha) hm
      (fun e' => CallsWith.initialised hst h0 (hin ?_)) ih
    rw [e] at e'; exact e'
  | @create σ st1 ops w out h0 ih =>
    obtain ⟨ch, e⟩ := C74_kept hst ha h0
    obtain ⟨ch', e1⟩ := C74_kept hst ha (.create ops w out h0)
    rcases hx : dpeNew ops ⟨st1, w, out⟩ with ⟨r, s'⟩
    rcases dpeNew_effect hx with h1 | ⟨loc, h1⟩
    · rw [h1]; exact ih
    · refine Sole.init (loc := loc) ih (by rw [e]; exact ha) ⟨ch', ?_⟩ (fun e' =>
        CallsWith.initialised hst h0 (hin ?_)) h1
      · rw [hx] at e1
        rw [e]
        exact e1
      · rw [e] at e'; exact e'

/-- C74: the handle of an Active context that no other context shares leads to that context, and to
no other, after any calls that are not about it. -/
theorem C74_resolves {h : Handle} (hst : InService st) (hr : Resolves st h loc i) (hso : Sole st i)
    (hin : h = Handle.default → st.hasInitialized = true) (hc : LeavesAlone i st st') :
    Resolves st' h loc i ∧ ∀ j, Names st' h loc j → j = i := by
  have hso' := C74_sole hst hr.1.1 hso (by rw [hr.1.2.1]; exact hin) hc
  obtain ⟨ch, e⟩ := C74_kept hst hr.1.1 hc
  have hn : Names st' h loc i := by
    unfold Names
    rw [e]
    exact hr.1
  have only : ∀ j, Names st' h loc j → j = i := by
    intro j hj
    refine hso' j hj.1 ⟨?_, fun _ => ?_⟩
    · rw [hj.2.1, hn.2.1]
    · rw [hj.2.2, hn.2.2]
  exact ⟨⟨hn, fun j hlt hj => absurd (only j hj) (Nat.ne_of_lt hlt)⟩, only⟩

theorem ancestry_kept {l : List Nat} (hst : InService st) (ha : (st.at i).state = .active)
    (hp : Path st i l) (hc : LeavesAncestry i st st') :
    Path st' i l ∧ st'.support = st.support ∧ ∀ j ∈ l, Kept (st.at j) (st'.at j) := by
  induction hc with
  | refl => exact ⟨hp, rfl, fun _ _ => .refl _⟩
  | @cmd σ st1 env c loc w out h0 hm ih =>
    obtain ⟨p1, p2, p3⟩ := ih
    have h0' : LeavesAlone i st st1 := h0.mono fun _ _ _ h => h.1
    obtain ⟨ch, e⟩ := C74_kept hst ha h0'
    obtain ⟨ch', e'⟩ := C74_kept hst ha (.cmd env c loc w out h0' hm.1)
    rcases hx : exec env c loc ⟨st1, w, out⟩ with ⟨r, s'⟩
    rw [hx] at e'
    have hl : Live s'.st i := by
      unfold Live
      rw [e', show _ = _ from ha]
      decide
    obtain ⟨q1, q2, q3⟩ := exec_path_kept (CallsWith.inService hst h0) hx p1 hl (by
      rintro j m (rfl | hj)
      · intro hms
        refine hm.1 ?_
        cases c with
        | derive k =>
          obtain ⟨_, hms⟩ := hms
          split at hms
          · exact .inl ⟨_, rfl, hms⟩
          · have := hms.2.2.1
            rw [e, show _ = _ from ha] at this
            cases this
        | update u =>
          obtain ⟨_, idx, h1, h2⟩ := hms
          exact .inr (.inr ⟨u, idx, rfl, h1, h2⟩)
        | _ => exact hms.elim
      · exact hm.2 j m hj)
    exact ⟨q1, q2.trans p2, fun j hj => (p3 j hj).trans (q3 j hj)⟩
  | @create σ st1 ops w out h0 ih =>
    obtain ⟨p1, p2, p3⟩ := ih
    rcases hx : dpeNew ops ⟨st1, w, out⟩ with ⟨r, s'⟩
    rcases dpeNew_effect hx with h1 | ⟨loc, k, hk, _, h2, h3, _⟩
    · rw [h1]; exact ⟨p1, p2, p3⟩
    · have hj : ∀ j ∈ l, s'.st.at j = st1.at j := by
        intro j hj
        refine h2 j ?_
        rintro rfl
        exact p1.all_live hj hk.2.1
      refine ⟨p1.kept fun j hjl => ⟨?_, ?_⟩, h3.2.2.1.trans p2, fun j hjl => ?_⟩
      · unfold Live; rw [hj j hjl]; exact p1.all_live hjl
      · rw [hj j hjl]
      · rw [hj j hjl]; exact p3 j hjl

/-- C74: after calls that neither are about a context nor measure into its ancestors, the context has
the same ancestors, and they carry the same evidence. -/
theorem C74_ancestry {l : List Nat} (hst : InService st) (ha : (st.at i).state = .active)
    (hp : Path st i l) (hc : LeavesAncestry i st st') : Path st' i l ∧ SameEvidence st l st' l := by
  obtain ⟨h1, h2, h3⟩ := ancestry_kept hst ha hp hc
  exact ⟨h1, Kept.evidence h2 h3⟩

/-- C74: after such calls every environment computes the same measurement hash for the context from
the same world. -/
theorem C74_digest {ops : Ops σ} (hst : InService st) (ha : (st.at i).state = .active)
    (hc : LeavesAncestry i st st') (w : σ) (out : Bytes) :
    (computeMeasurementHash ops i ⟨st', w, out⟩).1 = (computeMeasurementHash ops i ⟨st, w, out⟩).1 := by
  obtain ⟨l, hp⟩ := hst.wf.path i (by unfold Live; rw [ha]; decide)
  obtain ⟨h1, h2, h3⟩ := ancestry_kept hst ha hp hc
  exact (Agree.hash hp h1 h2 h3 ops w out).1.symm

/-- C74: what Sign would have answered before such calls it answers after them: if from some world it
succeeds with a signature, then from the same world it succeeds with the same signature now, unless
the random source does not deliver a usable new handle. -/
theorem C74_sign {env : Env cfg σ} {k : SignCmd} {w : σ} {out : Bytes} {n : Nat} {r : Except Err Nat}
    {s1 s2 : Sys cfg σ} (hst : InService st) (hr : Resolves st k.handle loc i) (hso : Sole st i)
    (hin : k.handle = Handle.default → st.hasInitialized = true) (hc : LeavesAncestry i st st')
    (h1 : exec env (.sign k) loc ⟨st, w, out⟩ = (.ok n, s1))
    (h2 : exec env (.sign k) loc ⟨st', w, out⟩ = (r, s2)) :
    (r = .ok n ∧ sigIn s2.out n = sigIn s1.out n) ∨
    (k.handle ≠ Handle.default ∧ (∃ e, r = .error e) ∧ s2.st = st' ∧
      ∃ w2, ∀ hd w3, ¬ GoodDraw env.toOps st' 8 w2 hd w3) := by
  have hc' : LeavesAlone i st st' := hc.mono fun _ _ _ h => h.1
  obtain ⟨hr', _⟩ := C74_resolves hst hr hso hin hc'
  obtain ⟨ch, e⟩ := C74_kept hst hr.1.1 hc'
  obtain ⟨hno, i', path, key, sig, w1, w2, hd, w3, a1, a2, a3, a4, a5, rfl, a7, rfl⟩ := (sign_iff hst).1 h1
  obtain rfl := hr.unique a1
  obtain ⟨p1, p2⟩ := C74_ancestry hst hr.1.1 a2 hc
  simp only [NoRefusal, rules, earlyRules, lateRules, lookupRules, List.cons_append, List.nil_append,
    List.append_nil, List.mem_cons, List.not_mem_nil, or_false, forall_eq_or_imp, forall_eq] at hno
  obtain ⟨q1, _, _, q2⟩ := hno
  rw [named_iff hr] at q2
  have q2' : (st'.at i).ctype ≠ .simulation := by rw [e]; exact q2
  rw [sign_eq (s := ⟨st', w, out⟩) q1 hr' q2', run_bind,
    (signWith_iff p1).2 ⟨key, w1, w2, p2.key a3, a4, rfl⟩] at h2
  simp only at h2
  rw [run_bind] at h2
  rcases hroll : rollHandle env.toOps (st'.at i) (⟨st', w2, out⟩ : Sys cfg σ) with ⟨er | ctx', s3⟩
  · right
    rw [hroll] at h2
    obtain ⟨rfl, rfl⟩ := Prod.mk.inj h2
    have hw := rollHandle_world env.toOps (st'.at i) (⟨st', w2, out⟩ : Sys cfg σ)
    rw [hroll] at hw
    have hnd : ∀ hd w3, ¬ Redrawn env.toOps st' (st'.at i).handle w2 hd w3 := by
      intro hd w3 hg
      have := roll_iff (out := out).2 ⟨hd, w3, hg, rfl, rfl⟩
      rw [hroll] at this
      cases this
    have hh : (st'.at i).handle = k.handle := hr'.1.2.1
    rw [hh] at hnd
    have hk : k.handle ≠ Handle.default := fun e => hnd Handle.default w2 (.inl ⟨e, rfl, rfl⟩)
    exact ⟨hk, ⟨er, rfl⟩, hw.1, w2, fun hd w3 hg => hnd hd w3 (.inr ⟨hk, hg⟩)⟩
  · left
    rw [hroll] at h2
    obtain ⟨hd', w3', g, rfl, rfl⟩ := roll_iff.1 hroll
    simp only at h2
    have hlen : ∀ a b : Handle, (signReply cfg.profile a sig).length = (signReply cfg.profile b sig).length := by
      intro a b
      simp [signReply]
    rw [run_modify, run_writeAt0, signBytes_eq] at h2
    rw [if_pos (by rw [hlen _ hd]; exact a7)] at h2
    obtain ⟨rfl, rfl⟩ := Prod.mk.inj h2
    refine ⟨by rw [hlen hd' hd], ?_⟩
    simp only
    rw [hlen hd hd', sigIn_reply, ← hlen hd hd', sigIn_reply]

end

section Soft
variable {cfg : Cfg} {P : Prims} {τ : Type} {plat : Ops τ} {loc : U32} {n : Nat}
  {r r' r'' r''' : Sys cfg (Soft P × τ)}

theorem certified_kept {c : CertifyCmd} {h' : Handle} {i : Nat}
    (hd : Decent cfg (softOps P plat)) (hst : InService r.st) (hr : Resolves r.st c.handle loc i)
    (hdef : c.handle = Handle.default → r.st.hasInitialized = true ∧ Sole r.st i)
    (h : exec ((softOps P plat).env cfg) (.certify c) loc r = (.ok n, r'))
    (hc : LeavesAncestry i r'.st r''.st) (hh : h'.toList = handleIn r'.out) :
    Resolves r''.st h' loc i ∧ (r''.st.at i).ctype = (r.st.at i).ctype ∧
      ∀ path, Path r.st i path → Path r''.st i path ∧ SameEvidence r.st path r''.st path := by
  have hst' : InService r'.st := by
    have := InService.step ((softOps P plat).env cfg) (.certify c) loc r.st r.w r.out hst
    rw [show exec ((softOps P plat).env cfg) (.certify c) loc ⟨r.st, r.w, r.out⟩ = (.ok n, r')
      from h] at this
    exact this
  obtain ⟨_, kind, D, w1, t, w2, hdl, w3, h1, h2, h3, h4, h5, h6, h7, h8, rfl⟩ :=
    (certify_iff hst hd.fits hd.serial).1 h
  simp only at hst' hc hh
  rw [handleIn_certify] at hh
  have hh : h' = hdl := Vector.toList_inj.1 hh
  obtain rfl := hr.unique h2.resolves
  have hi := hr.lt
  have e1 : (r.st.setCtx D.slot { r.st.at D.slot with handle := hdl }).at D.slot =
      { r.st.at D.slot with handle := hdl } := at_setCtx_self hi _
  have e2 : ∀ j, j ≠ D.slot → (r.st.setCtx D.slot { r.st.at D.slot with handle := hdl }).at j = r.st.at j :=
    fun j hj => at_setCtx_ne hi _ hj
  have hso : Sole (r.st.setCtx D.slot { r.st.at D.slot with handle := hdl }) D.slot := by
    intro j hj hn
    refine Classical.byContradiction fun hne => ?_
    rw [e1, e2 j hne] at hn
    rw [e2 j hne] at hj
    rcases h6 with ⟨g1, rfl, _⟩ | ⟨_, g⟩
    · rw [hr.1.2.1] at g1
      refine hne ((hdef g1).2 j hj ?_)
      unfold SameName at hn ⊢
      rw [hr.1.2.1, g1]
      exact hn
    · exact g.unused.2 j (active_at hj) hn.1
  have hres : Resolves (r.st.setCtx D.slot { r.st.at D.slot with handle := hdl }) hdl loc D.slot := by
    have hn : Names (r.st.setCtx D.slot { r.st.at D.slot with handle := hdl }) hdl loc D.slot := by
      unfold Names
      rw [e1]
      exact ⟨hr.1.1, rfl, hr.1.2.2⟩
    obtain ⟨j, hj⟩ := exists_resolves hn
    obtain rfl := resolves_rotated hr h6 hj
    exact hj
  have hin : hdl = Handle.default → r.st.hasInitialized = true := by
    rintro rfl
    rcases h6 with ⟨g1, _⟩ | ⟨_, g⟩
    · rw [hr.1.2.1] at g1
      exact (hdef g1).1
    · exact absurd rfl g.unused.1
  obtain ⟨hr2, _⟩ := C74_resolves hst' hres hso hin (hc.mono fun _ _ _ h => h.1)
  obtain ⟨ch, e3⟩ := C74_kept hst' hres.1.1 (hc.mono fun _ _ _ h => h.1)
  rw [hh]
  refine ⟨hr2, by rw [e3, e1], fun path a2 => ?_⟩
  obtain ⟨p1, p2⟩ := C74_ancestry hst' hres.1.1 (rotated_path hi a2) hc
  have := rotated_evidence (st := r.st) (path := path) (hd := hdl) hi
  exact ⟨p1, this.1.trans p2.1, this.2.trans p2.2⟩

/-- C74: with the software back end and an unchanging platform, the handle that CertifyKey returned
signs with the certified key for as long as no command is about the context and none measures into
one of its ancestors, however much else happens in between. -/
theorem C74_certified {c : CertifyCmd} {c' : SignCmd} {n' i : Nat} (hs : Steady plat)
    (hd : Decent cfg (softOps P plat)) (hst : InService r.st) (hr : Resolves r.st c.handle loc i)
    (hdef : c.handle = Handle.default → r.st.hasInitialized = true ∧ Sole r.st i)
    (h : exec ((softOps P plat).env cfg) (.certify c) loc r = (.ok n, r'))
    (hc : LeavesAncestry i r'.st r''.st) (hh : c'.handle.toList = handleIn r'.out)
    (hl : c'.label = c.label)
    (h' : exec ((softOps P plat).env cfg) (.sign c') loc r'' = (.ok n', r''')) :
    ∃ priv pk sig, P.pub priv = .ok pk ∧ keyIn c r'.out = keyFields pk ∧
      signData P priv c'.message = .ok sig ∧ sigIn r'''.out n' = sigFields sig := by
  have hst' : InService r'.st := by
    have := InService.step ((softOps P plat).env cfg) (.certify c) loc r.st r.w r.out hst
    rw [show exec ((softOps P plat).env cfg) (.certify c) loc ⟨r.st, r.w, r.out⟩ = (.ok n, r')
      from h] at this
    exact this
  obtain ⟨q1, _, q2⟩ := certified_kept hd hst hr hdef h hc hh
  refine C25_soft hs hd hst (CallsWith.inService hst' hc) hl ?_ h h'
  intro i path j path' a1 a2 b1 b2
  obtain rfl := a1.unique hr
  obtain rfl := q1.unique b1
  obtain ⟨p1, p2⟩ := q2 path a2
  obtain rfl := p1.unique b2
  exact p2

end Soft
/-! ### Why the conditions are there, and concrete cases -/

theorem not_meant {cfg : Cfg} {st : State cfg} {loc : U32} {c : Cmd cfg} {i : Nat}
    (h1 : ∀ h, c.usesHandle = some h → (st.at i).handle ≠ h) (h2 : ∀ h, c ≠ .destroy h)
    (h3 : ∀ u, c ≠ .update u) : ¬ Meant st loc c i := by
  rintro (⟨h, h4, h5⟩ | ⟨h, _, h4, _⟩ | ⟨u, _, h4, _⟩)
  · exact h1 h h4 h5.1.2.1
  · exact h2 h h4
  · exact h3 u h4

namespace Toy

/-- Two simulation contexts in localities 0 and 7; the second is made the default context of its
locality, and the first is destroyed. -/
def beforeDefault : R :=
  (((s0.step (.init 0x80000000) 0).step (.init 0x80000000) 7).step (.rotate ⟨hd 2, 0x80000000⟩) 7).step
    (.destroy (hd 1)) 0

/-- Then the default initialisation, in the same locality. -/
def afterDefault : R := beforeDefault.step (.init 0x40000000) 7

end Toy

/-- The instance must have been initialised: a default context that a caller made out of a simulation
context before the default initialisation loses its name to the context created by that
initialisation, although no command was about it. -/
theorem C74_default_needed :
    Reachable Toy.beforeDefault.st ∧ Resolves Toy.beforeDefault.st Handle.default 7 1 ∧
    Sole Toy.beforeDefault.st 1 ∧ LeavesAlone 1 Toy.beforeDefault.st Toy.afterDefault.st ∧
    Resolves Toy.afterDefault.st Handle.default 7 0 := by
  refine ⟨Toy.R.reach _, findActive_iff.1 (by decide +kernel), ?_, ?_, findActive_iff.1 (by decide +kernel)⟩
  · intro j hj _
    have hlt : j < 4 := active_at hj
    have : ∀ j, j < 4 → (Toy.beforeDefault.st.at j).state = .active → j = 1 := by decide +kernel
    exact this j hlt hj
  · have := CallsWith.cmd (P := fun st loc c => ¬ Meant st loc c 1) Toy.env (.init 0x40000000) 7
      Toy.beforeDefault.p.2 Toy.buf (CallsWith.refl (st := Toy.beforeDefault.st)) (by
        refine not_meant (fun h e => ?_) (fun h e => ?_) (fun h e => ?_) <;> cases e)
    exact this

namespace Toy

/-- The root's handle is rotated: 5. -/
def k5 : R := s4.step (.rotate ⟨hd 2, 0⟩) 0

/-- The root derives a second child (slot 3, handle 7), the root's handle is 6. -/
def k6cmd : Cmd cfg := .derive ⟨hd 5, data 9 9, fRetain, 7, 0, 0⟩
@[inherit_doc k6cmd] def k6 : R := k5.step k6cmd 0

/-- That child is destroyed again. -/
def k7 : R := k6.step (.destroy (hd 7)) 0

theorem s4_anc {j : Nat} {st : State cfg} (hp : Path st 2 [2, 1, 0]) (h : Anc st 2 j) : j < 2 := by
  have : ∀ {l i j}, Path st i l → Anc st i j → ∀ k l', l = k :: l' → j ∈ l' := by
    intro l i j hp h
    induction h generalizing l with
    | parent h1 h2 =>
      intro k l' e
      cases hp with
      | root _ hr => exact absurd hr h2
      | step _ _ hp =>
        cases e
        cases hp <;> simp
    | step h0 h1 h2 ih =>
      intro k l' e
      have hm := ih hp k l' e
      subst e
      have up : ∀ {i l x}, Path st i l → x ∈ l → (st.at x).parentIdx ≠ ROOT → (st.at x).parentIdx ∈ l.tail := by
        intro i l x hp
        induction hp with
        | root _ hr =>
          intro hx hn
          simp only [List.mem_singleton] at hx
          subst hx
          exact absurd hr hn
        | @step i l _ _ hp ih =>
          intro hx hn
          rcases List.mem_cons.1 hx with rfl | hx
          · simp only [List.tail_cons]
            cases hp <;> simp
          · exact List.mem_of_mem_tail (ih hx hn)
      exact up hp (List.mem_cons_of_mem _ hm) h2
  have := this hp h 2 [1, 0] rfl
  simp only [List.mem_cons, List.not_mem_nil, or_false] at this
  omega

end Toy

/-- The grandchild of `s4` (slot 2, handle 4) is left alone while the root gets a new handle and
another child and that child is destroyed: its handle still leads to it, its ancestry is the same,
and Sign gives the same signature. -/
example : LeavesAncestry 2 Toy.s4.st Toy.k7.st ∧ Toy.k7.st ≠ Toy.s4.st ∧
    Resolves Toy.k7.st (Toy.hd 4) 0 2 ∧ Path Toy.k7.st 2 [2, 1, 0] ∧
    ∃ n s1 s2, exec Toy.env (.sign (.p256 (Toy.hd 4) Toy.label 0 (Vector.replicate 32 7))) 0
        ⟨Toy.s4.st, 9, Toy.buf⟩ = (.ok n, s1) ∧
      exec Toy.env (.sign (.p256 (Toy.hd 4) Toy.label 0 (Vector.replicate 32 7))) 0
        ⟨Toy.k7.st, 9, Toy.buf⟩ = (.ok n, s2) ∧ sigIn s2.out n = sigIn s1.out n := by
  have path : ∀ x : Toy.R, (Live x.st 0 ∧ Live x.st 1 ∧ Live x.st 2) ∧ (x.st.at 2).parentIdx = 1 ∧
      (x.st.at 1).parentIdx = 0 ∧ (x.st.at 0).parentIdx = ROOT → Path x.st 2 [2, 1, 0] := by
    rintro x ⟨⟨a, b, c⟩, d, e, f⟩
    refine .step c (by rw [d]; decide) ?_
    rw [d]
    refine .step b (by rw [e]; decide) ?_
    rw [e]
    exact .root a f
  have h5 : LeavesAncestry 2 Toy.s4.st Toy.k5.st :=
    CallsWith.cmd Toy.env (.rotate ⟨Toy.hd 2, 0⟩) 0 Toy.s4.p.2 Toy.buf .refl
      ⟨not_meant (by rintro h e; cases e; decide +kernel) (by rintro h e; cases e) (by rintro h e; cases e),
        fun j m _ h => h⟩
  have h6 : LeavesAncestry 2 Toy.s4.st Toy.k6.st :=
    CallsWith.cmd Toy.env Toy.k6cmd 0 Toy.k5.p.2 Toy.buf h5
      ⟨not_meant (by rintro h e; cases e; decide +kernel) (by rintro h e; cases e) (by rintro h e; cases e), by
        intro j m ha h
        have := Toy.s4_anc (path Toy.k5 (by unfold Live; decide +kernel)) ha
        have h := h.2
        rw [if_neg (by decide)] at h
        have h := h.2.2.1
        have live : ∀ j, j < 2 → (Toy.k5.st.at j).state ≠ .inactive := by decide +kernel
        exact live j this h⟩
  have h7 : LeavesAncestry 2 Toy.s4.st Toy.k7.st :=
    CallsWith.cmd Toy.env (.destroy (Toy.hd 7)) 0 Toy.k6.p.2 Toy.buf h6 ⟨(by
      have hr : Resolves Toy.k6.st (Toy.hd 7) 0 3 := findActive_iff.1 (by decide +kernel)
      rintro (⟨h, h4, h5⟩ | ⟨h, idx, h4, h5, h6⟩ | ⟨u, _, h4, _⟩)
      · cases h4
        cases h5.unique hr
      · cases h4
        cases h5.unique hr
        obtain ⟨k, hk⟩ := h6.lists
        have : (Toy.k6.st.at 3).children = 0 := by decide +kernel
        unfold Lists at hk
        rw [this] at hk
        simp at hk
      · cases h4), fun j m _ h => h⟩
  have hso : Sole Toy.s4.st 2 := by
    intro j hj hn
    have hlt : j < 4 := active_at hj
    have : ∀ j, j < 4 → (Toy.s4.st.at j).handle = (Toy.s4.st.at 2).handle → j = 2 := by decide +kernel
    exact this j hlt hn.1
  have h1 := C74_resolves (.reached Toy.s4.reach) Toy.s4_resolves hso
    (fun h => absurd h (by decide)) (h7.mono fun _ _ _ h => h.1)
  have h2 := C74_ancestry (.reached Toy.s4.reach) Toy.s4_resolves.1.1 Toy.s4_path h7
  refine ⟨h7, ?_, h1.1, h2.1, ?_⟩
  · intro e
    have : (Toy.k7.st.at 0).handle ≠ (Toy.s4.st.at 0).handle := by decide +kernel
    exact this (by rw [e])
  · rcases e1 : exec Toy.env (.sign (.p256 (Toy.hd 4) Toy.label 0 (Vector.replicate 32 7))) 0
        ⟨Toy.s4.st, 9, Toy.buf⟩ with ⟨r1, s1⟩
    rcases e2 : exec Toy.env (.sign (.p256 (Toy.hd 4) Toy.label 0 (Vector.replicate 32 7))) 0
        ⟨Toy.k7.st, 9, Toy.buf⟩ with ⟨r2, s2⟩
    have g1 : (exec Toy.env (.sign (.p256 (Toy.hd 4) Toy.label 0 (Vector.replicate 32 7))) 0
        ⟨Toy.s4.st, 9, Toy.buf⟩).1 = .ok 92 := by decide +kernel
    have g2 : (exec Toy.env (.sign (.p256 (Toy.hd 4) Toy.label 0 (Vector.replicate 32 7))) 0
        ⟨Toy.k7.st, 9, Toy.buf⟩).1 = .ok 92 := by decide +kernel
    rw [e1] at g1
    rw [e2] at g2
    simp only at g1 g2
    subst g1 g2
    refine ⟨92, s1, s2, rfl, rfl, ?_⟩
    rcases C74_sign (k := .p256 (Toy.hd 4) Toy.label 0 (Vector.replicate 32 7))
      (.reached Toy.s4.reach) Toy.s4_resolves hso (fun h => absurd h (by decide)) h7 e1 e2 with
      h | ⟨_, ⟨e, h⟩, _⟩
    · exact h.2
    · cases h

/-- With the software back end the grandchild of `s4` gets a certificate; then the root gets a new
handle, in the presence of other crypto; then the handle from the certificate's response signs with
the certified key. -/
example : ∃ n r' n' r'' r''' priv, exec (Toy.softKey.env Toy.cfg) (.certify (Toy.softCertify 0)) 0
      Toy.softSys = (.ok n, r') ∧ LeavesAncestry 2 r'.st r''.st ∧ r''.st ≠ r'.st ∧
    exec (Toy.softKey.env Toy.cfg) (.sign Toy.softSign) 0 r'' = (.ok n', r''') ∧
    keyIn (Toy.softCertify 0) r'.out = keyFields (Toy.pubOf priv) ∧
    sigIn r'''.out n' = sigFields (Toy.sigOf priv (Vector.replicate 32 0x77).toList) := by
  obtain ⟨n, out, h, hh, _⟩ := Toy.soft_certify .leafX509 0 (.inl ⟨rfl, rfl⟩) (by decide +kernel)
  have hc : LeavesAncestry 2 Toy.softNext
      (exec Toy.env (.rotate ⟨Toy.hd 2, 0⟩) 0 ⟨Toy.softNext, 20, Toy.buf⟩).2.st :=
    CallsWith.cmd Toy.env (.rotate ⟨Toy.hd 2, 0⟩) 0 20 Toy.buf .refl
      ⟨not_meant (by rintro h e; cases e; decide +kernel) (by rintro h e; cases e) (by rintro h e; cases e),
        fun j m _ h => h⟩
  have hso : Sole Toy.softNext 2 := by
    intro j hj hn
    have hlt : j < 4 := active_at hj
    have : ∀ j, j < 4 → (Toy.softNext.at j).handle = (Toy.softNext.at 2).handle → j = 2 := by
      decide +kernel
    exact this j hlt hn.1
  have h1 := C74_resolves (.reached Toy.softNext_reach) Toy.softNext_resolves hso
    (fun h => absurd h (by decide)) (hc.mono fun _ _ _ h => h.1)
  have h2 := C74_ancestry (.reached Toy.softNext_reach) Toy.softNext_resolves.1.1 Toy.softNext_path hc
  obtain ⟨n', r''', h'⟩ := Toy.soft_sign_of (o := none) (cdi := Toy.softCdi Toy.s4.st)
    (priv := Toy.softPriv Toy.s4.st Toy.label.toList)
    (Reachable.step Toy.env (.rotate ⟨Toy.hd 2, 0⟩) 0 Toy.softNext 20 Toy.buf Toy.softNext_reach)
    h1.1 h2.1 (by decide +kernel) (by decide +kernel) (by unfold Unused; decide +kernel)
    (by decide +kernel)
  obtain ⟨priv, pk, sig, g1, g2, g3, g4⟩ := C74_certified (P := Toy.keyPrims) (plat := Toy.certOps)
    (c' := Toy.softSign) (r'' := ⟨_, _, Toy.bigBuf⟩) Toy.certOps_steady Toy.soft_decent
    (.reached Toy.s4.reach) Toy.s4_resolves (fun h => absurd h (by decide)) h hc hh.symm rfl h'
  have g1 : Except.ok (ε := CryptoErr) (Toy.pubOf priv) = .ok pk := g1
  have g3 : Except.ok (ε := CryptoErr) (Toy.sigOf priv (Vector.replicate 32 0x77).toList) = .ok sig := g3
  injection g1 with g1
  injection g3 with g3
  subst g1 g3
  refine ⟨n, _, n', _, r''', priv, h, hc, ?_, h', g2, g4⟩
  intro e
  have : ((exec Toy.env (.rotate ⟨Toy.hd 2, 0⟩) 0 ⟨Toy.softNext, 20, Toy.buf⟩).2.st.at 0).handle ≠
      (Toy.softNext.at 0).handle := by decide +kernel
  exact this (by rw [e])

end Dpe
