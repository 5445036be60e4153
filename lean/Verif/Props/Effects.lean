import Verif.Proofs.Calls
import Verif.Examples.Toy
/-
Exact effects of the commands (C52), and their consequences: the frame (C09), failed commands
(C10), read-only commands (C22), Sign and CertifyKey (C23), DestroyContext (C17), immutable
identity (C20) and configuration (C21).
-/
namespace Dpe
variable {cfg : Cfg} {σ : Type} {env : Env cfg σ} {D : Bytes → Bytes → Prop} {c : Cmd cfg}
  {loc : U32} {s s' : Sys cfg σ} {r : Except Err Nat}

/-- C52: a successful command commits exactly its specified effect, and the reply starts with
a success header followed by exactly the handles of that effect. -/
theorem C52_success_effect {n : Nat} (hst : InService s.st) (hD : Digests env.toOps D)
    (h : exec env c loc s = (.ok n, s')) :
    ∃ hs, Effect D s.st loc c hs s'.st ∧ RepliesWith cfg.profile hs s'.out := by
  rcases exec_outcome hst.wf hD h with ⟨⟨e, h1⟩, _⟩ | ⟨hs, h1, h2⟩ | ⟨_, _, _, h1, _⟩ | ⟨_, _, _, h1, _⟩
  · cases h1
  · rcases h2 with ⟨_, _, h2⟩ | ⟨h2, _⟩
    · exact ⟨hs, h1, h2⟩
    · cases h2
  · cases h1
  · cases h1

/-- Non-vacuity for C52: the derive of `Toy.s3`, which succeeds and answers with handles 3
(child) and 2 (parent). -/
example : ∃ n s', exec Toy.env Toy.s3cmd 0 Toy.s2.sys = (.ok n, s') ∧
    ∃ hs, Effect (fun _ y => y = [7, 7]) Toy.s2.st 0 Toy.s3cmd hs s'.st ∧
      RepliesWith Toy.cfg.profile hs s'.out := by
  have h0 : (exec Toy.env Toy.s3cmd 0 Toy.s2.sys).1 = .ok 44 := by decide +kernel
  generalize hx : exec Toy.env Toy.s3cmd 0 Toy.s2.sys = x at h0
  obtain ⟨r, s'⟩ := x
  subst h0
  refine ⟨44, s', rfl, ?_⟩
  have hD : Digests Toy.env.toOps (fun _ y => y = [7, 7]) := by
    rintro chunks w w' d ⟨w1, w2, w3, _, _, _, h4⟩
    cases h4; rfl
  exact C52_success_effect Toy.s2.sys_reach hD hx

theorem DestroyEffect.untouched {st st' : State cfg} {idx i : Nat} (h : DestroyEffect st idx st')
    (hi : ¬ DestroyTouches st idx i) : st'.at i = st.at i := by
  have h1 : ¬ DestroyedWith st idx i := fun h => hi (.inl h)
  obtain ⟨⟨ch, e⟩, hl⟩ := h.2.1 i h1
  have : ch = (st.at i).children := by
    apply BitVec.eq_of_getLsbD_eq
    intro j _
    have := hl j
    unfold Lists at this
    rw [e] at this
    have hnd : (st.at i).children.getLsbD j = true → ¬ DestroyedWith st idx j :=
      fun hj hd => hi (.inr ⟨j, hj, hd⟩)
    rw [Bool.eq_iff_iff]
    exact this.trans ⟨fun h => h.1, fun h => ⟨h, hnd h⟩⟩
  rw [e, this]

theorem Effect.frame {st st' : State cfg} {hs : List Handle} (h : Effect D st loc c hs st')
    {i : Nat} (hi : ¬ MayTouch st loc c i) : st'.at i = st.at i := by
  cases c with
  | getProfile => rw [h.2]
  | chain c => rw [h.2]
  | init f =>
    obtain ⟨_, _, k, hk, _, h2, _⟩ := h
    exact h2 i fun e => hi (e ▸ hk)
  | rotate c =>
    obtain ⟨_, _, k, hk, h2, _⟩ := h
    exact h2.2.1 i fun e => hi (e ▸ hk)
  | sign c =>
    obtain ⟨_, _, k, hk, _, h2⟩ := h
    exact h2.2.1 i fun e => hi (e ▸ hk)
  | certify c =>
    obtain ⟨_, _, k, hk, _, h2⟩ := h
    exact h2.2.1 i fun e => hi (e ▸ hk)
  | destroy hd =>
    obtain ⟨_, idx, h1, h2⟩ := h
    exact h2.untouched fun ht => hi ⟨idx, h1, ht⟩
  | derive c =>
    obtain ⟨idx, hd, hp, _, hres, h⟩ := h
    cases h with
    | «recursive» _ _ _ h => exact h.2.1 i fun e => hi (.inl (e ▸ hres))
    | «child» h1 h2 hff _ _ _ _ _ _ h =>
      exact h i (fun e => hi (.inr (.inl ⟨h1, h2, e ▸ hff⟩))) (fun e => hi (.inl (e ▸ hres)))
    | exported _ _ _ _ _ h => exact h.2.1 i fun e => hi (.inl (e ▸ hres))
    | exportedLast _ hx _ hr hn h =>
      exact h.untouched fun ht => hi (.inr (.inr ⟨hx, hr, idx, hres, hn, ht⟩))
  | update c =>
    obtain ⟨_, _, _, idx, k, v, hres, _, hac, _, _, _, _, _, _, h, _⟩ := h
    exact h i (fun e => hi ⟨idx, hres, .inl e⟩) (fun e => hi ⟨idx, hres, .inr (e ▸ hac)⟩)

/-- C09: whatever its outcome, a command leaves every slot it is not entitled to touch exactly
as it was. -/
theorem C09_frame (hst : InService s.st) (h : exec env c loc s = (r, s')) {i : Nat}
    (hi : ¬ MayTouch s.st loc c i) : s'.st.at i = s.st.at i := by
  rcases effect_cases_wf hst.wf (digests_true _) h with h1 | ⟨hs, h1⟩ | ⟨u, rfl, h1⟩
  · rw [h1]
  · exact h1.frame hi
  · obtain ⟨idx, k, hp, hres, _, _, _, _, h2⟩ := h1
    exact h2.2.1 i fun e => hi ⟨idx, hres, .inl e⟩

/-- Non-vacuity for C09: in `Toy.s4` (retained root, retired child 1, active grandchild 2) Sign
through the grandchild's handle may touch slot 2 and does, and may not touch slot 0. -/
example : ∃ s', exec Toy.env (.sign (.p256 (Toy.hd 4) (Vector.replicate 32 0) 0
      (Vector.replicate 32 0))) 0 Toy.s4.sys = (.ok 92, s') ∧
    s'.st.at 2 ≠ Toy.s4.st.at 2 ∧ s'.st.at 0 = Toy.s4.st.at 0 := by
  have h0 : (exec Toy.env (.sign (.p256 (Toy.hd 4) (Vector.replicate 32 0) 0
      (Vector.replicate 32 0))) 0 Toy.s4.sys).1 = .ok 92 ∧
    (exec Toy.env (.sign (.p256 (Toy.hd 4) (Vector.replicate 32 0) 0
      (Vector.replicate 32 0))) 0 Toy.s4.sys).2.st.at 2 ≠ Toy.s4.st.at 2 := by decide +kernel
  generalize hx : exec Toy.env (.sign (.p256 (Toy.hd 4) (Vector.replicate 32 0) 0
      (Vector.replicate 32 0))) 0 Toy.s4.sys = x at h0
  obtain ⟨r, s'⟩ := x
  obtain ⟨rfl, h1⟩ := h0
  refine ⟨s', rfl, h1, C09_frame Toy.s4.sys_reach hx ?_⟩
  rintro ⟨h, _⟩
  revert h
  unfold Names
  decide +kernel

/-- C21: support word, flags, marker and version never change. -/
theorem C21_config (hst : InService s.st) (h : exec env c loc s = (r, s')) :
    SameConfig s.st s'.st ∧ s'.st.contexts.length = s.st.contexts.length ∧
      (s.st.hasInitialized = true → s'.st.hasInitialized = true) := by
  refine ⟨?_, by rw [s.st.len_eq, s'.st.len_eq], ?_⟩
  · rcases effect_cases_wf hst.wf (digests_true _) h with h1 | ⟨hs, h1⟩ | ⟨u, rfl, h1⟩
    · rw [h1]; exact ⟨rfl, rfl, rfl, rfl⟩
    · exact h1.config.1
    · obtain ⟨idx, k, hp, _, _, _, _, _, h2⟩ := h1
      exact h2.2.2.1
  · intro hi
    rcases effect_cases_wf hst.wf (digests_true _) h with h1 | ⟨hs, h1⟩ | ⟨u, rfl, h1⟩
    · rw [h1, hi]
    · rcases h1.config.2 with h2 | h2
      · rw [h2, hi]
      · exact h2.1
    · obtain ⟨idx, k, hp, _, _, _, _, _, h2⟩ := h1
      rw [h2.2.2.2, hi]

/-- Non-vacuity for C21: default initialisation marks a fresh instance, and the mark and the
support word survive the commands leading to `Toy.s4`. -/
example : Toy.s0.st.hasInitialized = false ∧ Toy.s1.st.hasInitialized = true ∧
    Toy.s4.st.hasInitialized = true ∧ Toy.s4.st.support = Toy.support := by decide +kernel

/-- C22: GetProfile and GetCertificateChain change nothing, whatever their outcome. -/
theorem C22_queries_read_only (hst : InService s.st) (hc : c = .getProfile ∨ ∃ q, c = .chain q)
    (h : exec env c loc s = (r, s')) : s'.st = s.st := by
  rcases effect_cases_wf hst.wf (digests_true _) h with h1 | ⟨hs, h1⟩ | ⟨u, rfl, h1⟩
  · exact h1
  · rcases hc with rfl | ⟨q, rfl⟩ <;> exact h1.2
  · rcases hc with hc | ⟨q, hc⟩ <;> cases hc

/-- Non-vacuity for C22: both queries succeed on `Toy.s4` (with a large buffer). -/
example : (exec Toy.env .getProfile 3 Toy.s4.sys).1 = .ok 32 ∧
    (exec Toy.env (.chain ⟨0, 100⟩) 3 { Toy.s4.sys with out := List.replicate 2100 0 }).1 =
      .ok 2064 := by decide +kernel

/-- C23: Sign and CertifyKey leave every context unchanged except that the handle of the named
context may be replaced (by a handle no slot carries), and only if it is not the default
handle. -/
theorem C23_use_keeps_contexts (hst : InService s.st)
    (hc : (∃ k, c = .sign k) ∨ ∃ k, c = .certify k) (h : exec env c loc s = (r, s')) :
    SameMeta s.st s'.st ∧
    (s'.st = s.st ∨ ∃ i hd hd', c.usesHandle = some hd ∧ Resolves s.st hd loc i ∧
      s'.st.at i = { s.st.at i with handle := hd' } ∧ (∀ j, j ≠ i → s'.st.at j = s.st.at j) ∧
      (hd = Handle.default → hd' = Handle.default) ∧
      (hd ≠ Handle.default → Unused s.st hd')) := by
  have key : ∀ {hd hd'}, c.usesHandle = some hd → UseEffect s.st hd loc hd' s'.st →
      SameMeta s.st s'.st ∧
      (s'.st = s.st ∨ ∃ i hd hd', c.usesHandle = some hd ∧ Resolves s.st hd loc i ∧
      s'.st.at i = { s.st.at i with handle := hd' } ∧ (∀ j, j ≠ i → s'.st.at j = s.st.at j) ∧
      (hd = Handle.default → hd' = Handle.default) ∧
      (hd ≠ Handle.default → Unused s.st hd')) := by
    intro hd hd' hu h
    obtain ⟨i, h1, h2, h3⟩ := h
    refine ⟨h3.2.2, .inr ⟨i, hd, hd', hu, h1, h3.1, h3.2.1, fun e => ?_, fun e => ?_⟩⟩
    · rcases h2 with h2 | h2
      · exact h2.2
      · exact absurd e h2.1
    · rcases h2 with h2 | h2
      · exact absurd h2.1 e
      · exact h2.2
  rcases effect_cases_wf hst.wf (digests_true _) h with h1 | ⟨hs, h1⟩ | ⟨u, rfl, h1⟩
  · exact ⟨by rw [h1]; exact ⟨⟨rfl, rfl, rfl, rfl⟩, rfl⟩, .inl h1⟩
  · rcases hc with ⟨k, rfl⟩ | ⟨k, rfl⟩ <;> obtain ⟨hd', _, h1⟩ := h1 <;> exact key rfl h1
  · rcases hc with ⟨q, hc⟩ | ⟨q, hc⟩ <;> cases hc

/-- Non-vacuity for C23: CertifyKey (X.509) through the grandchild's handle succeeds and gives
it handle 5. -/
example : ∃ s', exec Toy.env (.certify (.p256 (Toy.hd 4) 0 0 (Vector.replicate 32 0))) 0
      Toy.s4.sys = (.ok 99, s') ∧
    s'.st.at 2 = { Toy.s4.st.at 2 with handle := Toy.hd 5 } := by
  refine ⟨_, Prod.ext (by decide +kernel) rfl, by decide +kernel⟩

/-- C17: a successful DestroyContext destroys exactly the named context, its descendants and
its chain of retired single-child ancestors; every other slot keeps its content except that
links to destroyed slots are gone. -/
theorem C17_destroy_exact {n : Nat} {hd : Handle} (hst : InService s.st)
    (h : exec env (.destroy hd) loc s = (.ok n, s')) :
    ∃ idx, Resolves s.st hd loc idx ∧
      (∀ i, DestroyedWith s.st idx i ↔ (Live s.st i ∧ (s'.st.at i).state = .inactive)) ∧
      (∀ i, DestroyedWith s.st idx i → s'.st.at i = wiped (s.st.at i)) ∧
      (∀ i, ¬ DestroyedWith s.st idx i →
        (∃ ch, s'.st.at i = { s.st.at i with children := ch }) ∧
        ∀ j, Lists s'.st i j ↔ (Lists s.st i j ∧ ¬ DestroyedWith s.st idx j)) ∧
      SameMeta s.st s'.st := by
  obtain ⟨_, ⟨_, idx, h1, h2, h3, h4⟩, _⟩ := C52_success_effect hst (digests_true _) h
  refine ⟨idx, h1, fun i => ⟨fun hi => ⟨?_, ?_⟩, fun hi => ?_⟩, h2, h3, h4⟩
  · have wf := hst.wf
    exact Doomed.live wf h1.1.live hi
  · rw [h2 i hi]; rfl
  · by_contra hn
    obtain ⟨⟨ch, e⟩, _⟩ := h3 i hn
    have := hi.2
    rw [e] at this
    exact hi.1 this

/-- Non-vacuity for C17: destroying the grandchild (handle 4) in `Toy.s4` also destroys its
retired parent in slot 1, and the root survives without children. -/
example : ∃ s', exec Toy.env (.destroy (Toy.hd 4)) 0 Toy.s4.sys = (.ok 12, s') ∧
    Toy.shape s'.st = [(.active, 255, 0, 2), (.inactive, 255, 0, 255), (.inactive, 255, 0, 255),
      (.inactive, 255, 0, 0)] := by
  refine ⟨_, Prod.ext (by decide +kernel) rfl, by decide +kernel⟩

theorem SameIdentity.refl (c : Context cfg) : SameIdentity c c :=
  ⟨rfl, rfl, rfl, rfl, rfl, rfl, rfl, rfl, rfl, rfl, rfl, id⟩

theorem SameIdentity.trans {a b c : Context cfg} (h1 : SameIdentity a b) (h2 : SameIdentity b c) :
    SameIdentity a c := by
  obtain ⟨a1, a2, a3, a4, a5, a6, a7, a8, a9, a10, a11, a12⟩ := h1
  obtain ⟨b1, b2, b3, b4, b5, b6, b7, b8, b9, b10, b11, b12⟩ := h2
  exact ⟨b1.trans a1, b2.trans a2, b3.trans a3, b4.trans a4, b5.trans a5, b6.trans a6,
    b7.trans a7, b8.trans a8, b9.trans a9, b10.trans a10, b11.trans a11, fun h => b12 (a12 h)⟩

theorem DestroyEffect.identity {st st' : State cfg} {idx i : Nat} (h : DestroyEffect st idx st')
    (hi : Live st' i) : SameIdentity (st.at i) (st'.at i) := by
  by_cases hd : DestroyedWith st idx i
  · rw [Live, h.1 i hd] at hi
    exact absurd rfl hi
  · obtain ⟨⟨ch, e⟩, _⟩ := h.2.1 i hd
    rw [e]; exact SameIdentity.refl _

theorem Effect.identity {st st' : State cfg} {hs : List Handle} (h : Effect D st loc c hs st')
    {i : Nat} (hi : Live st i) (hi' : Live st' i) : SameIdentity (st.at i) (st'.at i) := by
  have hset : ∀ {k : Nat} {c' : Context cfg}, SetSlot st k c' st' → SameIdentity (st.at k) c' →
      SameIdentity (st.at i) (st'.at i) := by
    intro k c' h hc
    by_cases e : i = k
    · subst e; rw [h.1]; exact hc
    · rw [h.2.1 i e]; exact SameIdentity.refl _
  cases c with
  | getProfile => rw [h.2]; exact SameIdentity.refl _
  | chain c => rw [h.2]; exact SameIdentity.refl _
  | init f =>
    obtain ⟨_, _, k, hk, _, h2, _⟩ := h
    rw [h2 i (by rintro rfl; exact hi hk.2.1)]; exact SameIdentity.refl _
  | rotate c => obtain ⟨_, _, k, _, h2, _⟩ := h; exact hset h2 (SameIdentity.refl _)
  | sign c => obtain ⟨_, _, k, _, _, h2⟩ := h; exact hset h2 (SameIdentity.refl _)
  | certify c => obtain ⟨_, _, k, _, _, h2⟩ := h; exact hset h2 (SameIdentity.refl _)
  | destroy hd => obtain ⟨_, idx, _, h2⟩ := h; exact h2.identity hi'
  | derive c =>
    obtain ⟨idx, hd, hp, _, hres, h⟩ := h
    have hps : ∀ {hp s}, ParentNext st c (st.at idx) hp s → (st.at idx).state = .retired →
        s = .retired := by
      intro _ _ _ h
      rw [hres.1.1] at h; cases h
    cases h with
    | «recursive» _ _ _ h => exact hset h (SameIdentity.refl _)
    | «child» _ _ hff _ _ hpn _ _ h1 h2 _ =>
      by_cases e : i = idx
      · subst e
        rw [h1]
        exact ⟨rfl, rfl, rfl, rfl, rfl, rfl, rfl, rfl, rfl, rfl, rfl, hps hpn⟩
      · rw [h2 i (by rintro rfl; exact hi hff.2.1) e]; exact SameIdentity.refl _
    | exported _ _ _ _ hpn h =>
      exact hset h ⟨rfl, rfl, rfl, rfl, rfl, rfl, rfl, rfl, rfl, rfl, rfl, hps hpn⟩
    | exportedLast _ _ _ _ _ h => exact h.identity hi'
  | update c =>
    obtain ⟨_, _, _, idx, k, v, _, _, _, _, _, _, _, h1, h2, h3, _⟩ := h
    by_cases e : i = idx
    · subst e; rw [h1]; exact SameIdentity.refl _
    · by_cases e' : i = k
      · subst e'; rw [h2]; exact SameIdentity.refl _
      · rw [h3 i e e']; exact SameIdentity.refl _

theorem HalfUpdate.identity {st st' : State cfg} {u : UpdateCmd cfg} (h : HalfUpdate st u loc st')
    (i : Nat) : SameIdentity (st.at i) (st'.at i) := by
  obtain ⟨idx, k, hp, _, _, _, _, _, h2⟩ := h
  by_cases e : i = idx
  · subst e; rw [h2.1]; exact SameIdentity.refl _
  · rw [h2.2.1 i e]; exact SameIdentity.refl _

/-- C20: a command never changes the identity of a context that is live before and after it. -/
theorem C20_identity (hst : InService s.st) (h : exec env c loc s = (r, s')) {i : Nat}
    (hi : Live s.st i) (hi' : Live s'.st i) : SameIdentity (s.st.at i) (s'.st.at i) := by
  rcases effect_cases_wf hst.wf (digests_true _) h with h1 | ⟨hs, h1⟩ | ⟨u, rfl, h1⟩
  · rw [h1]; exact SameIdentity.refl _
  · exact h1.identity hi hi'
  · exact h1.identity i

/-- C20: over any number of calls during which the context stays live its identity is the
same. -/
theorem C20_identity_history {st st' : State cfg} (hst : InService st) {i : Nat}
    (h : StaysLive i st st') : SameIdentity (st.at i) (st'.at i) := by
  have key : InService st' ∧ Live st' i ∧ SameIdentity (st.at i) (st'.at i) := by
    induction h with
    | refl hl => exact ⟨hst, hl, SameIdentity.refl _⟩
    | step _ hc hl ih =>
      obtain ⟨h1, h2, h3⟩ := ih
      refine ⟨hc.inService h1, hl, h3.trans ?_⟩
      rcases hc.cases h1.wf with h | ⟨c, loc, hs, h⟩ | ⟨u, loc, h⟩
      · rw [h]; exact SameIdentity.refl _
      · exact h.identity h2 hl
      · exact h.identity i
  exact key.2.2

/-- Non-vacuity for C20: the child of slot 1 is Active in `Toy.s3` and Retired in `Toy.s4`,
and keeps its type and SVN. -/
example : StaysLive 1 Toy.s3.st Toy.s4.st ∧ (Toy.s3.st.at 1).state = .active ∧
    (Toy.s4.st.at 1).state = .retired ∧ (Toy.s4.st.at 1).tci.tciType = 5 ∧
    (Toy.s4.st.at 1).tci.svn = 9 := by
  refine ⟨.step (.refl (by unfold Live; decide +kernel)) (st2 := Toy.s4.st) ?_
    (by unfold Live; decide +kernel), by decide +kernel⟩
  unfold Toy.s4
  exact Call.cmd Toy.env Toy.s4cmd 0 Toy.s3.p.1 Toy.s3.p.2 Toy.buf

/-- C21: the configuration is the same after any number of calls. -/
theorem C21_config_history {st st' : State cfg} (hst : InService st) (h : Calls st st') :
    SameConfig st st' ∧ st'.contexts.length = st.contexts.length ∧
      (st.hasInitialized = true → st'.hasInitialized = true) := by
  have key : InService st' ∧ SameConfig st st' ∧
      (st.hasInitialized = true → st'.hasInitialized = true) := by
    induction h with
    | refl => exact ⟨hst, ⟨rfl, rfl, rfl, rfl⟩, id⟩
    | step _ hc ih =>
      obtain ⟨h1, ⟨a1, a2, a3, a4⟩, h3⟩ := ih
      have h4 := hc.inService h1
      rcases hc.cases h1.wf with h | ⟨c, loc, hs, h⟩ | ⟨u, loc, h⟩
      · rw [h]; exact ⟨h1, ⟨a1, a2, a3, a4⟩, h3⟩
      · obtain ⟨⟨b1, b2, b3, b4⟩, hi⟩ := h.config
        refine ⟨h4, ⟨b1.trans a1, b2.trans a2, b3.trans a3, b4.trans a4⟩, fun hh => ?_⟩
        rcases hi with hi | hi
        · rw [hi]; exact h3 hh
        · exact hi.1
      · obtain ⟨idx, k, hp, _, _, _, _, _, h2⟩ := h
        obtain ⟨⟨b1, b2, b3, b4⟩, hi⟩ := h2.2.2
        refine ⟨h4, ⟨b1.trans a1, b2.trans a2, b3.trans a3, b4.trans a4⟩, fun hh => ?_⟩
        rw [hi]; exact h3 hh
  exact ⟨key.2.1, by rw [st.len_eq, st'.len_eq], key.2.2⟩

/-- Non-vacuity for the history form of C21. -/
example : Calls Toy.s3.st Toy.s4.st := by
  unfold Toy.s4
  exact .step .refl (Call.cmd Toy.env Toy.s4cmd 0 Toy.s3.p.1 Toy.s3.p.2 Toy.buf)


end Dpe
