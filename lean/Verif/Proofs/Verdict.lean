import Verif.Spec.Rules
import Verif.Proofs.Iter
import Verif.Proofs.Calls
import Verif.Props.Life
/-
Every command is either refused by its first applicable rule, or allowed and then fails only
through the environment.
-/
namespace Dpe
variable {cfg : Cfg} {σ α β : Type} {env : Env cfg σ} {s0 : Sys cfg σ} {c0 : Cmd cfg}

/-- From state `st` and a large enough buffer the computation fails only through the
environment. -/
def Faulty (env : Env cfg σ) (s0 : Sys cfg σ) (c0 : Cmd cfg) (st : State cfg) (x : M cfg σ α) :
    Prop :=
  ∀ s s' e, s.st = st → (s.out.length < c0.replyMax → NoFit env s0 c0) → x s = (.error e, s') →
    EnvFault env s0 c0 e

theorem Faulty.bind {st : State cfg} {x : M cfg σ α} {f : α → M cfg σ β}
    (hw : WorldOnly x) (hx : Faulty env s0 c0 st x) (hf : ∀ a, Faulty env s0 c0 st (f a)) :
    Faulty env s0 c0 st (x >>= f) := by
  intro s s' e hs hl h
  rw [bind_iff] at h
  rcases h with ⟨e', h1, h2⟩ | ⟨a, s1, h1, h2⟩
  · cases h2; exact hx s s' _ hs hl h1
  · have := hw s
    rw [h1] at this
    exact hf a s1 s' e (this.1.trans hs) (by rw [this.2]; exact hl) h2

theorem Faulty.pure {st : State cfg} (a : α) :
    Faulty env s0 c0 st (Pure.pure a : M cfg σ α) := by
  intro s s' e _ _ h
  rw [pure_iff] at h; cases h.1

theorem Faulty.crypto {st : State cfg} {f : σ → Except CryptoErr α × σ}
    (hf : ∀ w e, (f w).1 = .error e → EnvFault env s0 c0 (.crypto e)) :
    Faulty env s0 c0 st (M.crypto f : M cfg σ α) := by
  intro s s' e _ _ h
  rw [crypto_iff] at h
  rcases h with ⟨e', w', h1, h2, _⟩ | ⟨a, w', _, h2, _⟩
  · cases h2; exact hf s.w e' (by rw [h1])
  · cases h2

theorem Faulty.platform {st : State cfg} {f : σ → Except PlatErr α × σ}
    (hf : ∀ w e, (f w).1 = .error e → EnvFault env s0 c0 (.platform e)) :
    Faulty env s0 c0 st (M.platform f : M cfg σ α) := by
  intro s s' e _ _ h
  rw [platform_iff] at h
  rcases h with ⟨e', w', h1, h2, _⟩ | ⟨a, w', _, h2, _⟩
  · cases h2; exact hf s.w e' (by rw [h1])
  · cases h2

theorem Faulty.modify {st : State cfg} {g : State cfg → State cfg} {f : Unit → M cfg σ β}
    (hf : Faulty env s0 c0 (g st) (f ())) : Faulty env s0 c0 st (M.modify g >>= f) := by
  intro s s' e hs hl h
  rw [run_modify] at h
  subst hs
  exact hf { s with st := g s.st } s' e rfl hl h

theorem Faulty.reply {st : State cfg} {b : Bytes} (hb : b.length ≤ c0.replyMax) (n : α) :
    Faulty env s0 c0 st (writeAt 0 b >>= fun _ => (Pure.pure n : M cfg σ α)) := by
  intro s s' e hs hl h
  rw [run_writeAt0] at h
  by_cases hc : b.length ≤ s.out.length
  · rw [if_pos hc, pure_iff] at h; cases h.1
  · rw [if_neg hc] at h
    cases h
    exact .buffer (hl (by omega))

theorem hashChunks_errs (hc : c0.measures ∨ c0.signs) (st : State cfg) (l : List Bytes) :
    Faulty env s0 c0 st (hashChunks env.toOps l) := by
  induction l with
  | nil => exact Faulty.pure _
  | cons b l ih =>
    refine Faulty.bind (WorldOnly.crypto _) (Faulty.crypto fun w e h => ?_) fun _ => ih
    exact .crypto ⟨w, .inr (.inl ⟨hc, .inr (.inr (.inl ⟨b, h⟩))⟩)⟩

theorem hashAll_errs (hc : c0.measures ∨ c0.signs) (st : State cfg) (l : List Bytes) :
    Faulty env s0 c0 st (hashAll env.toOps l) := by
  refine Faulty.bind (WorldOnly.crypto _) (Faulty.crypto fun w e h => ?_) fun _ =>
    Faulty.bind (WorldOnly.crypto _) (Faulty.crypto fun w e h => ?_) fun _ =>
    Faulty.bind (hashChunks_world _ _) (hashChunks_errs hc st l) fun _ => Faulty.crypto fun w e h => ?_
  · exact .crypto ⟨w, .inr (.inl ⟨hc, .inl h⟩)⟩
  · exact .crypto ⟨w, .inr (.inl ⟨hc, .inr (.inl h)⟩)⟩
  · exact .crypto ⟨w, .inr (.inl ⟨hc, .inr (.inr (.inr h))⟩)⟩

/-- A successful `hashAll` returns a digest produced by `hashFinish`. -/
theorem hashAll_finish {ops : Ops σ} {l : List Bytes} {s s' : Sys cfg σ} {d : Bytes}
    (h : hashAll ops l s = (.ok d, s')) : ∃ w w', ops.hashFinish w = (.ok d, w') := by
  unfold hashAll at h
  rw [bind_iff] at h
  rcases h with ⟨_, _, h⟩ | ⟨_, s1, _, h⟩
  · cases h
  rw [bind_iff] at h
  rcases h with ⟨_, _, h⟩ | ⟨_, s2, _, h⟩
  · cases h
  rw [bind_iff] at h
  rcases h with ⟨_, _, h⟩ | ⟨_, s3, _, h⟩
  · cases h
  rw [crypto_iff] at h
  rcases h with ⟨_, _, _, h, _⟩ | ⟨a, w', h1, h2, _⟩
  · cases h
  · cases h2; exact ⟨_, _, h1⟩

theorem addTci_errs (hm : c0.measures) (st : State cfg) {c : Context cfg} {m : BArr cfg.tciSize} {loc : U32}
    (h1 : c.state = .active) (h2 : c.locality = loc) :
    Faulty env s0 c0 st (addTci env.toOps c m loc) := by
  intro s s' e hs hl h
  unfold addTci at h
  have e1 : (c.state != .active) = false := by rw [h1]; rfl
  have e2 : (c.locality != loc) = false := by rw [h2]; simp
  rw [run_failIf, e1, if_neg (by simp), run_failIf, e2, if_neg (by simp), bind_iff] at h
  rcases h with ⟨e', h3, h4⟩ | ⟨d, s1, h3, h4⟩
  · cases h4
    exact hashAll_errs (.inl hm) st _ _ _ _ hs hl h3
  · obtain ⟨w, w', hf⟩ := hashAll_finish h3
    rw [run_lift] at h4
    unfold digestToTci at h4
    by_cases hd : d.length = cfg.tciSize
    · rw [dif_pos hd] at h4
      simp only [pure_iff] at h4
      cases h4.1
    · rw [dif_neg hd] at h4
      simp only [Prod.mk.injEq, Except.error.injEq] at h4
      rw [← h4.1]
      exact .digest hm hf hd

/-- The handles stored in `st` are among those of `st0` and one other. -/
def NearHandles (st0 st : State cfg) : Prop :=
  ∃ x : Handle, ∀ i, i < cfg.maxHandles →
    (∃ j, j < cfg.maxHandles ∧ (st0.at j).handle = (st.at i).handle) ∨ (st.at i).handle = x

theorem NearHandles.refl (st : State cfg) : NearHandles st st :=
  ⟨Handle.default, fun i hi => .inl ⟨i, hi, rfl⟩⟩

theorem Draws.last_error {ops : Ops σ} {l : List Handle} {e : CryptoErr} : ∀ {w w' : σ},
    Draws ops w (l.map .ok ++ [.error e]) w' → ∃ w, (ops.rand w).1 = .error e := by
  induction l with
  | nil =>
    intro w w' h
    cases h with
    | cons h1 h2 => exact ⟨w, by rw [h1]⟩
  | cons a l ih =>
    intro w w' h
    cases h with
    | cons h1 h2 => exact ih h2

theorem generate_fault {ops : Ops σ} {st0 st : State cfg} (hn : NearHandles st0 st)
    {s s' : Sys cfg σ} {e : Err} (hs : s.st = st)
    (h : (generateNewHandle ops : M cfg σ Handle) s = (.error e, s')) : DrawFault ops st0 e := by
  obtain ⟨_, _, bad, hb, h1 | ⟨_, ce, h2, h3⟩ | ⟨_, x, _, h3, _⟩⟩ := C47_generate h
  · obtain ⟨h1, h2, h3⟩ := h1
    cases h3
    obtain ⟨x, hx⟩ := hn
    refine .inl ⟨rfl, _, _, _, x, h2, h1, fun y hy => ?_⟩
    rcases hb y hy with h | ⟨i, hi, h⟩
    · exact .inl h
    · rw [hs] at h
      rcases hx i hi with ⟨j, hj, h4⟩ | h4
      · exact .inr (.inl ⟨j, hj, h4.trans h⟩)
      · exact .inr (.inr (h.symm.trans h4))
  · cases h3
    obtain ⟨w, hw⟩ := h2.last_error
    exact .inr ⟨_, w, rfl, hw⟩
  · cases h3

theorem DrawFault.fault {e : Err} (hc : c0.draws) (h : DrawFault env.toOps s0.st e) : EnvFault env s0 c0 e := by
  rcases h with ⟨rfl, h⟩ | ⟨ce, w, rfl, h⟩
  · exact .stuck hc h
  · exact .crypto ⟨w, .inl ⟨hc, h⟩⟩

theorem generate_errs (hc : c0.draws) {st : State cfg} (hn : NearHandles s0.st st) :
    Faulty env s0 c0 st (generateNewHandle env.toOps : M cfg σ Handle) := by
  intro s s' e hs hl h
  exact (generate_fault hn hs h).fault hc

theorem rollHandle_errs (hc : c0.draws) {st : State cfg} (hn : NearHandles s0.st st) (c : Context cfg) :
    Faulty env s0 c0 st (rollHandle env.toOps c) := by
  unfold rollHandle
  split
  · exact Faulty.pure _
  · exact Faulty.bind (generateNewHandle_world _) (generate_errs hc hn) fun _ => Faulty.pure _

theorem pickHandle_errs (hc : c0.draws) (d : Bool) :
    Faulty env s0 c0 s0.st (pickHandle env.toOps d : M cfg σ Handle) := by
  unfold pickHandle
  split
  · exact Faulty.pure _
  · exact generate_errs hc (NearHandles.refl _)

theorem getProfile_errs (hc : c0 = .getProfile ∨ c0.signs) (st : State cfg) (x : U32) :
    Faulty env s0 c0 st (getProfile env.toOps x : M cfg σ Bytes) := by
  refine Faulty.bind (WorldOnly.platform _) (Faulty.platform fun w e h => ?_) fun _ =>
    Faulty.bind (WorldOnly.platform _) (Faulty.platform fun w e h => ?_) fun _ => Faulty.pure _
  · exact .platform ⟨w, .inl ⟨hc, .inl h⟩⟩
  · exact .platform ⟨w, .inl ⟨hc, .inr h⟩⟩

theorem hashNodes_errs (hc : c0.measures ∨ c0.signs) (st : State cfg) (l : List (Context cfg)) : ∀ (a b : Bool),
    Faulty env s0 c0 st (hashNodes env.toOps (l.map .ok) a b) := by
  induction l with
  | nil => intro a b; exact Faulty.pure _
  | cons x l ih =>
    intro a b
    refine Faulty.bind (WorldOnly.lift _) ?_ fun y =>
      Faulty.bind (WorldOnly.crypto _) (Faulty.crypto fun w e h => ?_) fun _ =>
      Faulty.bind (WorldOnly.crypto _) (Faulty.crypto fun w e h => ?_) fun _ => ih _ _
    · intro s s' e _ _ h
      rw [lift_iff] at h; cases h.1
    · exact .crypto ⟨w, .inr (.inl ⟨hc, .inr (.inr (.inl ⟨_, h⟩))⟩)⟩
    · exact .crypto ⟨w, .inr (.inl ⟨hc, .inr (.inr (.inl ⟨_, h⟩))⟩)⟩

theorem diceLoop_errs' (n : Nat) : ∀ (off : U32) (s s' : Sys cfg σ) (e : Err),
    diceLoop env.toOps n off s = (.error e, s') →
    (e = .panic ∧ ChainGoes env.toOps n off s.w) ∨ (∃ ce, e = .crypto ce ∧ ∃ w b, (env.hashUpdate b w).1 = .error ce) ∨
    (e = .internal .certChainChunkSliceOob ∧ ∃ off len ch w w',
      env.certChain off 2048 w = (.ok (len, ch), w') ∧ 2048 < len.toNat) := by
  induction n with
  | zero =>
    intro off s s' e h
    simp only [diceLoop, fail_iff] at h
    cases h.1; exact .inl ⟨rfl, .zero⟩
  | succ n ih =>
    intro off s s' e h
    unfold diceLoop at h
    rcases hc : env.certChain off 2048 s.w with ⟨pe | ⟨len, ch⟩, w1⟩
    · simp only [hc, Prod.mk.injEq, reduceCtorEq, false_and] at h
    · simp only [hc] at h
      rw [run_failIf] at h
      by_cases hl : 2048 < len.toNat
      · rw [if_pos (by simpa using hl)] at h
        cases h
        exact .inr (.inr ⟨rfl, _, _, _, _, _, hc, hl⟩)
      · rw [if_neg (by simpa using hl), bind_iff] at h
        rcases h with ⟨e', h1, h2⟩ | ⟨_, s1, h1, h2⟩
        · cases h2
          rw [crypto_iff] at h1
          rcases h1 with ⟨ce, w', h1, h2, _⟩ | ⟨_, _, _, h2, _⟩
          · cases h2
            exact .inr (.inl ⟨ce, rfl, _, _, by rw [h1]⟩)
          · cases h2
        · rw [crypto_iff] at h1
          rcases h1 with ⟨_, _, _, h3, _⟩ | ⟨_, w2, h1, _, rfl⟩
          · cases h3
          · rcases ih _ _ _ _ h2 with ⟨h3, h4⟩ | h3 | h3
            · exact .inl ⟨h3, .succ hc h1 h4⟩
            · exact .inr (.inl h3)
            · exact .inr (.inr h3)

theorem diceLoop_errs (hc : c0.signs) (st : State cfg) :
    Faulty env s0 c0 st (diceLoop env.toOps cfg.diceFuel 0 : M cfg σ Unit) := by
  intro s s' e _ _ h
  rcases diceLoop_errs' _ _ _ _ _ h with ⟨rfl, h3⟩ | ⟨ce, rfl, w, b, h3⟩ | ⟨rfl, _, _, _, _, _, h1, h2⟩
  · exact .endless hc h3
  · exact .crypto ⟨w, .inr (.inl ⟨.inr hc, .inr (.inr (.inl ⟨b, h3⟩))⟩)⟩
  · exact .chunk hc h1 h2

theorem measurement_errs (hs : c0.signs) {st : State cfg} (wf : WF st) {i : Nat} (hi : Live st i) :
    Faulty env s0 c0 st (computeMeasurementHash env.toOps i : M cfg σ Bytes) := by
  have hc : c0.measures ∨ c0.signs := .inr hs
  obtain ⟨l, hl⟩ := wf.path i hi
  obtain ⟨it, h1, h2⟩ := ChainIter.new_path hl
  have h3 := items_rem (cfg.maxHandles + 2) h2 (by have := hl.length_le; omega)
  refine Faulty.bind (WorldOnly.crypto _) (Faulty.crypto fun w e h => ?_) fun _ =>
    Faulty.bind (WorldOnly.crypto _) (Faulty.crypto fun w e h => ?_) fun _ => ?_
  · exact .crypto ⟨w, .inr (.inl ⟨hc, .inl h⟩)⟩
  · exact .crypto ⟨w, .inr (.inl ⟨hc, .inr (.inl h)⟩)⟩
  intro s s' e hst hl h
  rw [run_get, hst, h1, run_lift] at h
  simp only [h3] at h
  refine (Faulty.bind (x := hashNodes env.toOps (l.map fun i => .ok (st.at i)) false false)
    (hashNodes_world _ _ _ _) ?_ ?_) s s' e hst hl h
  · have := hashNodes_errs (env := env) (s0 := s0) (c0 := c0) hc st (l.map st.at) false false
    rwa [List.map_map] at this
  · rintro ⟨a, b⟩
    refine Faulty.bind ?_ ?_ fun _ => Faulty.bind ?_ ?_ fun _ => Faulty.crypto fun w e h => ?_
    · exact WorldOnly.when (WorldOnly.bind (internalInfo_world _ _) fun _ => WorldOnly.crypto _)
    · unfold M.when
      split
      · refine Faulty.bind (internalInfo_world _ _) ?_ fun _ => Faulty.crypto fun w e h => ?_
        · exact Faulty.bind (getProfile_world _ _) (getProfile_errs (.inr hs) _ _) fun _ => Faulty.pure _
        · exact .crypto ⟨w, .inr (.inl ⟨hc, .inr (.inr (.inl ⟨_, h⟩))⟩)⟩
      · exact Faulty.pure _
    · exact WorldOnly.when (diceLoop_world _ _ _)
    · unfold M.when
      split
      · exact diceLoop_errs hs st
      · exact Faulty.pure _
    · exact .crypto ⟨w, .inr (.inl ⟨hc, .inr (.inr (.inr h))⟩)⟩

theorem signWith_errs (hs : c0.signs) {st : State cfg} (wf : WF st) {i : Nat} (hi : Live st i) (l : Bytes)
    (d : SignData) : Faulty env s0 c0 st (signWith env.toOps i l d : M cfg σ Sig) := by
  refine Faulty.bind (computeMeasurementHash_world _ _) (measurement_errs hs wf hi) fun _ =>
    Faulty.bind (WorldOnly.crypto _) (Faulty.crypto fun w e h => ?_) fun _ =>
    Faulty.bind (WorldOnly.crypto _) (Faulty.crypto fun w e h => ?_) fun _ =>
      Faulty.crypto fun w e h => ?_
  · exact .crypto ⟨w, .inr (.inr ⟨hs, .inl ⟨_, _, h⟩⟩)⟩
  · exact .crypto ⟨w, .inr (.inr ⟨hs, .inr (.inl ⟨_, _, _, h⟩)⟩)⟩
  · exact .crypto ⟨w, .inr (.inr ⟨hs, .inr (.inr ⟨_, _, h⟩)⟩)⟩

/-! ### Deciding the rules -/

/-- Either the first applicable rule and `R`, or none and `G`. -/
def Judged (L : List Rule) (R : Err → Prop) (G : Prop) : Prop :=
  (∃ e, FirstRefusal L e ∧ R e) ∨ (NoRefusal L ∧ G)

theorem Judged.nil {R : Err → Prop} {G : Prop} (h : G) : Judged [] R G :=
  .inr ⟨fun _ h => (List.not_mem_nil h).elim, h⟩

theorem Judged.hit {p : Prop} {e : Err} {L : List Rule} {R : Err → Prop} {G : Prop} (hp : p)
    (hr : R e) : Judged ((p, e) :: L) R G := .inl ⟨e, .inl ⟨hp, rfl⟩, hr⟩

theorem Judged.miss {p : Prop} {e : Err} {L : List Rule} {R : Err → Prop} {G : Prop} (hp : ¬ p)
    (h : Judged L R G) : Judged ((p, e) :: L) R G := by
  rcases h with ⟨e', h1, h2⟩ | ⟨h1, h2⟩
  · exact .inl ⟨e', .inr ⟨hp, h1⟩, h2⟩
  · refine .inr ⟨fun x hx => ?_, h2⟩
    rcases List.mem_cons.mp hx with rfl | hx
    · exact hp
    · exact h1 x hx

/-- One check of the code against one rule. -/
theorem Judged.check {p : Prop} {b : Bool} {e : Err} {L : List Rule} {R : Err → Prop} {G : Prop}
    {f : Unit → M cfg σ α} {s s' : Sys cfg σ} {r : Except Err α}
    (h : (M.failIf b e >>= f) s = (r, s')) (hb : b = true ↔ p)
    (hR : r = .error e → s' = s → R e) (hn : ¬ p → f () s = (r, s') → Judged L R G) :
    Judged ((p, e) :: L) R G := by
  rw [run_failIf] at h
  by_cases hc : b = true
  · rw [if_pos hc] at h
    cases h
    exact .hit (hb.mp hc) (hR rfl rfl)
  · rw [if_neg hc] at h
    exact .miss (fun hp => hc (hb.mpr hp)) (hn (fun hp => hc (hb.mpr hp)) h)

/-- The handle lookup against its two rules. -/
theorem Judged.lookup {st : State cfg} {hd : Handle} {loc : U32} {L : List Rule}
    {R : Err → Prop} {G : Prop} {f : Nat → M cfg σ α} {s s' : Sys cfg σ} {r : Except Err α}
    (h : (M.lift (st.findActive hd loc) >>= f) s = (r, s'))
    (hR : ∀ e, r = .error e → s' = s → R e)
    (hn : ∀ i, Resolves st hd loc i → f i s = (r, s') → Judged L R G) :
    Judged (lookupRules st hd loc ++ L) R G := by
  rw [run_lift] at h
  rcases hf : st.findActive hd loc with e | i
  · rw [hf] at h
    cases h
    obtain ⟨h1, ⟨rfl, h2⟩ | ⟨rfl, h2⟩⟩ := findActive_error hf
    · exact .miss (fun h => h h2) (.hit (fun ⟨i, hi⟩ => h1 i hi) (hR _ rfl rfl))
    · exact .hit h2 (hR _ rfl rfl)
  · rw [hf] at h
    have hr := findActive_resolves hf
    exact .miss (fun h => h ⟨i, hr.1.1, hr.1.2.2⟩) (.miss (fun h => h ⟨i, hr.1⟩) (hn i hr h))

theorem named_iff {st : State cfg} {hd : Handle} {loc : U32} {i : Nat} {P : Nat → Prop}
    (hr : Resolves st hd loc i) : Named st hd loc P ↔ P i := by
  refine ⟨fun ⟨j, hj, hp⟩ => by rw [hr.unique hj]; exact hp, fun hp => ⟨i, hr, hp⟩⟩

theorem run_get_ctx {st : State cfg} {hd : Handle} {loc : U32} {i : Nat}
    (hr : Resolves st hd loc i) {e : Err} {f : Context cfg → M cfg σ α} {s : Sys cfg σ} :
    (M.okOr st.contexts[i]? e >>= f) s = f (st.at i) s := by
  rw [run_okOr, hr.get]

/-- The verdict on a command. -/
def Verdict (env : Env cfg σ) (c : Cmd cfg) (loc : U32) (s : Sys cfg σ) (r : Except Err Nat)
    (s' : Sys cfg σ) : Prop :=
  Judged (earlyRules s.st loc c) (fun e => r = .error e ∧ s' = s)
    (Judged (lateRules s.st loc c)
      (fun e => s'.st = s.st ∧ s'.out = s.out ∧ (r = .error e ∨
        ∃ k e', c = .derive k ∧ Bit k.flags DFlag.retainParent ∧ k.handle ≠ Handle.default ∧
          r = .error e' ∧ DrawFault env.toOps s.st e'))
      ((∃ n, r = .ok n) ∨ ∃ e, r = .error e ∧ EnvFault env s c e))

theorem Faulty.allowed {x : M cfg σ Nat} {s s' : Sys cfg σ} {r : Except Err Nat}
    (hx : Faulty env s0 c0 s.st x) (hl : s.out.length < c0.replyMax → NoFit env s0 c0)
    (h : x s = (r, s')) : (∃ n, r = .ok n) ∨ ∃ e, r = .error e ∧ EnvFault env s0 c0 e := by
  rcases r with e | n
  · exact .inr ⟨e, rfl, hx s s' e rfl hl h⟩
  · exact .inl ⟨n, rfl⟩

theorem sys_fit {env : Env cfg σ} {c : Cmd cfg} (s : Sys cfg σ) :
    s.out.length < c.replyMax → NoFit env s c := .inl

theorem Faulty.bindR {st : State cfg} {x : M cfg σ α} {f : α → M cfg σ β}
    (hw : WorldOnly x) (hx : Faulty env s0 c0 st x)
    (hf : ∀ a s s', s.st = st → x s = (.ok a, s') → Faulty env s0 c0 st (f a)) :
    Faulty env s0 c0 st (x >>= f) := by
  intro s s' e hs hl h
  rw [bind_iff] at h
  rcases h with ⟨e', h1, h2⟩ | ⟨a, s1, h1, h2⟩
  · cases h2; exact hx s s' _ hs hl h1
  · have := hw s
    rw [h1] at this
    exact hf a s s1 hs h1 s1 s' e (this.1.trans hs) (by rw [this.2]; exact hl) h2

theorem getProfile_length {ops : Ops σ} {x : U32} {b : Bytes} {s s' : Sys cfg σ}
    (h : getProfile ops x s = (.ok b, s')) : b.length ≤ (Cmd.getProfile : Cmd cfg).replyMax := by
  simp only [getProfile, bind_iff, pure_iff] at h
  rcases h with ⟨_, _, h1⟩ | ⟨_, _, _, h1⟩
  · cases h1
  · rcases h1 with ⟨_, _, h1⟩ | ⟨_, _, _, h1, _⟩
    · cases h1
    · cases h1; simp [profileBytes, hdrBytes_length, le32_length, le16, Cmd.replyMax]

theorem verdict_getProfile {loc : U32} {s s' : Sys cfg σ} {r : Except Err Nat}
    (h : getProfileCmd env.toOps s = (r, s')) : Verdict env .getProfile loc s r s' := by
  unfold getProfileCmd at h
  rw [run_get] at h
  refine .nil (.nil (Faulty.allowed (c0 := .getProfile) (Faulty.bindR (getProfile_world _ _) (getProfile_errs (.inl rfl) _ _)
    fun b _ _ _ hb => Faulty.reply ?_ _) (sys_fit s) h))
  exact getProfile_length hb

theorem verdict_chain {k : ChainCmd} {loc : U32} {s s' : Sys cfg σ} {r : Except Err Nat}
    (h : getCertChain env.toOps k s = (r, s')) : Verdict env (.chain k) loc s r s' := by
  unfold getCertChain at h
  refine .check h (by rw [decide_eq_true_eq]) (fun h1 h2 => ⟨h1, h2⟩) fun _ h => .nil (.nil ?_)
  refine Faulty.allowed (c0 := .chain k) (Faulty.bind (WorldOnly.platform _) (Faulty.platform fun w e h => ?_)
    fun ⟨len, chunk⟩ => Faulty.reply ?_ _) (sys_fit s) h
  · exact .platform ⟨w, .inr (.inl ⟨_, rfl, h⟩)⟩
  · simp [certChainBytes, hdrBytes_length, le32_length, Cmd.replyMax]

theorem newHandleBytes_length (p : Profile) (h : Handle) : (newHandleBytes p h).length ≤ 28 := by
  simp [newHandleBytes, hdrBytes_length]

theorem verdict_init {f loc : U32} {s s' : Sys cfg σ} {r : Except Err Nat}
    (h : initCtx env.toOps f loc s = (r, s')) : Verdict env (.init f) loc s r s' := by
  unfold initCtx at h
  rw [run_get, run_failIf] at h
  by_cases h1 : initDefaultFlag f = true ∧ s.st.hasInitialized = true
  · rw [if_pos (by simp [h1])] at h
    cases h
    exact .hit h1 ⟨rfl, rfl⟩
  refine .miss h1 ?_
  by_cases h2 : initSimFlag f = true ∧ simBit s.st.support = false
  · rw [if_pos (by simp [h2])] at h
    cases h
    refine .hit ⟨h2.1, ?_⟩ ⟨rfl, rfl⟩
    rw [State.supports]; exact not_bit h2.2
  refine .miss (fun ⟨h3, h4⟩ => h2 ⟨h3, by rw [State.supports] at h4; exact Bool.eq_false_iff.mpr h4⟩) ?_
  rw [if_neg (by
    rw [Bool.or_eq_true, Bool.and_eq_true, Bool.and_eq_true, Bool.not_eq_true']
    exact not_or.mpr ⟨h1, h2⟩)] at h
  refine .check h ?_ (fun h1 h2 => ⟨h1, h2⟩) fun hx h => ?_
  · show _ ↔ (initDefaultFlag f = true ↔ initSimFlag f = true)
    cases initDefaultFlag f <;> cases initSimFlag f <;> simp
  rw [run_okOr] at h
  rcases hn : s.st.nextInactive with _ | idx
  · rw [hn] at h
    cases h
    exact .hit (noFree_iff.mp hn) ⟨rfl, rfl⟩
  · rw [hn] at h
    have hff := firstFree_iff.mp hn
    refine .miss (fun hall => hall idx hff.1 hff.2.1) (.nil (.nil ?_))
    by_cases hd : initDefaultFlag f = true
    · simp only [initHandle, if_pos hd] at h
      refine Faulty.allowed (c0 := .init f) (x := M.modify (fun st : State cfg => { st with hasInitialized := true }) >>= fun _ =>
        M.modify (fun st => st.setCtx idx (Context.new.activate (initArgs f loc Handle.default))) >>= fun _ =>
        writeAt 0 (newHandleBytes cfg.profile Handle.default) >>= fun _ =>
          Pure.pure (newHandleBytes cfg.profile Handle.default).length)
        (Faulty.modify (Faulty.modify (Faulty.reply (newHandleBytes_length _ _) _))) (sys_fit s) h
    · simp only [initHandle, if_neg hd] at h
      exact Faulty.allowed (c0 := .init f) (Faulty.bind (generateNewHandle_world _) (generate_errs (by exact trivial) (NearHandles.refl _))
        fun _ => Faulty.modify (Faulty.reply (newHandleBytes_length _ _) _)) (sys_fit s) h

theorem verdict_rotate {k : RotateCmd} {loc : U32} {s s' : Sys cfg σ} {r : Except Err Nat}
    (h : rotateCtx env.toOps k loc s = (r, s')) : Verdict env (.rotate k) loc s r s' := by
  unfold rotateCtx at h
  rw [run_get] at h
  refine .check h ?_ (fun h1 h2 => ⟨h1, h2⟩) fun _ h => ?_
  · rw [Bool.not_eq_true', State.supports, Bit, Bool.not_eq_true]; rfl
  refine .lookup h (fun e h1 h2 => ⟨h1, h2⟩) fun i hr h => ?_
  refine .check h ?_ (fun h1 h2 => ⟨h1, h2⟩) fun _ h => .nil (.nil ?_)
  · rw [Bool.and_eq_true, named_iff hr]
    refine and_congr Iff.rfl ?_
    rw [Bool.or_eq_true]
    constructor
    · rintro (h1 | h1)
      · rcases hf : s.st.findActive Handle.default loc with e | j
        · rw [hf] at h1; cases h1
        · exact .inl ⟨j, (findActive_resolves hf).1⟩
      · unfold nonDefaultExists at h1
        rw [List.any_eq_true] at h1
        obtain ⟨⟨c, j⟩, hm, h1⟩ := h1
        rw [List.mem_zipIdx_iff_getElem?] at hm
        have e := at_of_getElem? hm
        simp only [Bool.and_eq_true, beq_iff_eq, bne_iff_ne] at h1
        exact .inr ⟨j, h1.2, by rw [e]; exact h1.1.1.1, by rw [e]; exact h1.1.1.2⟩
    · rintro (⟨j, hj⟩ | ⟨j, h1, h2, h3⟩)
      · obtain ⟨d, hd⟩ := exists_resolves hj
        rw [findActive_iff.mpr hd]; exact .inl rfl
      · by_cases hd : (s.st.at j).handle = Handle.default
        · obtain ⟨d, hd⟩ := exists_resolves (st := s.st) (i := j) ⟨h2, hd, h3⟩
          rw [findActive_iff.mpr hd]; exact .inl rfl
        · right
          rw [← Bool.not_eq_false]
          exact fun hf => h1 (nonDefaultExists_false hf j h2 h3 hd)
  · refine Faulty.allowed (c0 := .rotate k) (Faulty.bind (pickHandle_world _ _) (pickHandle_errs (by exact trivial) _) fun hd => ?_) (sys_fit s) h
    intro s1 s1' e h1 hl h
    rw [run_get_ctx hr] at h
    exact Faulty.modify (Faulty.reply (newHandleBytes_length _ _) _) s1 s1' e h1 hl h

theorem verdict_destroy {hd : Handle} {loc : U32} {s s' : Sys cfg σ} {r : Except Err Nat}
    (wf : WF s.st) (h : destroyCtx hd loc s = (r, s')) : Verdict env (.destroy hd) loc s r s' := by
  unfold destroyCtx at h
  rw [run_get] at h
  rcases hf : s.st.findActive hd loc with e | i
  · have he : destroyContext s.st hd loc = .error e := by
      unfold destroyContext destroySet; rw [hf]; rfl
    rw [he] at h
    cases h
    obtain ⟨h1, ⟨rfl, h2⟩ | ⟨rfl, h2⟩⟩ := findActive_error hf
    · exact .miss (fun h => h h2) (.hit (fun ⟨i, hi⟩ => h1 i hi) ⟨rfl, rfl⟩)
    · exact .hit h2 ⟨rfl, rfl⟩
  · obtain ⟨S, hS, _⟩ := destroySet_spec wf hf
    have he : destroyContext s.st hd loc = .ok (s.st.clear S) := by
      unfold destroyContext; rw [hS]; rfl
    rw [he, run_lift] at h
    have hr := findActive_resolves hf
    refine .miss (fun h => h ⟨i, hr.1.1, hr.1.2.2⟩) (.miss (fun h => h ⟨i, hr.1⟩) (.nil (.nil ?_)))
    exact Faulty.allowed (c0 := .destroy hd) (Faulty.modify (Faulty.reply (by simp [hdrBytes_length, Cmd.replyMax]) _)) (sys_fit s) h

theorem verdict_sign {k : SignCmd} {loc : U32} {s s' : Sys cfg σ} {r : Except Err Nat}
    (wf : WF s.st) (h : signCmd env.toOps k loc s = (r, s')) : Verdict env (.sign k) loc s r s' := by
  unfold signCmd at h
  rw [run_lift] at h
  have key : (∃ d, k.data = .ok d ∧ ¬ k.TooLong) ∨
      (k.data = .error .invalidArgument ∧ k.TooLong) := by
    cases k with
    | mldsa87Raw a b c n d =>
      by_cases hn : n.toNat ≤ 1024
      · exact .inl ⟨_, if_pos hn, by simpa [SignCmd.TooLong] using hn⟩
      · exact .inr ⟨if_neg hn, by simpa [SignCmd.TooLong] using hn⟩
    | _ => exact .inl ⟨_, rfl, id⟩
  rcases key with ⟨d, hd, hk⟩ | ⟨hd, hk⟩
  · rw [hd] at h
    simp only [run_get] at h
    refine .miss hk (.lookup h (fun e h1 h2 => ⟨h1, h2⟩) fun i hr h => ?_)
    rw [run_get_ctx hr] at h
    refine .check h ?_ (fun h1 h2 => ⟨h1, h2⟩) fun _ h => .nil (.nil ?_)
    · rw [named_iff hr]; simp
    · exact Faulty.allowed (c0 := .sign k) (Faulty.bind (signWith_world _ _ _ _) (signWith_errs (by exact trivial) wf hr.1.live _ _) fun _ =>
        Faulty.bind (rollHandle_world _ _) (rollHandle_errs (by exact trivial) (NearHandles.refl _) _) fun _ =>
        Faulty.modify (Faulty.reply (signBytes_length _ _ _) _)) (sys_fit s) h
  · rw [hd] at h
    cases h
    exact .hit hk ⟨rfl, rfl⟩

theorem runCert_faulty {kind : CertKind} {args : CertArgs} {base : Nat} {s s' : Sys cfg σ}
    {r : Except Err α} {f : CertResult → M cfg σ α}
    {c0 : Cmd cfg} (hm : c0.makesCert)
    (h : (runCert env kind args base >>= f) s = (r, s')) :
    (∃ e w' win', r = .error e ∧
      env.certGen kind args s.st s.w (s.out.drop base) = ((.error e, w'), win')) ∨
    ∃ res w' win', env.certGen kind args s.st s.w (s.out.drop base) = ((.ok res, w'), win') ∧
      ((s.out.take base ++ win').length < c0.replyMax → NoFit env s c0) ∧
      f res ⟨s.st, w', s.out.take base ++ win'⟩ = (r, s') := by
  rw [run_bind] at h
  unfold runCert at h
  rcases hg : env.certGen kind args s.st s.w (s.out.drop base) with ⟨⟨e | res, w'⟩, win'⟩
  · simp only [hg] at h
    cases h
    exact .inl ⟨e, w', win', rfl, rfl⟩
  · simp only [hg] at h
    refine .inr ⟨res, w', win', rfl, fun hl => ?_, h⟩
    by_cases hb : s.out.length < c0.replyMax
    · exact .inl hb
    · refine .inr ⟨hm, kind, args, s.w, base, ?_⟩
      rw [hg]
      simp only [List.length_append, List.length_take, List.length_drop] at hl ⊢
      omega

theorem verdict_certify {k : CertifyCmd} {loc : U32} {s s' : Sys cfg σ} {r : Except Err Nat}
    (h : certifyKey env k loc s = (r, s')) : Verdict env (.certify k) loc s r s' := by
  unfold certifyKey at h
  rw [run_get] at h
  refine .lookup h (fun e h1 h2 => ⟨h1, h2⟩) fun i hr h => ?_
  rw [run_get_ctx hr] at h
  refine .check h ?_ (fun h1 h2 => ⟨h1, h2⟩) fun _ h => ?_
  · rw [Bool.and_eq_true, Bool.not_eq_true', beq_iff_eq, State.supports, Bit, Bool.not_eq_true]; rfl
  refine .check h ?_ (fun h1 h2 => ⟨h1, h2⟩) fun _ h => ?_
  · rw [Bool.and_eq_true, Bool.not_eq_true', beq_iff_eq, named_iff hr]
  refine .check h ?_ (fun h1 h2 => ⟨h1, h2⟩) fun _ h => ?_
  · rw [Bool.and_eq_true, Bool.not_eq_true', beq_iff_eq, State.supports, Bit, Bool.not_eq_true]; rfl
  rw [run_failIf, if_neg (by simp [hr.1.2.2]), run_lift] at h
  have key : (∃ kind, certKindOf k.format = .ok kind ∧ ¬ (k.format ≠ 0 ∧ k.format ≠ 1)) ∨
      (certKindOf k.format = .error .invalidArgument ∧ (k.format ≠ 0 ∧ k.format ≠ 1)) := by
    unfold certKindOf
    by_cases h0 : k.format = 0
    · rw [if_pos h0]; exact .inl ⟨_, rfl, fun h => h.1 h0⟩
    · rw [if_neg h0]
      by_cases h1 : k.format = 1
      · rw [if_pos h1]; exact .inl ⟨_, rfl, fun h => h.2 h1⟩
      · rw [if_neg h1]; exact .inr ⟨rfl, h0, h1⟩
  have hiss : ∀ {kind}, certKindOf k.format = .ok kind → (Cmd.certify k : Cmd cfg).issues kind := by
    intro kind hk
    unfold certKindOf at hk
    by_cases h0 : k.format = 0
    · rw [if_pos h0] at hk; exact .inl ⟨h0, (Except.ok.inj hk).symm⟩
    · rw [if_neg h0] at hk
      by_cases h1 : k.format = 1
      · rw [if_pos h1] at hk; exact .inr ⟨h1, (Except.ok.inj hk).symm⟩
      · rw [if_neg h1] at hk; cases hk
  have hmax : (Cmd.certify k : Cmd cfg).replyMax = certifyHdrSize k.variant := by cases k <;> rfl
  rcases key with ⟨kind, hk, hn⟩ | ⟨hk, hn⟩
  · rw [hk] at h
    refine .miss hn (.nil (.nil ?_))
    rcases runCert_faulty (c0 := .certify k) trivial h with ⟨e, _, _, h1, h2⟩ | ⟨res, w', win', hg, hl, h⟩
    · rw [← hmax] at h2
      exact .inr ⟨e, h1, .cert (hiss hk) ⟨i, hr⟩ h2⟩
    · refine Faulty.allowed (c0 := .certify k) (s := ⟨s.st, w', s.out.take (certifyHdrSize k.variant) ++ win'⟩)
        (Faulty.bind (rollHandle_world _ _)
        (rollHandle_errs (by exact trivial) (NearHandles.refl _) _) fun c' => Faulty.modify ?_) hl h
      rcases hb : certifyHdrBytes k.variant cfg.profile c'.handle res.certSize res.pubKey with _ | hdr
      · intro s1 s1' e hs1 _ h
        rw [run_okOr] at h
        cases h
        exact .wrongKey rfl ⟨_, _, _, _, _, _, _, hg, certifyHdrBytes_none hb⟩
      · intro s1 s1' e hs1 hl h
        rw [run_okOr] at h
        exact Faulty.reply (certifyHdrBytes_length hb) _ s1 s1' e hs1 hl h
  · rw [hk] at h
    cases h
    exact .hit hn ⟨rfl, rfl⟩

theorem verdict_update {k : UpdateCmd cfg} {loc : U32} {s s' : Sys cfg σ} {r : Except Err Nat}
    (h : updateCtx env.toOps k loc s = (r, s')) :
    Verdict env (.update k) loc s r s' := by
  unfold updateCtx at h
  refine .check h isDefault_iff (fun h1 h2 => ⟨h1, h2⟩) fun _ h => ?_
  rw [run_get, run_lift] at h
  rcases hf : s.st.findActive k.parentHandle loc with e | i
  · rw [hf] at h
    cases h
    exact .hit (fun ⟨i, hi⟩ => (findActive_error hf).1 i hi) ⟨rfl, rfl⟩
  rw [hf] at h
  have hr := findActive_resolves hf
  refine .miss (fun h => h ⟨i, hr.1⟩) ?_
  simp only [mapParentErr] at h
  rw [run_get_ctx hr, run_okOr] at h
  rcases hc : findChildOfType s.st k.tciType (childList cfg (s.st.at i).children) with _ | j
  · rw [hc] at h
    cases h
    refine .hit ?_ ⟨rfl, rfl⟩
    rw [named_iff hr]
    rintro ⟨j, h1, h2, h3, _⟩
    unfold findChildOfType at hc
    rw [List.find?_eq_none] at hc
    have hlt : j < cfg.maxHandles := lt_of_live (live_of_active h2)
    have := hc j (by rw [mem_childList]; exact ⟨hlt, h1⟩)
    rw [getElem?_of_lt hlt] at this
    simp [h2, h3] at this
  · rw [hc] at h
    have hac := findChildOfType_mem hc
    have hlt : j < cfg.maxHandles := lt_of_live (live_of_active hac.2.1)
    refine .miss (fun h => h (by rw [named_iff hr]; exact ⟨j, hac⟩)) (.nil (.nil ?_))
    simp only [run_okOr, getElem?_of_lt hlt] at h
    refine Faulty.allowed (c0 := .update k) (Faulty.bind (addTci_world _ _ _ _) (addTci_errs (by exact trivial) s.st hac.2.1 rfl) fun ch1 =>
      Faulty.bindR (rollHandle_world _ _) (rollHandle_errs (by exact trivial) (NearHandles.refl _) _) fun p1 _ _ _ hp => ?_)
      (sys_fit s) h
    refine Faulty.modify (Faulty.bind (rollHandle_world _ _) (rollHandle_errs (by exact trivial) ?_ _) fun _ =>
      Faulty.modify (Faulty.reply (by simp [updateBytes, hdrBytes_length, Cmd.replyMax]) _))
    refine ⟨p1.handle, fun x hx => ?_⟩
    by_cases he : x = i
    · subst he; rw [at_setCtx_self hr.lt]; exact .inr rfl
    · rw [at_setCtx_ne hr.lt _ he]; exact .inl ⟨x, hx, rfl⟩

theorem badArgs_iff {p : Context cfg} {k : DeriveCmd cfg} :
    deriveBadArgs p k = true ↔ BadDerive p k.flags := by
  show _ ↔ ((k.allowX509 = true ∧ p.allowX509 = false) ∨
    (k.exportCdi = true ∧ (¬ k.createCert = true ∨ k.recursive = true ∨ k.changeLoc = true ∨
      p.ctype = .simulation ∨ p.allowExport = false)) ∨
    (k.recursive = true ∧ (k.retain = true ∨ k.allowRecursive = true ∨ p.allowRecursive = false)))
  unfold deriveBadArgs
  have hc : (p.ctype == .simulation) = true ↔ p.ctype = .simulation := beq_iff_eq
  simp only [Bool.or_eq_true, Bool.and_eq_true, Bool.not_eq_true', hc, Bool.not_eq_true]
  constructor
  · rintro ((((((((⟨a, b⟩ | ⟨a, b⟩) | ⟨a, b⟩) | ⟨a, b⟩) | ⟨a, b⟩) | ⟨a, b⟩) | ⟨a, b⟩) | ⟨a, b⟩) | ⟨a, b⟩)
    · exact .inl ⟨b, a⟩
    · exact .inr (.inl ⟨a, .inl b⟩)
    · exact .inr (.inl ⟨a, .inr (.inl b)⟩)
    · exact .inr (.inl ⟨a, .inr (.inr (.inl b))⟩)
    · exact .inr (.inl ⟨a, .inr (.inr (.inr (.inl b)))⟩)
    · exact .inr (.inl ⟨a, .inr (.inr (.inr (.inr b)))⟩)
    · exact .inr (.inr ⟨a, .inl b⟩)
    · exact .inr (.inr ⟨b, .inr (.inl a)⟩)
    · exact .inr (.inr ⟨b, .inr (.inr a)⟩)
  · rintro (⟨a, b⟩ | ⟨a, b | b | b | b | b⟩ | ⟨a, b | b | b⟩) <;> simp [a, b]

theorem typeUnique_total {st : State cfg} {ty : U32} {l : List Nat}
    (hl : ∀ k ∈ l, k < cfg.maxHandles) :
    typeUnique st ty l = .ok (! l.any fun k => (st.at k).tci.tciType == ty) := by
  induction l with
  | nil => rfl
  | cons a l ih =>
    unfold typeUnique
    rw [getElem?_of_lt (hl a List.mem_cons_self)]
    simp only [List.any_cons]
    by_cases h : ((st.at a).tci.tciType == ty) = true
    · rw [if_pos h, h]; rfl
    · rw [if_neg h, ih fun k hk => hl k (List.mem_cons_of_mem _ hk)]
      rw [Bool.not_eq_true] at h; rw [h]; rfl

theorem countContexts_zero {st : State cfg} {loc : U32} :
    st.countContexts (fun x => x.state == .active && x.locality == loc) = 0 ↔
      ∀ j, (st.at j).state = .active → (st.at j).locality ≠ loc := by
  unfold State.countContexts
  rw [List.length_eq_zero_iff, List.filter_eq_nil_iff]
  constructor
  · intro h j h1 h2
    exact h _ (at_mem (lt_of_live (live_of_active h1))) (by simp [h1, h2])
  · intro h c hc
    obtain ⟨j, _, rfl⟩ := mem_contexts.mp hc
    simp only [Bool.and_eq_true, beq_iff_eq]
    exact fun ⟨h1, h2⟩ => h j h1 h2

theorem filter_length_one {l : List α} {p : α → Bool} {i : Nat} {a : α} (ha : l[i]? = some a)
    (hp : p a = true) :
    (l.filter p).length = 1 ↔ ∀ j b, l[j]? = some b → p b = true → j = i := by
  induction l generalizing i with
  | nil => simp at ha
  | cons x l ih =>
    rcases i with _ | i
    · simp only [List.getElem?_cons_zero, Option.some.injEq] at ha
      subst ha
      rw [List.filter_cons_of_pos hp, List.length_cons]
      constructor
      · intro h j b hj hb
        rcases j with _ | j
        · rfl
        · simp only [List.getElem?_cons_succ] at hj
          have h0 : l.filter p = [] := List.length_eq_zero_iff.mp (by omega)
          rw [List.filter_eq_nil_iff] at h0
          exact absurd hb (h0 b (List.mem_of_getElem? hj))
      · intro h
        have h0 : l.filter p = [] := by
          rw [List.filter_eq_nil_iff]
          intro b hb hpb
          obtain ⟨j, hj⟩ := List.getElem?_of_mem hb
          have := h (j + 1) b (by simpa using hj) hpb
          omega
        rw [h0]; rfl
    · simp only [List.getElem?_cons_succ] at ha
      by_cases hx : p x = true
      · rw [List.filter_cons_of_pos hx, List.length_cons]
        constructor
        · intro h
          have h0 : l.filter p = [] := List.length_eq_zero_iff.mp (by omega)
          rw [List.filter_eq_nil_iff] at h0
          exact absurd hp (h0 a (List.mem_of_getElem? ha))
        · intro h
          have := h 0 x rfl hx
          omega
      · rw [List.filter_cons_of_neg hx, ih ha]
        constructor
        · intro h j b hj hb
          rcases j with _ | j
          · simp only [List.getElem?_cons_zero, Option.some.injEq] at hj
            subst hj; exact absurd hb hx
          · rw [h j b (by simpa using hj) hb]
        · intro h j b hj hb
          have := h (j + 1) b (by simpa using hj) hb
          omega

theorem clash_iff {st : State cfg} {k : DeriveCmd cfg} {i : Nat} {hd : Handle} {loc tl : U32}
    (hr : Resolves st hd loc i) :
    safeToMakeChild st k i tl = false ↔ DefaultClash st k i tl := by
  show _ ↔ ((k.makeDefault = true ∧ ∃ j, (st.at j).state = .active ∧ (st.at j).locality = tl ∧
    (j ≠ i ∨ k.retain = true ∨ (st.at i).handle ≠ Handle.default)) ∨
    (¬ k.makeDefault = true ∧ ∃ d, Resolves st Handle.default tl d ∧ (d ≠ i ∨ k.retain = true)))
  unfold safeToMakeChild
  simp only
  by_cases hm : k.makeDefault = true
  · rw [if_pos hm]
    rw [hm, show ∀ A B : Prop, ((true = true ∧ A) ∨ (¬ true = true ∧ B)) ↔ A by simp]
    have hz := countContexts_zero (st := st) (loc := tl)
    rcases hd : st.findActive Handle.default tl with e | d
    · have hno := (findActive_error hd).1
      rcases hn : st.countContexts (fun x => x.state == .active && x.locality == tl) with _ | n
      · rw [hn] at hz
        have hz := hz.mp rfl
        simp only [safeToMakeDefault, okOpt]
        refine ⟨fun h => absurd h (by simp), fun ⟨j, h1, h2, _⟩ => absurd h2 (hz j h1)⟩
      · have : safeToMakeDefault k.retain i (okOpt (.error e : Except Err Nat)) (n + 1) = false := by
          cases n <;> rfl
        rw [this]
        refine ⟨fun _ => ?_, fun _ => rfl⟩
        have hex : ∃ j, (st.at j).state = .active ∧ (st.at j).locality = tl := by
          by_contra hc
          rw [hn] at hz
          have := hz.mpr fun j h1 h2 => hc ⟨j, h1, h2⟩
          omega
        obtain ⟨j, h1, h2⟩ := hex
        refine ⟨j, h1, h2, ?_⟩
        by_cases hji : j = i
        · subst hji
          exact .inr (.inr fun h3 => hno j ⟨h1, h3, h2⟩)
        · exact .inl hji
    · have hdr := findActive_resolves hd
      have h1 := filter_length_one (p := fun x => x.state == .active && x.locality == tl) hdr.get
        (by simp [hdr.1.1, hdr.1.2.2])
      rcases hn : st.countContexts (fun x => x.state == .active && x.locality == tl) with _ | _ | n
      · rw [hn] at hz
        exact absurd hdr.1.2.2 (hz.mp rfl d hdr.1.1)
      · have h1 := h1.mp hn
        have h1' : ∀ j, (st.at j).state = .active → (st.at j).locality = tl → j = d := fun j h2 h3 =>
          h1 j _ (getElem?_of_lt (lt_of_live (live_of_active h2))) (by simp [h2, h3])
        simp only [safeToMakeDefault, okOpt]
        by_cases hdi : d = i
        · subst hdi
          simp only [beq_self_eq_true, if_true, Bool.not_eq_false']
          refine ⟨fun h => ⟨d, hdr.1.1, hdr.1.2.2, .inr (.inl h)⟩, ?_⟩
          rintro ⟨j, h2, h3, h4 | h4 | h4⟩
          · exact absurd (h1' j h2 h3) h4
          · exact h4
          · exact absurd hdr.1.2.1 h4
        · rw [if_neg (by simpa using hdi)]
          exact ⟨fun _ => ⟨d, hdr.1.1, hdr.1.2.2, .inl hdi⟩, fun _ => rfl⟩
      · refine ⟨fun _ => ?_, fun _ => rfl⟩
        by_contra hc
        have : ∀ j b, st.contexts[j]? = some b → (b.state == .active && b.locality == tl) = true → j = d := by
          intro j b hj hb
          have e := at_of_getElem? hj
          subst e
          simp only [Bool.and_eq_true, beq_iff_eq] at hb
          by_contra hne
          by_cases hji : j = i
          · refine hc ⟨d, hdr.1.1, hdr.1.2.2, .inl ?_⟩
            rintro rfl; exact hne hji
          · exact hc ⟨j, hb.1, hb.2, .inl hji⟩
        have h2 := h1.mpr this
        unfold State.countContexts at hn
        omega
  · rw [if_neg hm]
    rw [Bool.not_eq_true] at hm
    rw [hm, show ∀ A B : Prop, ((false = true ∧ A) ∨ (¬ false = true ∧ B)) ↔ B by simp]
    rcases hd : st.findActive Handle.default tl with e | d
    · simp only [safeToMakeNonDefault, okOpt]
      exact ⟨fun h => absurd h (by simp), fun ⟨d, h, _⟩ => absurd h.1 ((findActive_error hd).1 d)⟩
    · have hdr := findActive_resolves hd
      simp only [safeToMakeNonDefault, okOpt]
      by_cases hdi : d = i
      · subst hdi
        simp only [beq_self_eq_true, if_true, Bool.not_eq_false']
        refine ⟨fun h => ⟨d, hdr, .inr h⟩, ?_⟩
        rintro ⟨j, hj, h | h⟩
        · exact absurd (hj.unique hdr) h
        · exact h
      · rw [if_neg (by simpa using hdi)]
        exact ⟨fun _ => ⟨d, hdr, .inl hdi⟩, fun _ => rfl⟩

theorem verdict_derive {k : DeriveCmd cfg} {loc : U32} {s s' : Sys cfg σ} {r : Except Err Nat}
    (wf : WF s.st) (h : deriveCtx env k loc s = (r, s')) :
    Verdict env (.derive k) loc s r s' := by
  unfold deriveCtx at h
  rw [run_get] at h
  refine .check h deriveUnsupported_iff (fun h1 h2 => ⟨h1, h2⟩) fun _ h => ?_
  refine .lookup h (fun e h1 h2 => ⟨h1, h2⟩) fun i hr h => ?_
  rw [run_get_ctx hr] at h
  refine .check h (by rw [named_iff hr]; exact badArgs_iff) (fun h1 h2 => ⟨h1, h2⟩) fun hbad h => ?_
  rw [named_iff hr] at hbad
  have htl : (if k.changeLoc then k.targetLocality else loc) = targetOf k loc := by
    unfold targetOf
    by_cases hc : k.changeLoc = true
    · rw [if_pos hc]; exact (if_pos hc).symm
    · rw [if_neg hc]; exact (if_neg hc).symm
  simp only [htl] at h
  by_cases hrec : k.recursive = true
  · simp only [if_pos hrec] at h
    have hrec' : Bit k.flags DFlag.recursive := hrec
    unfold deriveRecursive at h
    refine .check h ?_ (fun h1 h2 => ⟨h1, h2⟩) fun _ h => ?_
    · rw [named_iff hr, bne_iff_ne]; exact ⟨fun h => ⟨hrec, h⟩, fun h => h.2⟩
    by_cases hl : targetOf k loc = loc
    · refine .miss (fun h => h.2 hl) (.miss (fun h => h.1 hrec') (.nil ?_))
      refine .miss (fun h => h.1 hrec') (.miss (fun h => h.1 hrec') (.nil ?_))
      rw [hl] at h
      exact Faulty.allowed (c0 := .derive k) (Faulty.bind (addTci_world _ _ _ _) (addTci_errs (by exact trivial) s.st hr.1.1 hr.1.2.2)
        fun _ => Faulty.bind (rollHandle_world _ _) (rollHandle_errs (by exact trivial) (NearHandles.refl _) _) fun _ =>
        Faulty.modify (Faulty.reply (by simp [deriveBytes, hdrBytes_length, Cmd.replyMax]; split <;> omega) _)) (sys_fit s) h
    · have : addTci env.toOps (s.st.at i) k.data (targetOf k loc) s = (.error .invalidLocality, s) := by
        unfold addTci
        rw [run_failIf, if_neg (by simp [hr.1.1]), run_failIf, if_pos (by
          rw [bne_iff_ne, hr.1.2.2]; exact fun e => hl e.symm)]
      rw [run_bind, this] at h
      cases h
      exact .hit ⟨hrec', hl⟩ ⟨rfl, rfl⟩
  · have hrec' : ¬ Bit k.flags DFlag.recursive := hrec
    simp only [if_neg hrec] at h
    refine .miss (fun h => hrec h.1) (.miss (fun h => hrec h.1) ?_)
    rw [typeUnique_total (fun x hx => ((mem_childList _ _ _).mp hx).1), run_lift] at h
    refine .check h ?_ (fun h1 h2 => ⟨h1, h2⟩) fun _ h => .nil ?_
    · rw [Bool.not_not, List.any_eq_true, named_iff hr]
      refine ⟨fun ⟨j, h1, h2⟩ => ⟨hrec', j, ((mem_childList _ _ _).mp h1).2, by simpa using h2⟩, ?_⟩
      rintro ⟨_, j, h1, h2⟩
      exact ⟨j, (mem_childList _ _ _).mpr ⟨lt_of_live (wf.links.down i j h1).1, h1⟩, by simpa using h2⟩
    rw [run_bind] at h
    rcases hp : deriveParent env.toOps k (s.st.at i) s with ⟨e | p', s1⟩
    · rw [hp] at h
      cases h
      have hw := deriveParent_world env.toOps k (s.st.at i) s
      rw [hp] at hw
      have hdf : Bit k.flags DFlag.retainParent ∧ k.handle ≠ Handle.default ∧ DrawFault env.toOps s.st e := by
        unfold deriveParent at hp
        by_cases hret : k.retain = true
        · rw [if_pos hret] at hp
          by_cases hdd : (s.st.at i).handle.isDefault = true
          · rw [hdd] at hp
            cases hp
          · rw [Bool.not_eq_true] at hdd
            rw [hdd] at hp
            simp only [Bool.not_false, if_true] at hp
            rw [bind_iff] at hp
            rcases hp with ⟨e', h1, h2⟩ | ⟨a, s2, _, h2⟩
            · cases h2
              refine ⟨hret, ?_, generate_fault (NearHandles.refl _) rfl h1⟩
              rw [← hr.1.2.1]; exact isDefault_false.mp hdd
            · rw [pure_iff] at h2; cases h2.1
        · rw [if_neg hret] at hp; cases hp
      have hR : s'.st = s.st ∧ s'.out = s.out ∧ (∀ e0, (Except.error e : Except Err Nat) = .error e0 ∨
          ∃ k' e', Cmd.derive k = .derive k' ∧ Bit k'.flags DFlag.retainParent ∧ k'.handle ≠ Handle.default ∧
          (Except.error e : Except Err Nat) = .error e' ∧ DrawFault env.toOps s.st e') :=
        ⟨hw.1, hw.2, fun e0 => .inr ⟨k, e, rfl, hdf.1, hdf.2.1, rfl, hdf.2.2⟩⟩
      have hG : Judged [] (fun e0 => s'.st = s.st ∧ s'.out = s.out ∧ ((Except.error e : Except Err Nat) = .error e0 ∨
          ∃ k' e', Cmd.derive k = .derive k' ∧ Bit k'.flags DFlag.retainParent ∧ k'.handle ≠ Handle.default ∧
          (Except.error e : Except Err Nat) = .error e' ∧ DrawFault env.toOps s.st e'))
          ((∃ n, (Except.error e : Except Err Nat) = .ok n) ∨
            ∃ e', (Except.error e : Except Err Nat) = .error e' ∧ EnvFault env s (.derive k) e') :=
        .nil (.inr ⟨e, rfl, hdf.2.2.fault trivial⟩)
      show Judged [(_, _), (_, _)] _ _
      by_cases q1 : (¬ Bit k.flags DFlag.recursive ∧ ¬ Bit k.flags DFlag.exportCdi ∧
        ∀ i, i < cfg.maxHandles → Live s.st i)
      · exact .hit q1 ⟨hR.1, hR.2.1, hR.2.2 _⟩
      · refine .miss q1 ?_
        by_cases q2 : (¬ Bit k.flags DFlag.recursive ∧ ¬ Bit k.flags DFlag.exportCdi ∧
            Named s.st k.handle loc fun i => DefaultClash s.st k i (targetOf k loc))
        · exact .hit q2 ⟨hR.1, hR.2.1, hR.2.2 _⟩
        · exact .miss q2 hG
    · rw [hp] at h
      have hw := deriveParent_world env.toOps k (s.st.at i) s
      rw [hp] at hw
      obtain ⟨hw1, hw2⟩ := hw
      simp only at hw1 hw2 h
      by_cases hx : k.exportCdi = true
      · have hx' : Bit k.flags DFlag.exportCdi := hx
        have hcc : k.createCert = true := by
          by_contra hc
          exact hbad (.inr (.inl ⟨hx, .inl hc⟩))
        rw [hcc, hx] at h
        simp only [Bool.and_self, if_true] at h
        refine .miss (fun h => h.2.1 hx') (.miss (fun h => h.2.1 hx') (.nil ?_))
        unfold deriveExport at h
        rw [bind_iff] at h
        rcases h with ⟨e, h1, rfl⟩ | ⟨u, s2, h1, h⟩
        · rw [platform_iff] at h1
          rcases h1 with ⟨pe, w', h1, h2, _⟩ | ⟨_, _, _, h2, _⟩
          · cases h2
            exact .inr ⟨_, rfl, .platform ⟨_, .inr (.inr ⟨⟨k, rfl, hx'⟩, by rw [h1]⟩)⟩⟩
          · cases h2
        · rw [platform_iff] at h1
          rcases h1 with ⟨_, _, _, h2, _⟩ | ⟨u', w', h1, h2, rfl⟩
          · cases h2
          cases h2
          rw [run_lift] at h
          unfold ueidGet at h
          by_cases hn : u.2.toNat ≤ 48
          · rw [if_pos hn] at h
            simp only [run_get] at h
            rcases runCert_faulty (c0 := .derive k) hx' h with ⟨e, _, _, h2, h3⟩ | ⟨res, w2, win, hg, hl, h⟩
            · refine .inr ⟨e, h2, ?_⟩
              simp only [hw1, hw2] at h3
              have : (Cmd.derive k).replyMax = exportHdrSize := if_pos hx'
              rw [← this] at h3
              exact .cert (args := exportArgs s.st k loc _) ⟨hx', rfl⟩ ⟨i, hr⟩ h3
            · simp only [hw1, hw2, run_get] at h hg hl
              rw [run_get_ctx hr] at h
              have hst : ∃ st', (if (!k.retain && !(s.st.at i).hasChildren) = true then
                  destroyContext s.st k.handle loc else .ok (s.st.setCtx i p')) = .ok st' := by
                by_cases hc : (!k.retain && !(s.st.at i).hasChildren) = true
                · rw [if_pos hc]
                  obtain ⟨S, hS, _⟩ := destroySet_spec wf (findActive_iff.mpr hr)
                  exact ⟨s.st.clear S, by unfold destroyContext; rw [hS]; rfl⟩
                · rw [if_neg hc]; exact ⟨_, rfl⟩
              obtain ⟨st', hst⟩ := hst
              rw [hst, run_lift] at h
              simp only [run_modify, run_okOr, getElem?_of_lt (st := st') hr.lt] at h
              refine Faulty.allowed (c0 := .derive k) (s := ⟨st', w2, s.out.take exportHdrSize ++ win⟩)
                (Faulty.reply ?_ _) hl h
              simp only [Cmd.replyMax]
              rw [if_pos hx']
              simp [exportHdrBytes, hdrBytes_length, le32_length]
          · rw [if_neg hn] at h
            cases h
            exact .inr ⟨_, rfl, .ueid rfl hx' h1 (by omega)⟩
      · have hx' : ¬ Bit k.flags DFlag.exportCdi := hx
        rw [Bool.not_eq_true] at hx
        rw [hx, Bool.and_false] at h
        simp only [Bool.false_eq_true, if_false] at h
        unfold deriveChild at h
        rw [run_get, run_okOr, hw1] at h
        rcases hn : s.st.nextInactive with _ | idx
        · rw [hn] at h
          cases h
          exact .hit ⟨hrec', hx', noFree_iff.mp hn⟩ ⟨hw1, hw2, .inl rfl⟩
        · rw [hn] at h
          have hff := firstFree_iff.mp hn
          refine .miss (fun hall => hall.2.2 idx hff.1 hff.2.1) ?_
          refine .check h ?_ (fun h1 h2 => ⟨by rw [h2]; exact hw1, by rw [h2]; exact hw2, .inl h1⟩) fun _ h =>
            .nil ?_
          · rw [Bool.not_eq_true', clash_iff hr, named_iff hr]
            exact ⟨fun h => ⟨hrec', hx', h⟩, fun h => h.2.2⟩
          · refine Faulty.allowed (c0 := .derive k) (s := s1) (Faulty.bind (pickHandle_world _ _) ?_ fun hd =>
              Faulty.bind (addTci_world _ _ _ _) (addTci_errs (by exact trivial) _ rfl rfl) fun child => ?_) ?_ h
            · rw [hw1]; exact pickHandle_errs (by exact trivial) _
            · intro s2 s2' e h2 hl h
              have : ∃ kids, p'.addChild idx = .ok kids := by
                unfold Context.addChild addChildBit
                rw [if_neg (by have := hff.1; omega), if_neg (by have := hff.1; omega)]
                exact ⟨_, rfl⟩
              obtain ⟨kids, hk⟩ := this
              rw [hk, run_lift] at h
              exact Faulty.modify (Faulty.reply (by simp [deriveBytes, hdrBytes_length, Cmd.replyMax]; split <;> omega) _) s2 s2' e h2 hl h
            · rw [hw2]; exact sys_fit s

end Dpe
