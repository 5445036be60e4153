import Verif.Proofs.Monad
/-
Inversion of every command: what the state and the response buffer are afterwards.
-/
namespace Dpe
variable {cfg : Cfg} {σ : Type}

/-- A handle that is not the default handle and that no context carries. -/
def Fresh (st : State cfg) (h : Handle) : Prop :=
  h ≠ Handle.default ∧ ∀ c ∈ st.contexts, c.handle ≠ h

theorem isDefault_iff {h : Handle} : h.isDefault = true ↔ h = Handle.default := by
  unfold Handle.isDefault; exact beq_iff_eq

theorem isDefault_false {h : Handle} : h.isDefault = false ↔ h ≠ Handle.default := by
  unfold Handle.isDefault; exact beq_eq_false_iff_ne

/-- Outcome of the final response write. -/
def Responded {α : Type} (s s' : Sys cfg σ) (r : Except Err α) (bytes : Bytes) (n : α) : Prop :=
  (r = .ok n ∧ bytes.length ≤ s.out.length ∧ s'.out = bytes ++ s.out.drop bytes.length) ∨
  (r = .error .invalidResponseBuf ∧ s.out.length < bytes.length ∧ s'.out = s.out)

theorem genHandleLoop_fresh (ops : Ops σ) (n : Nat) : ∀ (s s' : Sys cfg σ) (h : Handle),
    genHandleLoop ops n s = (.ok h, s') → Fresh s.st h := by
  induction n with
  | zero => intro s s' h hh; simp [genHandleLoop, fail_iff] at hh
  | succ n ih =>
    intro s s' h hh
    simp only [genHandleLoop, bind_iff, get_iff] at hh
    rcases hh with ⟨e, h1, h2⟩ | ⟨a, s1, h1, h2⟩
    · cases h2
    · have hs1 := (WorldOnly.crypto ops.rand).eq h1
      rcases h2 with ⟨e, ⟨h3, _⟩, h4⟩ | ⟨st, s2, ⟨h3, rfl⟩, h4⟩
      · cases h4
      · cases h3
        split at h4
        · rename_i hc
          rw [pure_iff] at h4
          obtain ⟨h4, rfl⟩ := h4
          cases h4
          simp only [Bool.and_eq_true, Bool.not_eq_true', isDefault_false] at hc
          refine ⟨hc.1, ?_⟩
          intro c hcm heq
          have hst : s'.st = s.st := by rw [hs1]
          rw [← hst] at hcm
          have := hc.2
          rw [List.any_eq_false] at this
          have := this c hcm
          simp [heq] at this
        · have := ih _ _ _ h4
          have hst : s2.st = s.st := by rw [hs1]
          unfold Fresh at *
          rwa [hst] at this

theorem generateNewHandle_fresh {ops : Ops σ} {s s' : Sys cfg σ} {h : Handle}
    (hh : generateNewHandle ops s = (.ok h, s')) : Fresh s.st h :=
  genHandleLoop_fresh ops 8 s s' h hh

/-- The handle of a context after a successful roll. -/
def Rolled (st : State cfg) (old new : Handle) : Prop :=
  (old = Handle.default ∧ new = Handle.default) ∨ (old ≠ Handle.default ∧ Fresh st new)

theorem rollHandle_ok {ops : Ops σ} {c c' : Context cfg} {s s' : Sys cfg σ}
    (hh : rollHandle ops c s = (.ok c', s')) :
    ∃ h, c' = { c with handle := h } ∧ Rolled s.st c.handle h := by
  unfold rollHandle at hh
  split at hh
  · rename_i hd
    rw [pure_iff] at hh
    obtain ⟨h1, rfl⟩ := hh
    cases h1
    rw [isDefault_iff] at hd
    exact ⟨Handle.default, by rw [← hd], Or.inl ⟨hd, rfl⟩⟩
  · rename_i hd
    rw [Bool.not_eq_true, isDefault_false] at hd
    rw [bind_iff] at hh
    rcases hh with ⟨e, _, h2⟩ | ⟨h, s1, h1, h2⟩
    · cases h2
    · rw [pure_iff] at h2
      obtain ⟨h2, rfl⟩ := h2
      cases h2
      exact ⟨h, rfl, Or.inr ⟨hd, generateNewHandle_fresh h1⟩⟩

theorem genHandleLoop_err (ops : Ops σ) (n : Nat) : ∀ (s s' : Sys cfg σ) (e : Err),
    genHandleLoop ops n s = (.error e, s') →
    e = .internal .handleGenerationExhausted ∨ ∃ ce, e = .crypto ce := by
  induction n with
  | zero =>
    intro s s' e h
    simp only [genHandleLoop, fail_iff] at h
    cases h.1; exact .inl rfl
  | succ n ih =>
    intro s s' e h
    simp only [genHandleLoop, bind_iff, get_iff, crypto_iff] at h
    rcases h with ⟨e', h1, h2⟩ | ⟨a, s1, h1, h2⟩
    · cases h2
      rcases h1 with ⟨ce, _, _, h, _⟩ | ⟨_, _, _, h, _⟩
      · cases h; exact .inr ⟨_, rfl⟩
      · cases h
    · rcases h2 with ⟨e, ⟨h3, _⟩, h4⟩ | ⟨st, s2, ⟨h3, rfl⟩, h4⟩
      · cases h3
      · split at h4
        · rw [pure_iff] at h4; cases h4.1
        · exact ih _ _ _ h4

theorem rollHandle_err {ops : Ops σ} {c : Context cfg} {s s' : Sys cfg σ} {e : Err}
    (hh : rollHandle ops c s = (.error e, s')) :
    e = .internal .handleGenerationExhausted ∨ ∃ ce, e = .crypto ce := by
  unfold rollHandle at hh
  split at hh
  · rw [pure_iff] at hh; cases hh.1
  · rw [bind_iff] at hh
    rcases hh with ⟨e, h1, h2⟩ | ⟨h, s1, h1, h2⟩
    · cases h2; exact genHandleLoop_err _ _ _ _ _ h1
    · rw [pure_iff] at h2; cases h2.1

theorem digestToTci_ok {d : Bytes} {v : BArr cfg.tciSize}
    (h : digestToTci (cfg := cfg) d = .ok v) : v.toList = d := by
  unfold digestToTci at h
  split at h
  · cases h; simp [Vector.toList]
  · cases h

theorem addTci_ok {ops : Ops σ} {c c' : Context cfg} {m : BArr cfg.tciSize} {loc : U32}
    {s s' : Sys cfg σ} (hh : addTci ops c m loc s = (.ok c', s')) :
    c.state = .active ∧ c.locality = loc ∧
      ∃ v : BArr cfg.tciSize, hashAll ops [c.tci.cumulative.toList, m.toList] s = (.ok v.toList, s') ∧
        c' = { c with tci := { c.tci with cumulative := v, current := m } } := by
  simp only [addTci, bind_iff, failIf_iff, lift_iff, pure_iff] at hh
  rcases hh with ⟨e, _, h2⟩ | ⟨a, s1, h1, h2⟩
  · cases h2
  rcases h1 with ⟨_, h1, _⟩ | ⟨h1, _, rfl⟩
  · cases h1
  rcases h2 with ⟨e, _, h2⟩ | ⟨a, s2, h3, h2⟩
  · cases h2
  rcases h3 with ⟨_, h3, _⟩ | ⟨h3, _, rfl⟩
  · cases h3
  rcases h2 with ⟨e, _, h2⟩ | ⟨d, s3, h4, h2⟩
  · cases h2
  rcases h2 with ⟨e, _, h2⟩ | ⟨v, s4, ⟨h5, rfl⟩, h2, rfl⟩
  · cases h2
  cases h2
  refine ⟨by simpa using h1, by simpa using h3, v, ?_, rfl⟩
  rw [h4, digestToTci_ok h5]

theorem findActive_ok {st : State cfg} {h : Handle} {loc : U32} {i : Nat}
    (hh : st.findActive h loc = .ok i) :
    ∃ c, st.contexts[i]? = some c ∧ c.state = .active ∧ c.locality = loc ∧ c.handle = h ∧
      ∀ j c', j < i → st.contexts[j]? = some c' →
        ¬(c'.state = .active ∧ c'.locality = loc ∧ c'.handle = h) := by
  unfold State.findActive at hh
  simp only at hh
  split at hh
  · split at hh
    · rename_i k hk
      cases hh
      rw [List.findIdx?_eq_some_iff_getElem] at hk
      obtain ⟨hlt, h1, h2⟩ := hk
      simp only [Bool.and_eq_true, beq_iff_eq] at h1
      refine ⟨st.contexts[i], by simp [hlt], h1.1.1, h1.1.2, h1.2, ?_⟩
      intro j c' hj hc' hcon
      have := h2 j hj
      rw [List.getElem?_eq_some_iff] at hc'
      obtain ⟨hjl, rfl⟩ := hc'
      simp [hcon] at this
    · cases hh
  · cases hh

theorem findActive_err {st : State cfg} {h : Handle} {loc : U32} {e : Err}
    (hh : st.findActive h loc = .error e) :
    (∀ c ∈ st.contexts, ¬(c.state = .active ∧ c.locality = loc ∧ c.handle = h)) ∧
    ((e = .invalidHandle ∧ ∃ c ∈ st.contexts, c.state = .active ∧ c.locality = loc) ∨
     (e = .invalidLocality ∧ ∀ c ∈ st.contexts, ¬(c.state = .active ∧ c.locality = loc))) := by
  unfold State.findActive at hh
  simp only at hh
  split at hh
  · rename_i hany
    split at hh
    · cases hh
    · rename_i hk
      cases hh
      rw [List.findIdx?_eq_none_iff] at hk
      refine ⟨?_, Or.inl ⟨rfl, ?_⟩⟩
      · intro c hc hcon
        have := hk c hc
        simp [hcon] at this
      · rw [List.any_eq_true] at hany
        obtain ⟨c, hc, h1⟩ := hany
        simp only [Bool.and_eq_true, beq_iff_eq] at h1
        exact ⟨c, hc, h1⟩
  · rename_i hany
    cases hh
    have hall : ∀ c ∈ st.contexts, ¬(c.state = .active ∧ c.locality = loc) := by
      intro c hc hcon
      apply hany
      rw [List.any_eq_true]
      exact ⟨c, hc, by simp [hcon]⟩
    exact ⟨fun c hc hcon => hall c hc ⟨hcon.1, hcon.2.1⟩, Or.inr ⟨rfl, hall⟩⟩

theorem nextInactive_some {st : State cfg} {i : Nat} (h : st.nextInactive = some i) :
    ∃ c, st.contexts[i]? = some c ∧ c.state = .inactive ∧
      ∀ j c', j < i → st.contexts[j]? = some c' → c'.state ≠ .inactive := by
  unfold State.nextInactive at h
  rw [List.findIdx?_eq_some_iff_getElem] at h
  obtain ⟨hlt, h1, h2⟩ := h
  refine ⟨st.contexts[i], by simp [hlt], by simpa using h1, ?_⟩
  intro j c' hj hc'
  have := h2 j hj
  rw [List.getElem?_eq_some_iff] at hc'
  obtain ⟨hjl, rfl⟩ := hc'
  simpa using this

theorem nextInactive_none {st : State cfg} (h : st.nextInactive = none) :
    ∀ c ∈ st.contexts, c.state ≠ .inactive := by
  unfold State.nextInactive at h
  rw [List.findIdx?_eq_none_iff] at h
  intro c hc
  simpa using h c hc

theorem pickHandle_world (ops : Ops σ) (d : Bool) : WorldOnly (pickHandle ops d : M cfg σ _) :=
  WorldOnly.ite (WorldOnly.pure _) (generateNewHandle_world ops)

theorem pickHandle_ok {ops : Ops σ} {d : Bool} {s s' : Sys cfg σ} {h : Handle}
    (hh : pickHandle ops d s = (.ok h, s')) :
    (d = true ∧ h = Handle.default) ∨ (d = false ∧ Fresh s.st h) := by
  unfold pickHandle at hh
  by_cases ht : d = true
  · rw [if_pos ht, pure_iff] at hh
    exact .inl ⟨ht, by have := hh.1; cases this; rfl⟩
  · rw [if_neg ht] at hh
    exact .inr ⟨by simpa using ht, generateNewHandle_fresh hh⟩

/-! ### Per-command inversion -/

/-- The state after a successful InitializeContext. -/
def initPost (st : State cfg) (flags loc : U32) (idx : Nat) (h : Handle) : State cfg :=
  ({ st with hasInitialized := st.hasInitialized || initDefaultFlag flags } : State cfg).setCtx idx
    (Context.new.activate (initArgs flags loc h))

/-- An error before anything was committed. -/
def Untouched {α : Type} (s s' : Sys cfg σ) (r : Except Err α) : Prop :=
  (∃ e, r = .error e) ∧ s'.st = s.st ∧ s'.out = s.out

/-- Conclude after the final response write. -/
theorem respond_of {s0 s s' : Sys cfg σ} {r : Except Err Nat} {b : Bytes} {n : Nat}
    (h : (writeAt 0 b >>= fun _ => (pure n : M cfg σ Nat)) s = (r, s'))
    (hout : s.out = s0.out) :
    s'.st = s.st ∧ Responded s0 s' r b n := by
  simp only [bind_iff, writeAt_iff, pure_iff] at h
  rcases h with ⟨e, h1, h2⟩ | ⟨a, s1, h1, h2, rfl⟩
  · rcases h1 with ⟨hl, h3, rfl⟩ | ⟨_, h3, _⟩
    · cases h3; subst h2
      exact ⟨rfl, Or.inr ⟨rfl, by rw [← hout]; omega, hout⟩⟩
    · cases h3
  · rcases h1 with ⟨_, h3, _⟩ | ⟨hl, h3, rfl⟩
    · cases h3
    · refine ⟨rfl, Or.inl ⟨h2, by rw [← hout]; omega, ?_⟩⟩
      rw [← hout]; simp

theorem failIf_u {α : Type} {c : Bool} {e : Err} {f : Unit → M cfg σ α} {s s' : Sys cfg σ}
    {r : Except Err α} (h : (M.failIf c e >>= f) s = (r, s')) :
    Untouched s s' r ∨ (c = false ∧ f () s = (r, s')) := by
  rw [bind_iff] at h
  rcases h with ⟨e, h1, rfl⟩ | ⟨_, s1, h1, h⟩
  · rw [failIf_iff] at h1
    rcases h1 with ⟨_, _, rfl⟩ | ⟨_, h1, _⟩
    · exact Or.inl ⟨⟨_, rfl⟩, rfl, rfl⟩
    · cases h1
  · rw [failIf_iff] at h1
    rcases h1 with ⟨_, h1, _⟩ | ⟨c1, _, rfl⟩
    · cases h1
    · exact Or.inr ⟨c1, h⟩

theorem lift_u {α β : Type} {x : Except Err β} {f : β → M cfg σ α} {s s' : Sys cfg σ}
    {r : Except Err α} (h : (M.lift x >>= f) s = (r, s')) :
    Untouched s s' r ∨ ∃ a, x = .ok a ∧ f a s = (r, s') := by
  rw [bind_iff] at h
  rcases h with ⟨e, h1, rfl⟩ | ⟨a, s1, h1, h⟩
  · rw [lift_iff] at h1
    obtain ⟨_, rfl⟩ := h1
    exact Or.inl ⟨⟨_, rfl⟩, rfl, rfl⟩
  · rw [lift_iff] at h1
    obtain ⟨h1, rfl⟩ := h1
    exact Or.inr ⟨a, h1, h⟩

theorem okOr_u {α β : Type} {x : Option β} {e : Err} {f : β → M cfg σ α} {s s' : Sys cfg σ}
    {r : Except Err α} (h : (M.okOr x e >>= f) s = (r, s')) :
    Untouched s s' r ∨ ∃ a, x = some a ∧ f a s = (r, s') := by
  rw [bind_iff] at h
  rcases h with ⟨e, h1, rfl⟩ | ⟨a, s1, h1, h⟩
  · rw [okOr_iff] at h1
    rcases h1 with ⟨_, _, rfl⟩ | ⟨_, _, h1, _⟩
    · exact Or.inl ⟨⟨_, rfl⟩, rfl, rfl⟩
    · cases h1
  · rw [okOr_iff] at h1
    rcases h1 with ⟨_, h1, _⟩ | ⟨_, h2, h1, rfl⟩
    · cases h1
    · cases h1; exact Or.inr ⟨a, h2, h⟩

theorem world_u {α β : Type} {x : M cfg σ β} (hx : WorldOnly x) {f : β → M cfg σ α}
    {s s' : Sys cfg σ} {r : Except Err α} (h : (x >>= f) s = (r, s')) :
    Untouched s s' r ∨
      ∃ a w', x s = (.ok a, { s with w := w' }) ∧ f a { s with w := w' } = (r, s') := by
  rw [bind_iff] at h
  rcases h with ⟨e, h1, rfl⟩ | ⟨a, s1, h1, h⟩
  · have := hx.eq h1
    exact Or.inl ⟨⟨_, rfl⟩, by rw [this], by rw [this]⟩
  · have := hx.eq h1
    exact Or.inr ⟨a, s1.w, by rw [← this, h1], by rw [← this, h]⟩

theorem get_bind {α : Type} {f : State cfg → M cfg σ α} {s : Sys cfg σ} :
    ((M.get : M cfg σ _) >>= f) s = f s.st s := rfl

theorem modify_bind {α : Type} {g : State cfg → State cfg} {f : Unit → M cfg σ α} {s : Sys cfg σ} :
    ((M.modify g : M cfg σ _) >>= f) s = f () { s with st := g s.st } := rfl

theorem initCtx_inv {ops : Ops σ} {f loc : U32} {s s' : Sys cfg σ} {r : Except Err Nat}
    (h : initCtx ops f loc s = (r, s')) :
    Untouched s s' r ∨
    ∃ idx hd, ((initDefaultFlag f && s.st.hasInitialized) ||
        (initSimFlag f && !simBit s.st.support)) = false ∧
      (initDefaultFlag f ^^ initSimFlag f) = true ∧ s.st.nextInactive = some idx ∧
      ((initDefaultFlag f = true ∧ hd = Handle.default) ∨
       (initDefaultFlag f = false ∧ Fresh s.st hd)) ∧
      s'.st = initPost s.st f loc idx hd ∧
      Responded s s' r (newHandleBytes cfg.profile hd) (newHandleBytes cfg.profile hd).length := by
  unfold initCtx at h
  rw [get_bind] at h
  rcases failIf_u h with h | ⟨c1, h⟩
  · exact .inl h
  rcases failIf_u h with h | ⟨c2, h⟩
  · exact .inl h
  rw [Bool.not_eq_false'] at c2
  rcases okOr_u h with h | ⟨idx, c3, h⟩
  · exact .inl h
  by_cases hd : initDefaultFlag f = true
  · simp only [initHandle, if_pos hd] at h
    have h : (writeAt 0 (newHandleBytes cfg.profile Handle.default) >>= fun _ =>
        (pure (newHandleBytes cfg.profile Handle.default).length : M cfg σ Nat))
        { s with st := initPost s.st f loc idx Handle.default } = (r, s') := by
      rw [← h]; unfold initPost; simp only [hd, Bool.or_true]; rfl
    obtain ⟨h1, h2⟩ := respond_of (s0 := s) h rfl
    exact .inr ⟨idx, _, c1, c2, c3, .inl ⟨hd, rfl⟩, h1, h2⟩
  · simp only [initHandle, if_neg hd] at h
    rw [Bool.not_eq_true] at hd
    rcases world_u (generateNewHandle_world ops) h with h | ⟨hh, w', hg, h⟩
    · exact .inl h
    rw [modify_bind] at h
    obtain ⟨h1, h2⟩ := respond_of (s0 := s) h rfl
    refine .inr ⟨idx, hh, c1, c2, c3, .inr ⟨hd, generateNewHandle_fresh hg⟩, ?_, h2⟩
    rw [h1]; unfold initPost; simp only [hd, Bool.or_false]

theorem rotateCtx_inv {ops : Ops σ} {c : RotateCmd} {loc : U32} {s s' : Sys cfg σ}
    {r : Except Err Nat} (h : rotateCtx ops c loc s = (r, s')) :
    Untouched s s' r ∨
    ∃ idx old hd, rotateBit s.st.support = true ∧ s.st.findActive c.handle loc = .ok idx ∧
      s.st.contexts[idx]? = some old ∧
      ((c.targetDefault = true ∧ hd = Handle.default ∧
          okOpt (s.st.findActive Handle.default loc) = none ∧ nonDefaultExists s.st loc idx = false) ∨
       (c.targetDefault = false ∧ Fresh s.st hd)) ∧
      s'.st = s.st.setCtx idx { old with handle := hd } ∧
      Responded s s' r (newHandleBytes cfg.profile hd) (newHandleBytes cfg.profile hd).length := by
  unfold rotateCtx at h
  rw [get_bind] at h
  rcases failIf_u h with h | ⟨c1, h⟩
  · exact .inl h
  rw [Bool.not_eq_false'] at c1
  rcases lift_u h with h | ⟨idx, c2, h⟩
  · exact .inl h
  rcases failIf_u h with h | ⟨c3, h⟩
  · exact .inl h
  rcases world_u (pickHandle_world ops _) h with h | ⟨hd, w', hg, h⟩
  · exact .inl h
  rcases okOr_u h with h | ⟨old, c4, h⟩
  · exact .inl h
  rw [modify_bind] at h
  obtain ⟨h1, h2⟩ := respond_of (s0 := s) h rfl
  refine .inr ⟨idx, old, hd, c1, c2, c4, ?_, h1, h2⟩
  rcases pickHandle_ok hg with ⟨ht, rfl⟩ | ⟨ht, hf⟩
  · simp only [ht, Bool.true_and, Bool.or_eq_false_iff, Option.isSome_eq_false_iff,
      Option.isNone_iff_eq_none] at c3
    exact .inl ⟨ht, rfl, c3.1, c3.2⟩
  · exact .inr ⟨ht, hf⟩

theorem destroyCtx_inv {hd : Handle} {loc : U32} {s s' : Sys cfg σ}
    {r : Except Err Nat} (h : destroyCtx hd loc s = (r, s')) :
    Untouched s s' r ∨
    ∃ set, destroySet s.st hd loc = .ok set ∧ s'.st = s.st.clear set ∧
      Responded s s' r (hdrBytes cfg.profile .noError) (hdrBytes cfg.profile .noError).length := by
  unfold destroyCtx at h
  rw [get_bind] at h
  rcases lift_u h with h | ⟨st', c1, h⟩
  · exact .inl h
  rw [modify_bind] at h
  obtain ⟨h1, h2⟩ := respond_of (s0 := s) h rfl
  unfold destroyContext at c1
  rcases hs : destroySet s.st hd loc with e | set
  · rw [hs] at c1; cases c1
  · rw [hs] at c1
    cases c1
    exact .inr ⟨set, rfl, h1, h2⟩

theorem certifyKey_inv {env : Env cfg σ} {c : CertifyCmd} {loc : U32} {s s' : Sys cfg σ}
    {r : Except Err Nat} (h : certifyKey env c loc s = (r, s')) :
    ((∃ e, r = .error e) ∧ s'.st = s.st) ∨
    ∃ idx ctx hd kind res w1 win, s.st.findActive c.handle loc = .ok idx ∧
      s.st.contexts[idx]? = some ctx ∧
      (c.format = 0 → x509Bit s.st.support = true ∧ ctx.allowX509 = true) ∧
      (c.format = 1 → csrBit s.st.support = true) ∧
      certKindOf c.format = .ok kind ∧
      env.certGen kind (certifyArgs s.st c loc) s.st s.w (s.out.drop (certifyHdrSize c.variant)) =
        ((.ok res, w1), win) ∧
      Rolled s.st ctx.handle hd ∧
      s'.st = s.st.setCtx idx { ctx with handle := hd } ∧
      ((certifyHdrBytes c.variant cfg.profile hd res.certSize res.pubKey = none ∧
          r = .error .invalidArgument) ∨
       ∃ hdr, certifyHdrBytes c.variant cfg.profile hd res.certSize res.pubKey = some hdr ∧
        Responded { s with out := s.out.take (certifyHdrSize c.variant) ++ win } s' r hdr
          (certifyHdrSize c.variant + res.certSize.toNat)) := by
  unfold certifyKey at h
  rw [get_bind] at h
  rcases lift_u h with h | ⟨idx, c1, h⟩
  · exact .inl ⟨h.1, h.2.1⟩
  rcases okOr_u h with h | ⟨ctx, c2, h⟩
  · exact .inl ⟨h.1, h.2.1⟩
  rcases failIf_u h with h | ⟨c3, h⟩
  · exact .inl ⟨h.1, h.2.1⟩
  rcases failIf_u h with h | ⟨c4, h⟩
  · exact .inl ⟨h.1, h.2.1⟩
  rcases failIf_u h with h | ⟨c5, h⟩
  · exact .inl ⟨h.1, h.2.1⟩
  rcases failIf_u h with h | ⟨c6, h⟩
  · exact .inl ⟨h.1, h.2.1⟩
  rcases lift_u h with h | ⟨kind, c7, h⟩
  · exact .inl ⟨h.1, h.2.1⟩
  rw [bind_iff] at h
  rcases hc : env.certGen kind (certifyArgs s.st c loc) s.st s.w
      (s.out.drop (certifyHdrSize c.variant)) with ⟨⟨r1, w1⟩, win⟩
  simp only [runCert, hc, Prod.mk.injEq] at h
  rcases h with ⟨e, ⟨h1, rfl⟩, rfl⟩ | ⟨res, s1, ⟨h1, rfl⟩, h⟩
  · exact .inl ⟨⟨_, rfl⟩, rfl⟩
  subst h1
  rcases world_u (rollHandle_world env.toOps ctx) h with h | ⟨ctx', w2, hr, h⟩
  · exact .inl ⟨h.1, h.2.1⟩
  obtain ⟨hd, rfl, hroll⟩ := rollHandle_ok hr
  rw [modify_bind] at h
  refine .inr ⟨idx, ctx, hd, kind, res, w1, win, c1, c2, ?_, ?_, c7, hc, hroll, ?_⟩
  · intro hf; simpa [hf] using And.intro c3 c4
  · intro hf; simpa [hf] using c5
  rcases okOr_u h with hu | ⟨hdr, c8, h⟩
  · refine ⟨hu.2.1, ?_⟩
    rw [bind_iff] at h
    simp only [okOr_iff] at h
    rcases h with ⟨e, h1, rfl⟩ | ⟨hdr, s1, h1, h⟩
    · rcases h1 with ⟨h1, h2, _⟩ | ⟨_, _, h2, _⟩
      · exact .inl ⟨h1, by cases h2; rfl⟩
      · cases h2
    · rcases h1 with ⟨_, h1, _⟩ | ⟨_, h2, h1, rfl⟩
      · cases h1
      · cases h1
        exact .inr ⟨hdr, h2, (respond_of h rfl).2⟩
  · obtain ⟨h1, h2⟩ := respond_of (s0 := { s with out := s.out.take (certifyHdrSize c.variant) ++ win })
      h rfl
    exact ⟨h1, .inr ⟨hdr, c8, h2⟩⟩

theorem signCmd_inv {ops : Ops σ} {c : SignCmd} {loc : U32} {s s' : Sys cfg σ}
    {r : Except Err Nat} (h : signCmd ops c loc s = (r, s')) :
    Untouched s s' r ∨
    ∃ data idx ctx hd sig w1, c.data = .ok data ∧ s.st.findActive c.handle loc = .ok idx ∧
      s.st.contexts[idx]? = some ctx ∧ ctx.ctype = .normal ∧
      signWith ops idx c.label data s = (.ok sig, { s with w := w1 }) ∧
      Rolled s.st ctx.handle hd ∧
      s'.st = s.st.setCtx idx { ctx with handle := hd } ∧
      Responded s s' r (signBytes cfg.profile hd sig) (signBytes cfg.profile hd sig).length := by
  unfold signCmd at h
  rcases lift_u h with h | ⟨data, c0, h⟩
  · exact .inl h
  rw [get_bind] at h
  rcases lift_u h with h | ⟨idx, c1, h⟩
  · exact .inl h
  rcases okOr_u h with h | ⟨ctx, c2, h⟩
  · exact .inl h
  rcases failIf_u h with h | ⟨c3, h⟩
  · exact .inl h
  rcases world_u (signWith_world ops _ _ _) h with h | ⟨sig, w1, hsig, h⟩
  · exact .inl h
  rcases world_u (rollHandle_world ops ctx) h with h | ⟨ctx', w2, hr, h⟩
  · exact .inl h
  obtain ⟨hd, rfl, hroll⟩ := rollHandle_ok hr
  rw [modify_bind] at h
  obtain ⟨h1, h2⟩ := respond_of (s0 := s) h rfl
  refine .inr ⟨data, idx, ctx, hd, sig, w1, c0, c1, c2, ?_, hsig, hroll, h1, h2⟩
  cases hct : ctx.ctype
  · rfl
  · simp [hct] at c3

theorem getProfileCmd_inv {ops : Ops σ} {s s' : Sys cfg σ}
    {r : Except Err Nat} (h : getProfileCmd ops s = (r, s')) :
    Untouched s s' r ∨
    ∃ b w', getProfile ops s.st.support s = (.ok b, { s with w := w' }) ∧ s'.st = s.st ∧
      Responded s s' r b b.length := by
  unfold getProfileCmd at h
  rw [get_bind] at h
  rcases world_u (getProfile_world ops _) h with h | ⟨b, w1, hb, h⟩
  · exact .inl h
  obtain ⟨h1, h2⟩ := respond_of (s0 := s) h rfl
  exact .inr ⟨b, w1, hb, h1, h2⟩

theorem getCertChain_inv {ops : Ops σ} {c : ChainCmd} {s s' : Sys cfg σ}
    {r : Except Err Nat} (h : getCertChain ops c s = (r, s')) :
    Untouched s s' r ∨
    ∃ len chunk w', c.size.toNat ≤ 2048 ∧ ops.certChain c.offset c.size s.w = (.ok (len, chunk), w') ∧
      s'.st = s.st ∧ Responded s s' r (certChainBytes cfg.profile len chunk)
        (certChainBytes cfg.profile len chunk).length := by
  unfold getCertChain at h
  rcases failIf_u h with h | ⟨c1, h⟩
  · exact .inl h
  rcases world_u (WorldOnly.platform _) h with h | ⟨⟨len, chunk⟩, w1, hb, h⟩
  · exact .inl h
  obtain ⟨h1, h2⟩ := respond_of (s0 := s) h rfl
  refine .inr ⟨len, chunk, w1, by simpa using c1, ?_, h1, h2⟩
  rw [platform_iff] at hb
  rcases hb with ⟨_, _, _, hb, _⟩ | ⟨_, w', hb, h3, h4⟩
  · cases hb
  · cases h3
    have : w1 = w' := congrArg Sys.w h4
    rw [this]; exact hb

/-- A derived child, given the handle chosen for it and its new cumulative value. -/
def childOf (c : DeriveCmd cfg) (tl : U32) (idx : Nat) (p : Context cfg) (h : Handle)
    (v : BArr cfg.tciSize) : Context cfg :=
  let a := Context.new.activate (cfg := cfg) (deriveArgs c tl idx p h)
  { a with tci := { a.tci with cumulative := v, current := c.data } }

/-- The parent after a derivation that creates a child or exports a CDI: its handle was
replaced, or it was retired. -/
def ParentUpd (st : State cfg) (c : DeriveCmd cfg) (p p' : Context cfg) : Prop :=
  (c.retain = true ∧ ∃ h, Rolled st p.handle h ∧ p' = { p with handle := h }) ∨
  (c.retain = false ∧ p' = { p with state := .retired, handle := Handle.invalid })

theorem deriveParent_world (ops : Ops σ) (c : DeriveCmd cfg) (p : Context cfg) :
    WorldOnly (deriveParent ops c p) :=
  WorldOnly.ite (WorldOnly.ite (WorldOnly.bind (generateNewHandle_world ops) fun _ =>
    WorldOnly.pure _) (WorldOnly.pure _)) (WorldOnly.pure _)

theorem deriveParent_ok {ops : Ops σ} {c : DeriveCmd cfg} {p p' : Context cfg} {s s' : Sys cfg σ}
    (h : deriveParent ops c p s = (.ok p', s')) : ParentUpd s.st c p p' := by
  unfold deriveParent at h
  split at h
  · rename_i hr
    split at h
    · rename_i hd
      rw [Bool.not_eq_true', isDefault_false] at hd
      rw [bind_iff] at h
      rcases h with ⟨e, _, h2⟩ | ⟨hh, s1, h1, h2⟩
      · cases h2
      · rw [pure_iff] at h2
        obtain ⟨h2, rfl⟩ := h2
        cases h2
        exact .inl ⟨hr, hh, .inr ⟨hd, generateNewHandle_fresh h1⟩, rfl⟩
    · rename_i hd
      have hd : p.handle = Handle.default := by simpa [isDefault_iff] using hd
      rw [pure_iff] at h
      obtain ⟨h, rfl⟩ := h
      cases h
      exact .inl ⟨hr, p.handle, .inl ⟨hd, hd⟩, rfl⟩
  · rename_i hr
    rw [pure_iff] at h
    obtain ⟨h, rfl⟩ := h
    cases h
    exact .inr ⟨by simpa using hr, rfl⟩

/-- The locality of the derived context. -/
def DeriveCmd.target (c : DeriveCmd cfg) (loc : U32) : U32 :=
  if c.changeLoc then c.targetLocality else loc

theorem deriveCtx_inv {env : Env cfg σ} {c : DeriveCmd cfg} {loc : U32} {s s' : Sys cfg σ}
    {r : Except Err Nat} (h : deriveCtx env c loc s = (r, s')) :
    ((∃ e, r = .error e) ∧ s'.st = s.st) ∨
    ∃ idx p, deriveUnsupported s.st.support c = false ∧ s.st.findActive c.handle loc = .ok idx ∧
      s.st.contexts[idx]? = some p ∧ deriveBadArgs p c = false ∧
      ((c.recursive = true ∧ p.tci.tciType = c.tciType ∧ p.locality = c.target loc ∧
        ∃ v hd w1, hashAll env.toOps [p.tci.cumulative.toList, c.data.toList] s =
            (.ok v.toList, { s with w := w1 }) ∧ Rolled s.st p.handle hd ∧
          s'.st = s.st.setCtx idx
            { p with tci := { p.tci with cumulative := v, current := c.data }, handle := hd } ∧
          Responded s s' r (deriveBytes cfg.profile hd Handle.default)
            (deriveBytes cfg.profile hd Handle.default).length) ∨
       (c.recursive = false ∧ typeUnique s.st c.tciType (childList cfg p.children) = .ok true ∧
        ∃ p', ParentUpd s.st c p p' ∧
        ((c.createCert = true ∧ c.exportCdi = true ∧
          ∃ u ueid res w0 w1 w2 win st' now,
            deriveParent env.toOps c p s = (.ok p', { s with w := w0 }) ∧
            env.ueid w0 = (.ok u, w1) ∧ ueidGet u = .ok ueid ∧
            env.certGen .exportedX509 (exportArgs s.st c loc ueid) s.st w1
                (s.out.drop exportHdrSize) = ((.ok res, w2), win) ∧
            ((c.retain = false ∧ p.hasChildren = false ∧
                destroyContext s.st c.handle loc = .ok st') ∨
             ((c.retain = true ∨ p.hasChildren = true) ∧ st' = s.st.setCtx idx p')) ∧
            st'.contexts[idx]? = some now ∧ s'.st = st' ∧
            Responded { s with out := s.out.take exportHdrSize ++ win } s' r
              (exportHdrBytes cfg.profile Handle.invalid now.handle res.exportedCdi res.certSize)
              (exportHdrSize + res.certSize.toNat)) ∨
         ((c.createCert && c.exportCdi) = false ∧
          ∃ k hd v w0 w1 w2 kids, s.st.nextInactive = some k ∧
            deriveParent env.toOps c p s = (.ok p', { s with w := w0 }) ∧
            pickHandle env.toOps c.makeDefault { s with w := w0 } =
              (.ok hd, { s with w := w1 }) ∧
            safeToMakeChild s.st c idx (c.target loc) = true ∧
            ((c.makeDefault = true ∧ hd = Handle.default) ∨
             (c.makeDefault = false ∧ Fresh s.st hd)) ∧
            hashAll env.toOps [(Tci.new (cfg := cfg)).cumulative.toList, c.data.toList]
              { s with w := w1 } = (.ok v.toList, { s with w := w2 }) ∧
            p'.addChild k = .ok kids ∧
            s'.st = (s.st.setCtx k (childOf c (c.target loc) idx p hd v)).setCtx idx
              { p' with children := kids } ∧
            Responded s s' r (deriveBytes cfg.profile hd p'.handle)
              (deriveBytes cfg.profile hd p'.handle).length)))) := by
  unfold deriveCtx at h
  rw [get_bind] at h
  rcases failIf_u h with h | ⟨c1, h⟩
  · exact .inl ⟨h.1, h.2.1⟩
  rcases lift_u h with h | ⟨idx, c2, h⟩
  · exact .inl ⟨h.1, h.2.1⟩
  rcases okOr_u h with h | ⟨p, c3, h⟩
  · exact .inl ⟨h.1, h.2.1⟩
  rcases failIf_u h with h | ⟨c4, h⟩
  · exact .inl ⟨h.1, h.2.1⟩
  have htl : (if c.changeLoc then c.targetLocality else loc) = c.target loc := rfl
  simp only [htl] at h
  by_cases hrec : c.recursive = true
  · rw [if_pos hrec] at h
    unfold deriveRecursive at h
    rcases failIf_u h with h | ⟨c5, h⟩
    · exact .inl ⟨h.1, h.2.1⟩
    rcases world_u (addTci_world _ _ _ _) h with h | ⟨p1, w1, ha, h⟩
    · exact .inl ⟨h.1, h.2.1⟩
    obtain ⟨_, hloc, v, hv, rfl⟩ := addTci_ok ha
    rcases world_u (rollHandle_world _ _) h with h | ⟨p2, w2, hr, h⟩
    · exact .inl ⟨h.1, h.2.1⟩
    obtain ⟨hd, rfl, hroll⟩ := rollHandle_ok hr
    rw [modify_bind] at h
    obtain ⟨h1, h2⟩ := respond_of (s0 := s) h rfl
    exact .inr ⟨idx, p, c1, c2, c3, c4, .inl ⟨hrec, by simpa using c5, hloc, v, hd, w1, hv, hroll,
      h1, h2⟩⟩
  · rw [if_neg hrec] at h
    rcases lift_u h with h | ⟨u, c5, h⟩
    · exact .inl ⟨h.1, h.2.1⟩
    rcases failIf_u h with h | ⟨c6, h⟩
    · exact .inl ⟨h.1, h.2.1⟩
    rw [Bool.not_eq_false'] at c6
    subst c6
    rcases world_u (deriveParent_world _ _ _) h with h | ⟨p', w0, hp, h⟩
    · exact .inl ⟨h.1, h.2.1⟩
    have hpu := deriveParent_ok hp
    by_cases hex : (c.createCert && c.exportCdi) = true
    · rw [if_pos hex] at h
      unfold deriveExport at h
      rcases world_u (WorldOnly.platform _) h with h | ⟨u, w1, hu, h⟩
      · exact .inl ⟨h.1, h.2.1⟩
      rcases lift_u h with h | ⟨ueid, c7, h⟩
      · exact .inl ⟨h.1, h.2.1⟩
      rw [get_bind, bind_iff] at h
      have hu' : env.ueid w0 = (.ok u, w1) := by
        rw [platform_iff] at hu
        rcases hu with ⟨_, _, _, hu, _⟩ | ⟨_, w', hu, h3, h4⟩
        · cases hu
        · cases h3
          have : w1 = w' := congrArg Sys.w h4
          rw [this]; exact hu
      rcases hc : env.certGen .exportedX509 (exportArgs s.st c loc ueid) s.st w1
          (s.out.drop exportHdrSize) with ⟨⟨r1, w2⟩, win⟩
      simp only [runCert, hc, Prod.mk.injEq] at h
      rcases h with ⟨e, ⟨h1, rfl⟩, rfl⟩ | ⟨res, s1, ⟨h1, rfl⟩, h⟩
      · exact .inl ⟨⟨_, rfl⟩, rfl⟩
      subst h1
      rw [get_bind] at h
      rcases okOr_u h with h | ⟨old, c8, h⟩
      · exact .inl ⟨h.1, h.2.1⟩
      have hop : old = p := by
        have := c8.symm.trans c3; cases this; rfl
      rw [hop] at h
      rcases lift_u h with h | ⟨st', c9, h⟩
      · exact .inl ⟨h.1, h.2.1⟩
      rw [modify_bind] at h
      have hlt : idx < s.st.contexts.length := by
        rw [List.getElem?_eq_some_iff] at c3; exact c3.1
      have hnow : ∃ now, st'.contexts[idx]? = some now := by
        have : idx < st'.contexts.length := by rw [st'.len_eq, ← s.st.len_eq]; exact hlt
        exact ⟨_, List.getElem?_eq_getElem this⟩
      obtain ⟨now, hnow⟩ := hnow
      have hok : ∀ f : Context cfg → M cfg σ Nat, (M.okOr st'.contexts[idx]? .panic >>= f) = f now := by
        intro f; rw [hnow]; rfl
      rw [hok] at h
      · obtain ⟨h1, h2⟩ := respond_of
          (s0 := { s with out := s.out.take exportHdrSize ++ win }) h rfl
        rw [Bool.and_eq_true] at hex
        refine .inr ⟨idx, p, c1, c2, c3, c4, .inr ⟨by simpa using hrec, c5, p', hpu, .inl
          ⟨hex.1, hex.2, u, ueid, res, w0, w1, w2, win, st', now, hp, hu', c7, hc, ?_, hnow, h1,
            h2⟩⟩⟩
        split at c9
        · rename_i hcond
          simp only [Bool.and_eq_true, Bool.not_eq_true'] at hcond
          exact .inl ⟨hcond.1, hcond.2, c9⟩
        · rename_i hcond
          cases c9
          refine .inr ⟨?_, rfl⟩
          cases hA : c.retain <;> cases hB : p.hasChildren <;> simp [hA, hB] at hcond ⊢
    · rw [if_neg hex] at h
      unfold deriveChild at h
      rw [get_bind] at h
      rcases okOr_u h with h | ⟨k, c7, h⟩
      · exact .inl ⟨h.1, h.2.1⟩
      rcases failIf_u h with h | ⟨c8, h⟩
      · exact .inl ⟨h.1, h.2.1⟩
      rw [Bool.not_eq_false'] at c8
      rcases world_u (pickHandle_world _ _) h with h | ⟨hd, w1, hg, h⟩
      · exact .inl ⟨h.1, h.2.1⟩
      rcases world_u (addTci_world _ _ _ _) h with h | ⟨ch, w2, ha, h⟩
      · exact .inl ⟨h.1, h.2.1⟩
      obtain ⟨_, _, v, hv, rfl⟩ := addTci_ok ha
      rcases lift_u h with h | ⟨kids, c9, h⟩
      · exact .inl ⟨h.1, h.2.1⟩
      rw [modify_bind] at h
      obtain ⟨h1, h2⟩ := respond_of (s0 := s) h rfl
      have hpick := pickHandle_ok hg
      exact .inr ⟨idx, p, c1, c2, c3, c4, .inr ⟨by simpa using hrec, c5, p', hpu, .inr
        ⟨by simpa using hex, k, hd, v, w0, w1, w2, kids, c7, hp, hg, c8, hpick, hv, c9, h1, h2⟩⟩⟩

theorem updateCtx_inv {ops : Ops σ} {c : UpdateCmd cfg} {loc : U32} {s s' : Sys cfg σ}
    {r : Except Err Nat} (h : updateCtx ops c loc s = (r, s')) :
    Untouched s s' r ∨
    ∃ idx p k ch v hp w1, c.parentHandle ≠ Handle.default ∧
      s.st.findActive c.parentHandle loc = .ok idx ∧ s.st.contexts[idx]? = some p ∧
      findChildOfType s.st c.tciType (childList cfg p.children) = some k ∧
      s.st.contexts[k]? = some ch ∧ ch.state = .active ∧
      hashAll ops [ch.tci.cumulative.toList, c.data.toList] s = (.ok v.toList, { s with w := w1 }) ∧
      Rolled s.st p.handle hp ∧
      ((∃ e, r = .error e ∧ (e = .internal .handleGenerationExhausted ∨ ∃ ce, e = .crypto ce)) ∧
          s'.out = s.out ∧ ch.handle ≠ Handle.default ∧
          s'.st = s.st.setCtx idx { p with handle := hp } ∨
       ∃ hc, Rolled (s.st.setCtx idx { p with handle := hp }) ch.handle hc ∧
        s'.st = (s.st.setCtx idx { p with handle := hp }).setCtx k
          { ch with tci := { ch.tci with cumulative := v, current := c.data }, handle := hc } ∧
        Responded s s' r (updateBytes cfg.profile hc hp) (updateBytes cfg.profile hc hp).length) := by
  unfold updateCtx at h
  rcases failIf_u h with h | ⟨c1, h⟩
  · exact .inl h
  rw [isDefault_false] at c1
  rw [get_bind] at h
  rcases lift_u h with h | ⟨idx, c2, h⟩
  · exact .inl h
  have c2 : s.st.findActive c.parentHandle loc = .ok idx := by
    cases hf : s.st.findActive c.parentHandle loc <;> simp [hf, mapParentErr] at c2 ⊢
    exact c2
  rcases okOr_u h with h | ⟨p, c3, h⟩
  · exact .inl h
  rcases okOr_u h with h | ⟨k, c4, h⟩
  · exact .inl h
  rcases okOr_u h with h | ⟨ch, c5, h⟩
  · exact .inl h
  rcases world_u (addTci_world _ _ _ _) h with h | ⟨ch1, w1, ha, h⟩
  · exact .inl h
  obtain ⟨hact, _, v, hv, rfl⟩ := addTci_ok ha
  rcases world_u (rollHandle_world _ _) h with h | ⟨p1, w2, hr, h⟩
  · exact .inl h
  obtain ⟨hp, rfl, hroll⟩ := rollHandle_ok hr
  rw [modify_bind] at h
  refine .inr ⟨idx, p, k, ch, v, hp, w1, c1, c2, c3, c4, c5, hact, hv, hroll, ?_⟩
  rw [bind_iff] at h
  rcases h with ⟨e, h1, rfl⟩ | ⟨ch2, s3, h1, h⟩
  · have hw := (rollHandle_world _ _).eq h1
    refine .inl ⟨⟨e, rfl, rollHandle_err h1⟩, by rw [hw], ?_, by rw [hw]⟩
    intro hdef
    unfold rollHandle at h1
    rw [if_pos (isDefault_iff.mpr hdef), pure_iff] at h1
    cases h1.1
  · have hw := (rollHandle_world _ _).eq h1
    rw [hw] at h1
    obtain ⟨hc, rfl, hroll2⟩ := rollHandle_ok h1
    rw [modify_bind] at h
    obtain ⟨h3, h4⟩ := respond_of (s0 := s) h (by rw [hw])
    refine .inr ⟨hc, hroll2, ?_, h4⟩
    rw [h3, hw]

end Dpe
