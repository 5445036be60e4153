import Verif.Spec.Complete
import Verif.Proofs.SignRun
/-
Commands that issue no certificate do exactly what `Serves` says.
-/
namespace Dpe
variable {cfg : Cfg} {σ : Type} {env : Env cfg σ} {ops : Ops σ} {loc : U32} {s : Sys cfg σ}

/-! ### Pieces -/

/-- The end of a command: its reply is written if it fits. -/
def finish (b : Bytes) (s : Sys cfg σ) : Except Err Nat × Sys cfg σ :=
  if b.length ≤ s.out.length then (.ok b.length, { s with out := b ++ s.out.drop b.length })
  else (.error .invalidResponseBuf, s)

theorem run_reply (b : Bytes) (s : Sys cfg σ) :
    (writeAt 0 b >>= fun _ => (pure b.length : M cfg σ Nat)) s = finish b s := by
  rw [run_writeAt0]; rfl

theorem State.ext_at {a b : State cfg} (h : ∀ i, a.at i = b.at i) (hm : SameMeta b a) : a = b := by
  obtain ⟨⟨h1, h2, h3, h4⟩, h5⟩ := hm
  have hc : a.contexts = b.contexts := by
    apply List.ext_getElem?
    intro i
    rcases Nat.lt_or_ge i cfg.maxHandles with hi | hi
    · rw [getElem?_of_lt hi, getElem?_of_lt hi, h]
    · rw [getElem?_of_ge hi, getElem?_of_ge hi]
  cases a; cases b
  simp only at h1 h2 h3 h4 h5 hc
  subst h1 h2 h3 h4 h5 hc
  rfl

theorem SameMeta.symm_trans {a b c : State cfg} (h1 : SameMeta a b) (h2 : SameMeta a c) :
    SameMeta b c :=
  ⟨⟨h2.1.1.trans h1.1.1.symm, h2.1.2.1.trans h1.1.2.1.symm, h2.1.2.2.1.trans h1.1.2.2.1.symm,
    h2.1.2.2.2.trans h1.1.2.2.2.symm⟩, h2.2.trans h1.2.symm⟩

theorem SetSlot.eq {st st' : State cfg} {i : Nat} {c : Context cfg} (hi : i < cfg.maxHandles)
    (h : SetSlot st i c st') : st' = st.setCtx i c := by
  refine State.ext_at (fun j => ?_) ((sameMeta_setCtx st i c).symm_trans h.2.2)
  by_cases hj : j = i
  · subst hj; rw [h.1, at_setCtx_self hi]
  · rw [h.2.1 j hj, at_setCtx_ne hi _ hj]

theorem DestroyEffect.unique {st a b : State cfg} {i : Nat} (ha : DestroyEffect st i a)
    (hb : DestroyEffect st i b) : a = b := by
  refine State.ext_at (fun j => ?_) (hb.2.2.symm_trans ha.2.2)
  by_cases hj : DestroyedWith st i j
  · rw [ha.1 j hj, hb.1 j hj]
  · obtain ⟨⟨x, hx⟩, h1⟩ := ha.2.1 j hj
    obtain ⟨⟨y, hy⟩, h2⟩ := hb.2.1 j hj
    have : x = y := by
      apply BitVec.eq_of_getLsbD_eq
      intro k _
      have h3 := (h1 k).trans (h2 k).symm
      unfold Lists at h3
      rw [hx, hy] at h3
      exact Bool.eq_iff_iff.mpr h3
    rw [hx, hy, this]

theorem run_ok {α β : Type} {x : M cfg σ α} {f : α → M cfg σ β} {s s1 : Sys cfg σ} {a : α}
    (h : x s = (.ok a, s1)) : (x >>= f) s = f a s1 := by rw [run_bind, h]

theorem run_platform {α : Type} {f : σ → Except PlatErr α × σ} {a : α} {w' : σ}
    (h : f s.w = (.ok a, w')) : M.platform f s = (.ok a, { s with w := w' }) :=
  (OkIs.platform f _ _ _).2 ⟨w', h, rfl⟩

/-- Picking a handle. -/
theorem pick_iff {st : State cfg} {b : Bool} {w : σ} {h : Handle} {out : Bytes} {s' : Sys cfg σ} :
    pickHandle ops b (⟨st, w, out⟩ : Sys cfg σ) = (.ok h, s') ↔
      ∃ w', Chosen ops st (b = true) w h w' ∧ s' = ⟨st, w', out⟩ := by
  unfold pickHandle Chosen
  cases b with
  | true =>
    simp only [if_true, not_true, false_and, or_false, true_and]
    constructor
    · intro h
      cases h
      exact ⟨w, ⟨rfl, rfl⟩, rfl⟩
    · rintro ⟨w', ⟨rfl, rfl⟩, rfl⟩; rfl
  | false =>
    simp only [Bool.false_eq_true, if_false, not_false_eq_true, false_and, true_and, false_or]
    exact genHandle_iff

theorem digestToTci_iff {d : Bytes} {v : BArr cfg.tciSize} :
    (digestToTci d : Except Err (BArr cfg.tciSize)) = .ok v ↔ d = v.toList := by
  unfold digestToTci
  constructor
  · intro h
    split at h
    · cases h; rfl
    · cases h
  · rintro rfl
    rw [dif_pos (by simp)]
    rfl

/-- Extending a measurement register. -/
theorem extend_iff {st : State cfg} {c c' : Context cfg} {m : BArr cfg.tciSize} {w : σ} {out : Bytes}
    {s' : Sys cfg σ} (ha : c.state = .active) (hl : c.locality = loc) :
    addTci ops c m loc (⟨st, w, out⟩ : Sys cfg σ) = (.ok c', s') ↔
      ∃ v w', Extended ops c.tci.cumulative m v w w' ∧
        c' = { c with tci := { c.tci with cumulative := v, current := m } } ∧ s' = ⟨st, w', out⟩ := by
  unfold addTci
  rw [run_failIf, if_neg (by simp [ha]), run_failIf, if_neg (by simp [hl]), bind_ok_iff]
  constructor
  · rintro ⟨d, s1, h1, h2⟩
    obtain ⟨w', g1, rfl⟩ := (okIs_hashAll _ _ _ _).1 h1
    rw [run_lift] at h2
    rcases hd : (digestToTci d : Except Err (BArr cfg.tciSize)) with e | v
    · rw [hd] at h2; cases h2
    · rw [hd] at h2
      cases h2
      rw [digestToTci_iff] at hd
      subst hd
      exact ⟨v, w', g1, rfl, rfl⟩
  · rintro ⟨v, w', h1, rfl, rfl⟩
    refine ⟨v.toList, _, (okIs_hashAll _ _ _ _).2 ⟨w', h1, rfl⟩, ?_⟩
    rw [run_lift, digestToTci_iff.2 rfl]
    rfl

/-- The parent of a derivation. -/
theorem parent_iff {st : State cfg} {c : DeriveCmd cfg} {p p' : Context cfg} {w : σ} {out : Bytes}
    {s' : Sys cfg σ} (ha : p.state = .active) :
    deriveParent ops c p (⟨st, w, out⟩ : Sys cfg σ) = (.ok p', s') ↔
      ∃ h x w', ParentUsed ops st c p.handle w h x w' ∧ p' = { p with handle := h, state := x } ∧
        s' = ⟨st, w', out⟩ := by
  unfold deriveParent ParentUsed
  by_cases h1 : Bit c.flags DFlag.retainParent
  · rw [if_pos (show c.retain = true from h1)]
    have : (if (!p.handle.isDefault) = true then do
        let h ← generateNewHandle ops
        pure { p with handle := h } else pure p : M cfg σ (Context cfg)) = rollHandle ops p := by
      unfold rollHandle
      cases p.handle.isDefault <;> rfl
    rw [this, roll_iff]
    constructor
    · rintro ⟨h, w', h2, rfl, rfl⟩
      exact ⟨h, .active, w', .inl ⟨h1, rfl, h2⟩, by rw [← ha], rfl⟩
    · rintro ⟨h, x, w', ⟨_, rfl, h2⟩ | ⟨h2, _⟩, rfl, rfl⟩
      · exact ⟨h, w', h2, by rw [← ha], rfl⟩
      · exact absurd h1 h2
  · rw [if_neg (show ¬ c.retain = true from h1)]
    constructor
    · intro h
      cases h
      exact ⟨_, _, w, .inr ⟨h1, rfl, rfl, rfl⟩, rfl, rfl⟩
    · rintro ⟨h, x, w', ⟨h2, _⟩ | ⟨_, rfl, rfl, rfl⟩, rfl, rfl⟩
      · exact absurd h2 h1
      · rfl

theorem handlesReply_new (p : Profile) (h : Handle) : newHandleBytes p h = handlesReply p [h] := by
  simp [newHandleBytes, handlesReply, hdrBytes_success]

theorem handlesReply_derive (p : Profile) (h h' : Handle) : deriveBytes p h h' = handlesReply p [h, h'] := by
  simp [deriveBytes, handlesReply, hdrBytes_success]

theorem handlesReply_update (p : Profile) (h h' : Handle) : updateBytes p h h' = handlesReply p [h, h'] := by
  simp [updateBytes, handlesReply, hdrBytes_success]

/-! ### The commands -/

/-- `c` from `loc`, not refused in `s`, is served as specified. -/
def Served (env : Env cfg σ) (loc : U32) (s : Sys cfg σ) (c : Cmd cfg) : Prop :=
  (∀ reply st' w', Serves env.toOps s.st loc s.w c reply st' w' →
    exec env c loc s = finish reply ⟨st', w', s.out⟩) ∧
  (∀ n s', exec env c loc s = (.ok n, s') →
    ∃ reply st' w', Serves env.toOps s.st loc s.w c reply st' w')

theorem served_profile : Served env loc s .getProfile := by
  have hb : ∀ vid sku, profileBytes cfg s.st.support vid sku = profileReply cfg s.st.support vid sku := by
    intro vid sku
    have : le16 0 ++ le16 13 = [0, 0, 13, 0] := by decide
    rw [profileBytes, profileReply, hdrBytes_success, List.append_assoc (successBytes _), this]
    simp only [word_eq]
  constructor
  · rintro reply st' w' ⟨vid, sku, w1, h1, h2, rfl, rfl⟩
    show getProfileCmd env.toOps s = _
    have h : getProfile env.toOps s.st.support s =
        (.ok (profileReply cfg s.st.support vid sku), { s with w := w' }) := by
      unfold getProfile
      rw [run_ok (run_platform h1), run_ok (run_platform (s := { s with w := w1 }) h2), run_pure, hb]
    unfold getProfileCmd
    rw [run_get, run_ok h, run_reply]
  · intro n s' h
    have h : getProfileCmd env.toOps s = (.ok n, s') := h
    unfold getProfileCmd getProfile at h
    rw [run_get, bind_ok_iff] at h
    obtain ⟨b, s1, h1, h2⟩ := h
    rw [(OkIs.platform _).then] at h1
    obtain ⟨vid, w1, g1, h1⟩ := h1
    rw [(OkIs.platform _).then] at h1
    obtain ⟨sku, w2, g2, h1⟩ := h1
    exact ⟨_, _, _, vid, sku, w1, g1, g2, rfl, rfl⟩

theorem chain_eq {c : ChainCmd} (hno : NoRefusal (rules s.st loc (.chain c))) :
    exec env (.chain c) loc s = (M.platform (env.certChain c.offset c.size) >>= fun x =>
      writeAt 0 (certChainBytes cfg.profile x.1 x.2) >>= fun _ =>
      pure (certChainBytes cfg.profile x.1 x.2).length) s := by
  simp only [NoRefusal, rules, earlyRules, lateRules, lookupRules, List.cons_append, List.nil_append,
    List.append_nil, List.mem_cons, List.not_mem_nil, or_false, forall_eq_or_imp, forall_eq] at hno
  show getCertChain env.toOps c s = _
  unfold getCertChain
  rw [run_failIf, if_neg (by simpa using hno)]

theorem served_chain {c : ChainCmd} (hno : NoRefusal (rules s.st loc (.chain c))) :
    Served env loc s (.chain c) := by
  have he := chain_eq (env := env) hno
  constructor
  · rintro reply st' w' ⟨len, chunk, h1, rfl, rfl⟩
    rw [he, run_ok (run_platform h1), run_reply, certChainBytes, hdrBytes_success, word_eq]
  · intro n s' h
    rw [he, (OkIs.platform _).then] at h
    obtain ⟨⟨len, chunk⟩, w1, g1, h1⟩ := h
    exact ⟨_, _, _, len, chunk, g1, rfl, rfl⟩

theorem init_eq {f : U32} {i : Nat} (hno : NoRefusal (rules s.st loc (.init f))) (hi : FirstFree s.st i) :
    exec env (.init f) loc s = (initHandle env.toOps f >>= fun h =>
      M.modify (fun st => st.setCtx i (Context.new.activate (initArgs f loc h))) >>= fun _ =>
      writeAt 0 (newHandleBytes cfg.profile h) >>= fun _ =>
      pure (newHandleBytes cfg.profile h).length) s := by
  simp only [NoRefusal, rules, earlyRules, lateRules, lookupRules, List.cons_append, List.nil_append,
    List.append_nil, List.mem_cons, List.not_mem_nil, or_false, forall_eq_or_imp, forall_eq] at hno
  obtain ⟨q1, q2, q3, q4⟩ := hno
  show initCtx env.toOps f loc s = _
  unfold initCtx
  rw [run_get, run_failIf, if_neg, run_failIf, if_neg, run_okOr, firstFree_iff.2 hi]
  · have q3 : ¬ (initDefaultFlag f = true ↔ initSimFlag f = true) := q3
    revert q3
    cases initDefaultFlag f <;> cases initSimFlag f <;> simp
  · have q1 : ¬ (initDefaultFlag f = true ∧ s.st.hasInitialized = true) := q1
    have q2 : ¬ (initSimFlag f = true ∧ ¬ simBit s.st.support = true) := q2
    rw [Bool.or_eq_true, Bool.and_eq_true, Bool.and_eq_true, Bool.not_eq_true', ← Bool.not_eq_true]
    exact not_or.mpr ⟨q1, q2⟩

theorem init_free {f : U32} (hno : NoRefusal (rules s.st loc (.init f))) : ∃ i, FirstFree s.st i := by
  simp only [NoRefusal, rules, earlyRules, lateRules, lookupRules, List.cons_append, List.nil_append,
    List.append_nil, List.mem_cons, List.not_mem_nil, or_false, forall_eq_or_imp, forall_eq] at hno
  obtain ⟨_, _, _, q4⟩ := hno
  rcases hn : s.st.nextInactive with _ | i
  · exact absurd (noFree_iff.1 hn) q4
  · exact ⟨i, firstFree_iff.1 hn⟩

theorem served_init {f : U32} (hno : NoRefusal (rules s.st loc (.init f))) :
    Served env loc s (.init f) := by
  obtain ⟨i, hi⟩ := init_free hno
  have he := init_eq (env := env) hno hi
  have hpost : ∀ {h : Handle} {st' : State cfg}, st'.at i = rootContext cfg f loc h →
      (∀ j, j ≠ i → st'.at j = s.st.at j) → SameConfig s.st st' →
      (st'.hasInitialized = true ↔ s.st.hasInitialized = true ∨ Bit f IFlag.default) →
      st' = initPost s.st f loc i h := by
    intro h st' h1 h2 h3 h4
    refine State.ext_at (fun j => ?_) ⟨h3, ?_⟩
    · rw [at_initPost hi.1]
      by_cases hj : j = i
      · subst hj; rw [if_pos rfl, h1, rootContext_eq]
      · rw [if_neg hj, h2 j hj]
    · apply Bool.eq_iff_iff.mpr
      rw [h4]
      show _ ↔ (s.st.hasInitialized || initDefaultFlag f) = true
      rw [Bool.or_eq_true]; rfl
  constructor
  · rintro reply st' w' ⟨i', h, hi', h1, h2, h3, h4, h5, rfl⟩
    have : i' = i := Option.some.inj ((firstFree_iff.2 hi').symm.trans (firstFree_iff.2 hi))
    subst this
    rw [he, hpost h2 h3 h4 h5]
    unfold initHandle initPost
    rcases h1 with ⟨h1, rfl, rfl⟩ | ⟨h1, h6⟩
    · have h1 : initDefaultFlag f = true := h1
      rw [if_pos h1, h1, Bool.or_true]
      rw [← handlesReply_new]
      exact run_reply (newHandleBytes cfg.profile Handle.default)
        ⟨({ s.st with hasInitialized := true } : State cfg).setCtx i'
          (Context.new.activate (initArgs f loc Handle.default)), s.w, s.out⟩
    · have h1 : ¬ initDefaultFlag f = true := h1
      rw [if_neg h1, run_ok (x := generateNewHandle env.toOps) (genHandle_iff (n := 8).2 ⟨w', h6, rfl⟩), run_modify, run_reply, handlesReply_new,
        Bool.eq_false_iff.2 h1, Bool.or_false]
  · intro n s' h
    rw [he, bind_ok_iff] at h
    obtain ⟨hd, s1, h1, _⟩ := h
    have hpre : ∀ w', Chosen env.toOps s.st (Bit f IFlag.default) s.w hd w' → ∃ reply st' w',
        Serves env.toOps s.st loc s.w (.init f) reply st' w' := by
      intro w' hw
      refine ⟨_, initPost s.st f loc i hd, w', i, hd, hi, hw, ?_, ?_, ⟨rfl, rfl, rfl, rfl⟩, ?_, rfl⟩
      · rw [at_initPost hi.1, if_pos rfl, rootContext_eq]
      · intro j hj; rw [at_initPost hi.1, if_neg hj]
      · show (s.st.hasInitialized || initDefaultFlag f) = true ↔ _
        rw [Bool.or_eq_true]; rfl
    unfold initHandle at h1
    by_cases hd' : initDefaultFlag f = true
    · rw [if_pos hd'] at h1
      cases h1
      exact hpre s.w (.inl ⟨hd', rfl, rfl⟩)
    · rw [if_neg hd'] at h1
      obtain ⟨w', h2, rfl⟩ := genHandle_iff.1 h1
      exact hpre w' (.inr ⟨hd', h2⟩)

theorem rotate_resolves {c : RotateCmd} (hno : NoRefusal (rules s.st loc (.rotate c))) :
    ∃ i, Resolves s.st c.handle loc i := by
  simp only [NoRefusal, rules, earlyRules, lateRules, lookupRules, List.cons_append, List.nil_append,
    List.append_nil, List.mem_cons, List.not_mem_nil, or_false, forall_eq_or_imp, forall_eq] at hno
  obtain ⟨_, _, q3, _⟩ := hno
  obtain ⟨i', hi'⟩ := not_not.1 q3
  exact exists_resolves hi'

theorem rotate_eq {c : RotateCmd} {i : Nat} (hno : NoRefusal (rules s.st loc (.rotate c)))
    (hr : Resolves s.st c.handle loc i) :
    exec env (.rotate c) loc s = (pickHandle env.toOps c.targetDefault >>= fun h =>
      M.okOr s.st.contexts[i]? (.internal .contextIndexOob) >>= fun old =>
      M.modify (fun st => st.setCtx i { old with handle := h }) >>= fun _ =>
      writeAt 0 (newHandleBytes cfg.profile h) >>= fun _ =>
      pure (newHandleBytes cfg.profile h).length) s := by
  simp only [NoRefusal, rules, earlyRules, lateRules, lookupRules, List.cons_append, List.nil_append,
    List.append_nil, List.mem_cons, List.not_mem_nil, or_false, forall_eq_or_imp, forall_eq] at hno
  obtain ⟨q1, _, _, q4⟩ := hno
  rw [named_iff hr] at q4
  show rotateCtx env.toOps c loc s = _
  unfold rotateCtx
  rw [run_get, run_failIf, if_neg, run_lift, findActive_iff.2 hr]
  · simp only
    rw [run_failIf, if_neg]
    rw [Bool.and_eq_true, Bool.or_eq_true]
    rintro ⟨h1, h2⟩
    refine q4 ⟨h1, ?_⟩
    rcases h2 with h2 | h2
    · rcases hf : s.st.findActive Handle.default loc with e | j
      · rw [hf] at h2; cases h2
      · exact .inl ⟨j, (findActive_resolves hf).1⟩
    · unfold nonDefaultExists at h2
      rw [List.any_eq_true] at h2
      obtain ⟨⟨x, j⟩, hm, h2⟩ := h2
      rw [List.mem_zipIdx_iff_getElem?] at hm
      have e := at_of_getElem? hm
      simp only [Bool.and_eq_true, beq_iff_eq, bne_iff_ne] at h2
      exact .inr ⟨j, h2.2, by rw [e]; exact h2.1.1.1, by rw [e]; exact h2.1.1.2⟩
  · have q1 : ¬ ¬ rotateBit s.st.support = true := q1
    rw [Bool.not_eq_true', ← Bool.not_eq_true]
    exact q1

theorem served_rotate {c : RotateCmd} (hno : NoRefusal (rules s.st loc (.rotate c))) :
    Served env loc s (.rotate c) := by
  obtain ⟨i, hr⟩ := rotate_resolves hno
  have he := rotate_eq (env := env) hno hr
  constructor
  · rintro reply st' w' ⟨i', h, hr', h1, h2, rfl⟩
    obtain rfl := hr'.unique hr
    rw [he, run_ok (pick_iff (b := c.targetDefault).2 ⟨w', h1, rfl⟩), run_get_ctx hr, run_modify, run_reply, handlesReply_new, h2.eq hr.lt]
  · intro n s' h
    rw [he, bind_ok_iff] at h
    obtain ⟨hd, s1, h1, _⟩ := h
    obtain ⟨w', g1, rfl⟩ := pick_iff.1 h1
    exact ⟨_, _, w', i, hd, hr, g1, setSlot_of hr.lt _, rfl⟩

theorem served_destroy {h : Handle} (hst : InService s.st) (hno : NoRefusal (rules s.st loc (.destroy h))) :
    Served env loc s (.destroy h) := by
  simp only [NoRefusal, rules, earlyRules, lateRules, lookupRules, List.cons_append, List.nil_append,
    List.append_nil, List.mem_cons, List.not_mem_nil, or_false, forall_eq_or_imp, forall_eq] at hno
  obtain ⟨_, q2⟩ := hno
  obtain ⟨i', hi'⟩ := not_not.1 q2
  obtain ⟨i, hr⟩ := exists_resolves hi'
  obtain ⟨S, hS, _⟩ := destroySet_spec hst.wf (findActive_iff.mpr hr)
  have hd := destroyEffect_of hst.wf hS (findActive_iff.mpr hr)
  have he : exec env (.destroy h) loc s = finish (handlesReply cfg.profile []) ⟨s.st.clear S, s.w, s.out⟩ := by
    show destroyCtx h loc s = _
    unfold destroyCtx
    have : destroyContext s.st h loc = .ok (s.st.clear S) := by unfold destroyContext; rw [hS]; rfl
    rw [run_get, run_lift, this]
    simp only
    rw [run_modify, run_reply, hdrBytes_success]
    simp [handlesReply]
  constructor
  · rintro reply st' w' ⟨i', hr', h2, rfl, rfl⟩
    obtain rfl := hr'.unique hr
    rw [he, h2.unique hd]
  · intro n s' _
    exact ⟨_, _, _, i, hr, hd, rfl, rfl⟩

theorem served_sign {c : SignCmd} (hst : InService s.st) (hno : NoRefusal (rules s.st loc (.sign c))) :
    Served env loc s (.sign c) := by
  have hno' := hno
  simp only [NoRefusal, rules, earlyRules, lateRules, lookupRules, List.cons_append, List.nil_append,
    List.append_nil, List.mem_cons, List.not_mem_nil, or_false, forall_eq_or_imp, forall_eq] at hno
  obtain ⟨q1, _, q3, q4⟩ := hno
  constructor
  · rintro reply st' w' ⟨i, path, key, sig, w1, w2, h, hr, hp, h1, h2, h3, h4, rfl⟩
    rw [named_iff hr] at q4
    show signCmd env.toOps c loc s = _
    unfold signCmd
    rw [run_lift, signData_iff.2 ⟨q1, rfl⟩]
    simp only
    rw [run_get, run_lift, findActive_iff.2 hr]
    simp only
    rw [run_get_ctx hr, run_failIf, if_neg (by simpa using q4),
      run_ok ((signWith_iff hp).2 ⟨key, w1, w2, h1, h2, rfl⟩), run_ok (roll_iff.2 ⟨h, w', h3, rfl, rfl⟩),
      run_modify, run_reply, signBytes_eq, h4.eq hr.lt]
  · intro n s' h
    obtain ⟨_, i, path, key, sig, w1, w2, hd, w3, hr, hp, h1, h2, h3, _⟩ := (sign_iff hst).1 h
    exact ⟨_, _, w3, i, path, key, sig, w1, w2, hd, hr, hp, h1, h2, h3, setSlot_of hr.lt _, rfl⟩

theorem ActiveChild.unique {st : State cfg} {i k j : Nat} {ty : U32} (h : ActiveChild st i ty k)
    (h' : ActiveChild st i ty j) : k = j :=
  Nat.le_antisymm (h.2.2.2 j h'.1 h'.2.1 h'.2.2.1) (h'.2.2.2 k h.1 h.2.1 h.2.2.1)

theorem findChildOfType_some {st : State cfg} {i k : Nat} {ty : U32} (h1 : Lists st i k)
    (h2 : (st.at k).state = .active) (h3 : (st.at k).tci.tciType = ty) :
    ∃ j, findChildOfType st ty (childList cfg (st.at i).children) = some j := by
  rcases hc : findChildOfType st ty (childList cfg (st.at i).children) with _ | j
  · exfalso
    unfold findChildOfType at hc
    rw [List.find?_eq_none] at hc
    have hlt : k < cfg.maxHandles := lt_of_live (live_of_active h2)
    have := hc k (by rw [mem_childList]; exact ⟨hlt, h1⟩)
    rw [getElem?_of_lt hlt] at this
    simp [h2, h3] at this
  · exact ⟨j, rfl⟩

theorem activeChild_iff {st : State cfg} {i k : Nat} {ty : U32} :
    findChildOfType st ty (childList cfg (st.at i).children) = some k ↔ ActiveChild st i ty k := by
  constructor
  · exact fun h => findChildOfType_mem h
  · intro h
    obtain ⟨j, hj⟩ := findChildOfType_some h.1 h.2.1 h.2.2.1
    rw [hj, h.unique (findChildOfType_mem hj)]

theorem update_named {c : UpdateCmd cfg} (hno : NoRefusal (rules s.st loc (.update c))) :
    ∃ i k, Resolves s.st c.parentHandle loc i ∧ ActiveChild s.st i c.tciType k ∧
      (s.st.at i).handle ≠ Handle.default := by
  simp only [NoRefusal, rules, earlyRules, lateRules, lookupRules, List.cons_append, List.nil_append,
    List.append_nil, List.mem_cons, List.not_mem_nil, or_false, forall_eq_or_imp, forall_eq] at hno
  obtain ⟨q1, _, q3⟩ := hno
  obtain ⟨i, hr, k, hk⟩ := not_not.1 q3
  exact ⟨i, k, hr, hk, by rw [hr.1.2.1]; exact q1⟩

theorem update_eq {c : UpdateCmd cfg} {i k : Nat}
    (hno : NoRefusal (rules s.st loc (.update c))) (hr : Resolves s.st c.parentHandle loc i)
    (hk : ActiveChild s.st i c.tciType k) :
    exec env (.update c) loc s = (addTci env.toOps (s.st.at k) c.data (s.st.at k).locality >>= fun ch1 =>
      rollHandle env.toOps (s.st.at i) >>= fun p1 =>
      M.modify (fun st => st.setCtx i p1) >>= fun _ =>
      rollHandle env.toOps ch1 >>= fun ch2 =>
      M.modify (fun st => st.setCtx k ch2) >>= fun _ =>
      writeAt 0 (updateBytes cfg.profile ch2.handle p1.handle) >>= fun _ =>
      pure (updateBytes cfg.profile ch2.handle p1.handle).length) s := by
  simp only [NoRefusal, rules, earlyRules, lateRules, lookupRules, List.cons_append, List.nil_append,
    List.append_nil, List.mem_cons, List.not_mem_nil, or_false, forall_eq_or_imp, forall_eq] at hno
  obtain ⟨q1, _, _⟩ := hno
  have hlt : k < cfg.maxHandles := lt_of_live (live_of_active hk.2.1)
  show updateCtx env.toOps c loc s = _
  unfold updateCtx
  rw [run_failIf, if_neg (fun h => q1 (isDefault_iff.1 h)), run_get, run_lift, findActive_iff.2 hr]
  simp only [mapParentErr]
  rw [run_get_ctx hr, run_okOr, activeChild_iff.2 hk]
  simp only
  rw [run_okOr, getElem?_of_lt hlt]

theorem served_update {c : UpdateCmd cfg} (hst : InService s.st) (hno : NoRefusal (rules s.st loc (.update c))) :
    Served env loc s (.update c) := by
  obtain ⟨i, k, hr, hk, hnd⟩ := update_named hno
  have hlt : k < cfg.maxHandles := lt_of_live (live_of_active hk.2.1)
  have he := update_eq (env := env) hno hr hk
  constructor
  · rintro reply st' w' ⟨i', k', v, w1, hp, w2, st1, hc, hr', hk', h1, h2, h3, h4, h5, rfl⟩
    obtain rfl := hr'.unique hr
    obtain rfl := Option.some.inj ((activeChild_iff.2 hk').symm.trans (activeChild_iff.2 hk))
    obtain rfl := h3.eq hr.lt
    rw [he, run_ok ((extend_iff hk.2.1 rfl).2 ⟨v, w1, h1, rfl, rfl⟩),
      run_ok (roll_iff.2 ⟨hp, w2, .inr ⟨hnd, h2⟩, rfl, rfl⟩), run_modify,
      run_ok (roll_iff (c := { s.st.at k' with
        tci := { (s.st.at k').tci with cumulative := v, current := c.data } }).2 ⟨hc, w', h4, rfl, rfl⟩),
      run_modify, run_reply, handlesReply_update, h5.eq hlt]
  · intro n s' h
    rw [he, bind_ok_iff] at h
    obtain ⟨ch1, s1, h1, h⟩ := h
    obtain ⟨v, w1, g1, rfl, rfl⟩ := (extend_iff hk.2.1 rfl).1 h1
    rw [bind_ok_iff] at h
    obtain ⟨p1, s2, h2, h⟩ := h
    obtain ⟨hp, w2, g2, rfl, rfl⟩ := roll_iff.1 h2
    rw [run_modify, bind_ok_iff] at h
    obtain ⟨ch2, s3, h3, h⟩ := h
    obtain ⟨hc, w3, g3, rfl, rfl⟩ := roll_iff.1 h3
    have g2 : GoodDraw env.toOps s.st 8 w1 hp w2 := g2.elim (fun e => absurd e.1 hnd) (fun e => e.2)
    exact ⟨_, _, w3, i, k, v, w1, hp, w2, _, hc, hr, hk, g1, g2, setSlot_of hr.lt _, g3,
      setSlot_of hlt _, rfl⟩

/-! ### DeriveContext -/

theorem target_eq (c : DeriveCmd cfg) (loc : U32) :
    (if c.changeLoc then c.targetLocality else loc) = targetOf c loc := by
  unfold targetOf
  by_cases hc : c.changeLoc = true
  · rw [if_pos hc]; exact (if_pos hc).symm
  · rw [if_neg hc]; exact (if_neg hc).symm

theorem derive_resolves {c : DeriveCmd cfg} (hno : NoRefusal (rules s.st loc (.derive c))) :
    ∃ i, Resolves s.st c.handle loc i := by
  simp only [NoRefusal, rules, earlyRules, lateRules, lookupRules, List.cons_append, List.nil_append,
    List.mem_cons, List.not_mem_nil, or_false, forall_eq_or_imp, forall_eq] at hno
  obtain ⟨_, _, q3, _⟩ := hno
  obtain ⟨i', hi'⟩ := not_not.1 q3
  exact exists_resolves hi'

theorem recursive_eq {c : DeriveCmd cfg} {i : Nat} (hno : NoRefusal (rules s.st loc (.derive c)))
    (hr : Resolves s.st c.handle loc i) (hrec : Bit c.flags DFlag.recursive) :
    exec env (.derive c) loc s = (addTci env.toOps (s.st.at i) c.data loc >>= fun p1 =>
      rollHandle env.toOps p1 >>= fun p2 =>
      M.modify (fun st => st.setCtx i p2) >>= fun _ =>
      writeAt 0 (deriveBytes cfg.profile p2.handle Handle.default) >>= fun _ =>
      pure (deriveBytes cfg.profile p2.handle Handle.default).length) s := by
  simp only [NoRefusal, rules, earlyRules, lateRules, lookupRules, List.cons_append, List.nil_append,
    List.mem_cons, List.not_mem_nil, or_false, forall_eq_or_imp, forall_eq] at hno
  obtain ⟨q1, _, _, q4, q5, q6, _⟩ := hno
  rw [named_iff hr] at q4 q5
  have hrec' : c.recursive = true := hrec
  show deriveCtx env c loc s = _
  unfold deriveCtx
  rw [run_get, run_failIf, if_neg (fun h => q1 (deriveUnsupported_iff.1 h)), run_lift,
    findActive_iff.2 hr]
  simp only
  rw [run_get_ctx hr, run_failIf, if_neg (fun h => q4 (badArgs_iff.1 h)), target_eq]
  have ht : targetOf c loc = loc := by_contra fun h => q6 ⟨hrec, h⟩
  simp only [hrec', if_true, ht]
  unfold deriveRecursive
  rw [run_failIf, if_neg]
  rw [bne_iff_ne]
  exact fun h => q5 ⟨hrec, h⟩

theorem derive_early {c : DeriveCmd cfg} {i : Nat} (hst : InService s.st)
    (hno : NoRefusal (earlyRules s.st loc (.derive c)))
    (hr : Resolves s.st c.handle loc i) (hrec : ¬ Bit c.flags DFlag.recursive) :
    exec env (.derive c) loc s = (deriveParent env.toOps c (s.st.at i) >>= fun p' =>
      if c.exportCdi then deriveExport env c loc i p'
      else deriveChild env.toOps c (targetOf c loc) i (s.st.at i) p') s := by
  simp only [NoRefusal, earlyRules, lookupRules, List.cons_append, List.nil_append,
    List.mem_cons, List.not_mem_nil, or_false, forall_eq_or_imp, forall_eq] at hno
  obtain ⟨q1, _, _, q4, _, _, q7⟩ := hno
  rw [named_iff hr] at q4 q7
  have hrec' : c.recursive = false := by
    have : ¬ c.recursive = true := hrec
    simpa using this
  show deriveCtx env c loc s = _
  unfold deriveCtx
  rw [run_get, run_failIf, if_neg (fun h => q1 (deriveUnsupported_iff.1 h)), run_lift,
    findActive_iff.2 hr]
  simp only
  rw [run_get_ctx hr, run_failIf, if_neg (fun h => q4 (badArgs_iff.1 h)), target_eq]
  simp only [hrec', Bool.false_eq_true, if_false]
  rw [typeUnique_total (fun x hx => ((mem_childList _ _ _).mp hx).1), run_lift]
  simp only
  rw [run_failIf, if_neg]
  · have : (c.createCert && c.exportCdi) = c.exportCdi := by
      rcases hx : c.exportCdi with _ | _
      · rw [Bool.and_false]
      · rw [Bool.and_true]
        by_contra hc
        exact q4 (.inr (.inl ⟨hx, .inl hc⟩))
    rw [this]
  · rw [Bool.not_not, List.any_eq_true]
    rintro ⟨j, h1, h2⟩
    exact q7 ⟨hrec, j, ((mem_childList _ _ _).mp h1).2, by simpa using h2⟩

theorem derive_eq {c : DeriveCmd cfg} {i : Nat} (hst : InService s.st)
    (hno : NoRefusal (rules s.st loc (.derive c)))
    (hr : Resolves s.st c.handle loc i) (hrec : ¬ Bit c.flags DFlag.recursive) :
    exec env (.derive c) loc s = (deriveParent env.toOps c (s.st.at i) >>= fun p' =>
      if c.exportCdi then deriveExport env c loc i p'
      else deriveChild env.toOps c (targetOf c loc) i (s.st.at i) p') s :=
  derive_early hst (NoRefusal.append.mp hno).1 hr hrec

theorem served_recursive {c : DeriveCmd cfg} (hno : NoRefusal (rules s.st loc (.derive c)))
    (hrec : Bit c.flags DFlag.recursive) : Served env loc s (.derive c) := by
  obtain ⟨i, hr⟩ := derive_resolves hno
  have he := recursive_eq (env := env) hno hr hrec
  constructor
  · rintro reply st' w' ⟨i', hr', h⟩
    obtain rfl := hr'.unique hr
    rw [if_pos hrec] at h
    obtain ⟨v, w1, h, h1, h2, h3, rfl⟩ := h
    rw [he, run_ok ((extend_iff hr.1.1 hr.1.2.2).2 ⟨v, w1, h1, rfl, rfl⟩),
      run_ok (roll_iff (c := { s.st.at i' with
        tci := { (s.st.at i').tci with cumulative := v, current := c.data } }).2 ⟨h, w', h2, rfl, rfl⟩),
      run_modify, run_reply, handlesReply_derive, h3.eq hr.lt]
  · intro n s' h
    rw [he, bind_ok_iff] at h
    obtain ⟨p1, s1, h1, h⟩ := h
    obtain ⟨v, w1, g1, rfl, rfl⟩ := (extend_iff hr.1.1 hr.1.2.2).1 h1
    rw [bind_ok_iff] at h
    obtain ⟨p2, s2, h2, h⟩ := h
    obtain ⟨hd, w2, g2, rfl, rfl⟩ := roll_iff.1 h2
    have : ServesRecursive env.toOps s.st c i s.w _ _ w2 :=
      ⟨v, w1, hd, g1, g2, setSlot_of hr.lt _, rfl⟩
    exact ⟨_, _, w2, i, hr, by rw [if_pos hrec]; exact this⟩

theorem child_eq {c : DeriveCmd cfg} {i k : Nat} (hno : NoRefusal (rules s.st loc (.derive c)))
    (hr : Resolves s.st c.handle loc i) (hrec : ¬ Bit c.flags DFlag.recursive)
    (hx : ¬ Bit c.flags DFlag.exportCdi) (hk : FirstFree s.st k) (p' : Context cfg) (w : σ) :
    deriveChild env.toOps c (targetOf c loc) i (s.st.at i) p'
      (⟨s.st, w, s.out⟩ : Sys cfg σ) = (pickHandle env.toOps c.makeDefault >>= fun h =>
      addTci env.toOps (Context.new.activate (deriveArgs c (targetOf c loc) i (s.st.at i) h)) c.data
        (targetOf c loc) >>= fun child =>
      M.lift (p'.addChild k) >>= fun kids =>
      M.modify (fun st => (st.setCtx k child).setCtx i { p' with children := kids }) >>= fun _ =>
      writeAt 0 (deriveBytes cfg.profile h p'.handle) >>= fun _ =>
      pure (deriveBytes cfg.profile h p'.handle).length) ⟨s.st, w, s.out⟩ := by
  simp only [NoRefusal, rules, earlyRules, lateRules, lookupRules, List.cons_append, List.nil_append,
    List.mem_cons, List.not_mem_nil, or_false, forall_eq_or_imp, forall_eq] at hno
  obtain ⟨_, _, _, _, _, _, _, _, q9⟩ := hno
  rw [named_iff hr] at q9
  have q9 : ¬ DefaultClash s.st c i (targetOf c loc) := fun h => q9 ⟨hrec, hx, h⟩
  have hsafe : ¬ (!safeToMakeChild s.st c i (targetOf c loc)) = true := by
    rw [Bool.not_eq_true']; exact fun h => q9 ((clash_iff hr).1 h)
  unfold deriveChild
  rw [run_get, run_okOr, firstFree_iff.2 hk]
  simp only
  rw [run_failIf, if_neg hsafe]

theorem child_free {c : DeriveCmd cfg} (hno : NoRefusal (rules s.st loc (.derive c)))
    (hrec : ¬ Bit c.flags DFlag.recursive) (hx : ¬ Bit c.flags DFlag.exportCdi) : ∃ k, FirstFree s.st k := by
  simp only [NoRefusal, rules, earlyRules, lateRules, lookupRules, List.cons_append, List.nil_append,
    List.mem_cons, List.not_mem_nil, or_false, forall_eq_or_imp, forall_eq] at hno
  obtain ⟨_, _, _, _, _, _, _, q8, _⟩ := hno
  have q8 : ¬ ∀ i, i < cfg.maxHandles → Live s.st i := fun h => q8 ⟨hrec, hx, h⟩
  rcases hn : s.st.nextInactive with _ | k
  · exact absurd (noFree_iff.1 hn) q8
  · exact ⟨k, firstFree_iff.1 hn⟩

theorem served_child {c : DeriveCmd cfg} (hst : InService s.st)
    (hno : NoRefusal (rules s.st loc (.derive c)))
    (hrec : ¬ Bit c.flags DFlag.recursive) (hx : ¬ Bit c.flags DFlag.exportCdi) :
    Served env loc s (.derive c) := by
  obtain ⟨i, hr⟩ := derive_resolves hno
  have he := derive_eq (env := env) hst hno hr hrec
  have hlt := hr.lt
  obtain ⟨k, hk⟩ := child_free hno hrec hx
  have hki : k ≠ i := by rintro rfl; have := hr.1.1; rw [hk.2.1] at this; cases this
  have hx' : ¬ c.exportCdi = true := hx
  have hchild := child_eq (env := env) hno hr hrec hx hk
  have hadd : ∀ p' : Context cfg, p'.children = (s.st.at i).children → ∃ kids, p'.addChild k = .ok kids := by
    intro p' _
    unfold Context.addChild addChildBit
    rw [if_neg (by have := hk.1; omega), if_neg (by have := hk.1; omega)]
    exact ⟨_, rfl⟩
  have hcc : ∀ h v, ({ Context.new.activate (cfg := cfg) (deriveArgs c (targetOf c loc) i (s.st.at i) h) with
      tci := { (Context.new.activate (cfg := cfg) (deriveArgs c (targetOf c loc) i (s.st.at i) h)).tci with
        cumulative := v, current := c.data } } : Context cfg) = childContext c loc i (s.st.at i) h v := by
    intro h v
    rw [← childOf_eq hlt, show c.target loc = targetOf c loc from target_eq c loc]
    rfl
  constructor
  · rintro reply st' w' ⟨i', hr', h⟩
    obtain rfl := hr'.unique hr
    rw [if_neg hrec, if_neg hx] at h
    obtain ⟨k', hp, x, w1, h, w2, v, kids, hk', h1, h2, h3, h4, h5, h6, h7, h8, rfl⟩ := h
    have : k' = k := Option.some.inj ((firstFree_iff.2 hk').symm.trans (firstFree_iff.2 hk))
    subst this
    rw [he, run_ok ((parent_iff hr.1.1).2 ⟨hp, x, w1, h1, rfl, rfl⟩), if_neg hx', hchild,
      run_ok (pick_iff (b := c.makeDefault).2 ⟨w2, h2, rfl⟩),
      run_ok ((extend_iff (c := Context.new.activate (deriveArgs c (targetOf c loc) i' (s.st.at i') h))
        (loc := targetOf c loc) rfl rfl).2 ⟨v, w', h3, rfl, rfl⟩), run_lift]
    obtain ⟨kids', hkids⟩ := hadd { s.st.at i' with handle := hp, state := x } rfl
    rw [hkids]
    simp only
    rw [run_modify, run_reply, handlesReply_derive, hcc]
    congr 2
    obtain ⟨_, hk2⟩ := addChild_ok hkids
    have hkk : kids' = kids := by
      apply BitVec.eq_of_getLsbD_eq
      intro j _
      apply Bool.eq_iff_iff.mpr
      rw [hk2, Bool.or_eq_true, decide_eq_true_eq, h4]
      exact or_congr Iff.rfl eq_comm
    subst hkk
    have hat := at_child (st := s.st) hlt hk.1 (childContext c loc i' (s.st.at i') h v)
        { s.st.at i' with handle := hp, state := x, children := kids' }
    have hmeta : SameMeta ((s.st.setCtx k' (childContext c loc i' (s.st.at i') h v)).setCtx i'
        { s.st.at i' with handle := hp, state := x, children := kids' }) st' :=
      SameMeta.symm_trans ⟨⟨rfl, rfl, rfl, rfl⟩, rfl⟩ h8
    refine (State.ext_at (fun j => ?_) hmeta).symm
    rw [hat]
    by_cases hj : j = i'
    · subst hj; rw [if_pos rfl, h6]
    · rw [if_neg hj]
      by_cases hj2 : j = k'
      · subst hj2; rw [if_pos rfl, h5]
      · rw [if_neg hj2, h7 j hj2 hj]
  · intro n s' h
    rw [he, bind_ok_iff] at h
    obtain ⟨p1, s1, h1, h⟩ := h
    obtain ⟨hp, x, w1, g1, rfl, rfl⟩ := (parent_iff hr.1.1).1 h1
    rw [if_neg hx', hchild, bind_ok_iff] at h
    obtain ⟨hd, s2, h2, h⟩ := h
    obtain ⟨w2, g2, rfl⟩ := pick_iff.1 h2
    rw [bind_ok_iff] at h
    obtain ⟨ch, s3, h3, h⟩ := h
    obtain ⟨v, w3, g3, rfl, rfl⟩ := (extend_iff rfl rfl).1 h3
    rw [run_lift] at h
    obtain ⟨kids, hkids⟩ := hadd { s.st.at i with handle := hp, state := x } rfl
    obtain ⟨_, hk2⟩ := addChild_ok hkids
    have hat := at_child (st := s.st) hlt hk.1 (childContext c loc i (s.st.at i) hd v)
        { s.st.at i with handle := hp, state := x, children := kids }
    have hsv : ServesChild env.toOps s.st c loc i s.w (handlesReply cfg.profile [hd, hp])
        ((s.st.setCtx k (childContext c loc i (s.st.at i) hd v)).setCtx i
          { s.st.at i with handle := hp, state := x, children := kids }) w3 := by
      refine ⟨k, hp, x, w1, hd, w2, v, kids, hk, g1, g2, g3, ?_, ?_, ?_, ?_, ?_, rfl⟩
      · intro j; rw [hk2, Bool.or_eq_true, decide_eq_true_eq]
        exact or_congr Iff.rfl eq_comm
      · rw [hat, if_neg hki, if_pos rfl]
      · rw [hat, if_pos rfl]
      · intro j hj1 hj2; rw [hat, if_neg hj2, if_neg hj1]
      · exact ⟨⟨rfl, rfl, rfl, rfl⟩, rfl⟩
    exact ⟨_, _, w3, i, hr, by rw [if_neg hrec, if_neg hx]; exact hsv⟩

/-! ### Commands that issue certificates -/

/-- A certificate command, not refused in `s`, is served as specified. -/
def ServedCert (ops : Ops σ) (loc : U32) (s : Sys cfg σ) (c : Cmd cfg) : Prop :=
  (∀ reply st' w', Serves ops s.st loc s.w c reply st' w' → reply.length ≤ s.out.length →
    exec (ops.env cfg) c loc s = (.ok reply.length, ⟨st', w', reply ++ s.out.drop reply.length⟩)) ∧
  (∀ n s', exec (ops.env cfg) c loc s = (.ok n, s') →
    ∃ reply st' w', Serves ops s.st loc s.w c reply st' w' ∧ reply.length ≤ s.out.length)

theorem served_certify {c : CertifyCmd} (hst : InService s.st) (hfit : AlgorithmFits cfg ops)
    (hser : SerialGiven ops) (hno : NoRefusal (rules s.st loc (.certify c))) :
    ServedCert ops loc s (.certify c) := by
  constructor
  · rintro reply st' w' ⟨kind, D, w1, t, w2, h, h1, h2, h3, h4, h5, h6, h7, rfl⟩ hl
    refine (certify_iff hst hfit hser).2 ⟨hno, kind, D, w1, t, w2, h, w', h1, h2, h3, h4, h5, h6,
      certifyReply_length h4, hl, ?_⟩
    rw [h7.eq (show Resolves s.st c.handle loc D.slot from h2.slot).lt]
  · intro n s' h
    obtain ⟨_, kind, D, w1, t, w2, hd, w3, h1, h2, h3, h4, h5, h6, h7, h8, _⟩ :=
      (certify_iff hst hfit hser).1 h
    refine ⟨_, _, w3, ⟨kind, D, w1, t, w2, hd, h1, h2, h3, h4, h5, h6,
      setSlot_of (show Resolves s.st c.handle loc D.slot from h2.slot).lt _, rfl⟩, ?_⟩
    rw [certifyReply_length h4, ← h7]
    exact h8

theorem served_export {c : DeriveCmd cfg} (hst : InService s.st) (hfit : AlgorithmFits cfg ops)
    (hser : SerialGiven ops) (hno : NoRefusal (rules s.st loc (.derive c)))
    (hrec : ¬ Bit c.flags DFlag.recursive) (hx : Bit c.flags DFlag.exportCdi) :
    ServedCert ops loc s (.derive c) := by
  obtain ⟨i, hr⟩ := derive_resolves hno
  have he := derive_eq (env := ops.env cfg) hst hno hr hrec
  have hx' : c.exportCdi = true := hx
  have hlen : exportHdrSize = 80 := rfl
  obtain ⟨S, hS, _⟩ := destroySet_spec hst.wf (findActive_iff.mpr hr)
  have hdes := destroyEffect_of hst.wf hS (findActive_iff.mpr hr)
  have hctx : destroyContext s.st c.handle loc = .ok (s.st.clear S) := by
    unfold destroyContext; rw [hS]; rfl
  have forward : ∀ reply st' w', Serves ops s.st loc s.w (.derive c) reply st' w' →
      reply.length ≤ s.out.length → exec (ops.env cfg) (.derive c) loc s =
        (.ok reply.length, ⟨st', w', reply ++ s.out.drop reply.length⟩) := by
    rintro reply st' w' ⟨i', hr', h⟩ hl
    obtain rfl := hr'.unique hr
    rw [if_neg hrec, if_pos hx] at h
    obtain ⟨hp, x, w0, u, k, w1, D, w2, t, cdi, h1, h2, h3, rfl, h4, h5, h6, h7, h8, rfl⟩ := h
    rw [exportReply_length] at hl
    have hn : t.written.length ≤ (s.out.drop exportHdrSize).length := by
      rw [List.length_drop]; omega
    have hgen := (certGen_iff (win := s.out.drop exportHdrSize)
      (res := ⟨BitVec.ofNat 32 t.written.length, D.key, D.exportedCdi.getD (Vector.replicate 32 0)⟩)
      (win' := placed t.written (s.out.drop exportHdrSize))
      (C01_forest hst).links hfit hser).2 ⟨D, w2, t, h4, h5, hn, h6, rfl, rfl⟩
    rw [he, run_ok ((parent_iff (ops := (ops.env cfg).toOps) hr.1.1).2 ⟨hp, x, w0, h1, rfl, rfl⟩), if_pos hx']
    unfold deriveExport
    rw [show (ops.env cfg).ueid = ops.ueid from rfl,
      run_ok (run_platform (s := ⟨s.st, w0, s.out⟩) h2), run_lift]
    simp only [ueidGet, if_pos h3]
    rw [run_get, run_bind]
    unfold runCert
    rw [exportedArgs_eq, hgen]
    simp only
    rw [run_get, run_get_ctx hr, run_lift]
    have hst' : (if (!c.retain && !(s.st.at D.slot).hasChildren) = true then
        destroyContext s.st c.handle loc
        else .ok (s.st.setCtx D.slot { s.st.at D.slot with handle := hp, state := x })) = .ok st' ∧
        (st'.at D.slot).handle = hp := by
      rcases h8 with ⟨h8, h9⟩ | ⟨h8, h9, h10⟩
      · rw [if_neg, h9.eq hr.lt, at_setCtx_self hr.lt]
        · exact ⟨rfl, rfl⟩
        · rw [Bool.and_eq_true, Bool.not_eq_true', Bool.not_eq_true', ← Bool.not_eq_true,
            ← Bool.not_eq_true, hasChildren_iff]
          rintro ⟨g1, g2⟩
          exact h8.elim g1 g2
      · have g1 : ¬ c.retain = true := h8
        rw [if_pos, hctx, h10.unique hdes]
        · refine ⟨rfl, ?_⟩
          rw [hdes.1 _ (.inl rfl)]
          rcases h1 with ⟨g, _⟩ | ⟨_, _, rfl, _⟩
          · exact absurd g h8
          · rfl
        · rw [Bool.and_eq_true, Bool.not_eq_true', Bool.not_eq_true', ← Bool.not_eq_true,
            ← Bool.not_eq_true, hasChildren_iff]
          exact ⟨g1, fun ⟨j, hj⟩ => h9 j hj⟩
    rw [hst'.1]
    simp only [run_modify, run_okOr, getElem?_of_lt (st := st') hr.lt, hst'.2, h7, Option.getD_some]
    obtain ⟨e2, e3⟩ := exportHdr_eq cfg.profile hp cdi (BitVec.ofNat 32 t.written.length)
    obtain ⟨x1, x2⟩ := reply_out e3.symm hn (by rw [e3]; omega)
    rw [run_writeAt0, if_pos, run_pure]
    · have hlen' : (BitVec.ofNat 32 t.written.length).toNat = t.written.length := by simp; omega
      simp only [hlen', exportReply_length, hlen]
      have : exportReply cfg.profile hp cdi t.written = exportHdrBytes cfg.profile Handle.invalid hp cdi
          (BitVec.ofNat 32 t.written.length) ++ t.written := by rw [e2, exportReply, word_eq]
      rw [this, e3]
      rw [List.length_append, e3, hlen] at x1
      exact congrArg (fun o => (Except.ok (80 + t.written.length), (⟨st', w', o⟩ : Sys cfg σ))) x1
    · rw [e3]
      simp only [List.length_append, List.length_take]
      omega
  refine ⟨forward, fun n s' h => ?_⟩
  obtain ⟨u, k, w0, w1, D, w2, t, w3, h0, h1, h2, h3, h4, h5, cdi, h6, h7, h8, h9⟩ :=
    export_draws hst hfit hser hx h
  obtain rfl := (show Resolves s.st c.handle loc D.slot from h3.slot).unique hr
  obtain ⟨p', hp⟩ := (deriveParent_drawn (out := s.out)).2 h0
  obtain ⟨hd, x, w0', g1, rfl, g2⟩ := (parent_iff hr.1.1).1 hp
  injection g2 with _ g2 _
  subst g2
  have hsv : ∃ st', ServesExport ops s.st c loc D.slot s.w
      (exportReply cfg.profile hd cdi t.written) st' w3 := by
    by_cases hk : Bit c.flags DFlag.retainParent ∨ ∃ j, Lists s.st D.slot j
    · exact ⟨_, hd, x, _, u, k, w1, D, w2, t, cdi, g1, h1, h2, rfl, h3, h4, h5, h6,
        .inl ⟨hk, setSlot_of hr.lt _⟩, rfl⟩
    · rw [not_or, not_exists] at hk
      exact ⟨_, hd, x, _, u, k, w1, D, w2, t, cdi, g1, h1, h2, rfl, h3, h4, h5, h6,
        .inr ⟨hk.1, hk.2, hdes⟩, rfl⟩
  obtain ⟨st', hsv⟩ := hsv
  refine ⟨_, st', w3, ⟨D.slot, hr, by rw [if_neg hrec, if_pos hx]; exact hsv⟩, ?_⟩
  rw [exportReply_length, ← h7]
  exact h8

end Dpe
