import Verif.Spec.Measure
import Verif.Props.Unique
/-
C19: the cumulative measurement is the hash chain of the measurements a context received.
-/
namespace Dpe
section
variable {cfg : Cfg} {σ : Type} {H : Bytes → Bytes} {st st' : State cfg} {log : Nat → List Bytes}

theorem Logged.reachable (h : Logged H log st) : Reachable st := by
  induction h with
  | new a b => exact .new a b
  | @auto σ ops ty m a b w out r s' log _ h _ _ _ =>
    have := Reachable.autoInit ops ty m a b w out
    rw [h] at this; exact this
  | @create σ ops st w out r s' log _ h ih =>
    have := Reachable.create ops st w out ih
    rw [h] at this; exact this
  | @cmd σ env c loc st w out r s' log log' _ _ h _ ih =>
    have := Reachable.step env c loc st w out ih
    rw [h] at this; exact this

/-- What the log says about a slot. -/
def LogOk (H : Bytes → Bytes) (n : Nat) (ms : List Bytes) (c : Context cfg) : Prop :=
  c.tci.cumulative.toList = hashChain H n ms ∧
  c.tci.current.toList = ms.getLastD (List.replicate n 0) ∧
  (c.parentIdx ≠ ROOT → ms ≠ []) ∧
  (c.tci.tciType ≠ 0 → ms ≠ []) ∧ ∀ m ∈ ms, m.length = cfg.tciSize

theorem hashChain_snoc (H : Bytes → Bytes) (n : Nat) (ms : List Bytes) (m : Bytes) :
    hashChain H n (ms ++ [m]) = H (hashChain H n ms ++ m) := by
  simp [hashChain, List.foldl_append]

theorem LogOk.same {n : Nat} {ms : List Bytes} {c c' : Context cfg} (h : LogOk H n ms c)
    (h1 : c'.tci = c.tci) (h2 : c'.parentIdx = c.parentIdx) : LogOk H n ms c' := by
  unfold LogOk at *
  rw [h1, h2]; exact h

theorem LogOk.extend {n : Nat} {ms : List Bytes} {c c' : Context cfg} {m v : BArr cfg.tciSize}
    (h : LogOk H n ms c) (hv : v.toList = H (c.tci.cumulative.toList ++ m.toList))
    (h1 : c'.tci.cumulative = v) (h2 : c'.tci.current = m) :
    LogOk H n (ms ++ [m.toList]) c' := by
  refine ⟨?_, ?_, by simp, by simp, ?_⟩
  · rw [h1, hv, hashChain_snoc, h.1]
  · rw [h2]; simp
  · intro x hx
    rcases List.mem_append.1 hx with hx | hx
    · exact h.2.2.2.2 x hx
    · rw [List.mem_singleton.1 hx, Vector.length_toList]

theorem LogOk.fresh {m v : BArr cfg.tciSize} {c' : Context cfg}
    (hv : v.toList = H (List.replicate cfg.tciSize 0 ++ m.toList))
    (h1 : c'.tci.cumulative = v) (h2 : c'.tci.current = m) :
    LogOk H cfg.tciSize [m.toList] c' := by
  refine ⟨?_, ?_, by simp, by simp, by simp⟩
  · rw [h1, hv]; rfl
  · rw [h2]; rfl

theorem LogOk.zero {f loc : U32} {h : Handle} : LogOk H cfg.tciSize [] (rootContext cfg f loc h) := by
  refine ⟨?_, ?_, ?_, ?_, by simp⟩
  · simp [rootContext, hashChain]
  · simp [rootContext]
  · intro h; exact absurd rfl h
  · intro h; exact absurd rfl h

/-- What the measurement hash reads from a context, apart from its place in the tree. -/
def Kept (c c' : Context cfg) : Prop :=
  c'.tci = c.tci ∧ c'.parentIdx = c.parentIdx ∧ c'.allowX509 = c.allowX509 ∧
  c'.usesInfo = c.usesInfo ∧ c'.usesDice = c.usesDice

theorem Kept.refl (c : Context cfg) : Kept c c := ⟨rfl, rfl, rfl, rfl, rfl⟩

/-- A slot that the command does not measure into keeps its measurements while live. -/
theorem Effect.kept {D : Bytes → Bytes → Prop} {loc : U32} {c : Cmd cfg} {hs : List Handle}
    (wf : WF st) (he : Effect D st loc c hs st') {i : Nat} (hl : Live st i) (hl' : Live st' i)
    (hm : ∀ m, ¬ Measures st loc c i m) :
    Kept (st.at i) (st'.at i) := by
  have set : ∀ {k : Nat} {x : Context cfg}, SetSlot st k x st' → Kept (st.at k) x →
      Kept (st.at i) (st'.at i) := by
    intro k x hs h1
    by_cases e : i = k
    · subst e; rw [hs.1]; exact h1
    · rw [hs.2.1 i e]; exact .refl _
  have destr : ∀ {k : Nat}, DestroyEffect st k st' →
      Kept (st.at i) (st'.at i) := by
    intro k hd
    by_cases e : DestroyedWith st k i
    · unfold Live at hl'
      rw [hd.1 i e] at hl'; exact absurd rfl hl'
    · obtain ⟨ch, hc⟩ := (hd.2.1 i e).1
      rw [hc]; exact .refl _
  cases c with
  | getProfile => rw [he.2]; exact .refl _
  | chain c => rw [he.2]; exact .refl _
  | init f =>
    obtain ⟨h, _, k, hf, h2, h3, _⟩ := he
    have : i ≠ k := by rintro rfl; exact hl hf.2.1
    rw [h3 i this]; exact .refl _
  | rotate c => obtain ⟨h, _, k, hr, hset, hc⟩ := he; exact set hset (.refl _)
  | sign c => obtain ⟨h, _, k, hr, hn, hset⟩ := he; exact set hset (.refl _)
  | certify c => obtain ⟨h, _, k, hr, hn, hset⟩ := he; exact set hset (.refl _)
  | destroy h => obtain ⟨_, idx, _, he⟩ := he; exact destr he
  | derive c =>
    obtain ⟨idx, h, hp, _, hr, he⟩ := he
    cases he with
    | «recursive» hb _ hn hset =>
      by_cases e : i = idx
      · subst e
        exact absurd ⟨rfl, by rw [if_pos hb]; exact hr⟩ (hm c.data.toList)
      · rw [hset.2.1 i e]; exact .refl _
    | @child _ _ _ _ k _ _ hb hx hff _ hch hpa _ h2 h3 h4 _ =>
      have : i ≠ k := by rintro rfl; exact hl hff.2.1
      by_cases e : i = idx
      · subst e; rw [h3]; exact .refl _
      · rw [h4 i this e]; exact .refl _
    | exported _ _ _ _ hpa hset => exact set hset (.refl _)
    | exportedLast _ _ _ _ _ hd => exact destr hd
  | update c =>
    obtain ⟨hc, hp, _, idx, k, v, hr, hnd, hac, hki, _, hun, hcc, h1, h2, h3, _⟩ := he
    by_cases e : i = idx
    · subst e; rw [h1]; exact .refl _
    · by_cases e' : i = k
      · subst e'
        exact absurd ⟨rfl, idx, hr, hac⟩ (hm c.data.toList)
      · rw [h3 i e e']; exact .refl _

/-- What a command that measures does to the slot it measures into. -/
theorem Effect.measured {loc : U32} {c : Cmd cfg} {hs : List Handle} {i : Nat} {m : Bytes}
    (he : Effect (fun x y => y = H x) st loc c hs st') (hm : Measures st loc c i m)
    {ms : List Bytes} (hok : Live st i → LogOk H cfg.tciSize ms (st.at i))
    (hz : ¬ Live st i → ms = []) :
    LogOk H cfg.tciSize (ms ++ [m]) (st'.at i) := by
  cases c with
  | getProfile => exact hm.elim
  | chain c => exact hm.elim
  | init f => exact hm.elim
  | rotate c => exact hm.elim
  | sign c => exact hm.elim
  | certify c => exact hm.elim
  | destroy h => exact hm.elim
  | derive c =>
    obtain ⟨rfl, hm⟩ := hm
    obtain ⟨idx, h, hp, _, hr, he⟩ := he
    cases he with
    | «recursive» hb hD hn hset =>
      rw [if_pos hb] at hm
      cases hm.unique hr
      refine (hok (live_of_active hr.1.1)).extend hD ?_ ?_ <;> rw [hset.1]
    | @child _ _ _ _ k _ _ hb hx hff hD hch hpa _ h2 h3 h4 _ =>
      rw [if_neg hb] at hm
      have : i = k := by
        have a : ¬ i < k := fun h => hff.2.2 i h hm.2.2.1
        have b : ¬ k < i := fun h => hm.2.2.2 k h hff.2.1
        omega
      subst this
      rw [hz (fun h => h hff.2.1)]
      refine LogOk.fresh hD ?_ ?_ <;> rw [h2] <;> rfl
    | exported hb hx _ _ hpa hset => rw [if_neg hb] at hm; exact absurd hx hm.1
    | exportedLast hb hx _ _ _ hd => rw [if_neg hb] at hm; exact absurd hx hm.1
  | update c =>
    obtain ⟨rfl, idx', hr', hac'⟩ := hm
    obtain ⟨hc, hp, _, idx, k, v, hr, hnd, hac, hki, hD, hun, hcc, h1, h2, h3, _⟩ := he
    cases hr'.unique hr
    have : i = k := Nat.le_antisymm (hac'.2.2.2 k hac.1 hac.2.1 hac.2.2.1)
      (hac.2.2.2 i hac'.1 hac'.2.1 hac'.2.2.1)
    subst this
    refine (hok (live_of_active hac.2.1)).extend hD ?_ ?_ <;> rw [h2]

/-- A slot that becomes live without being measured into is a root made by InitializeContext. -/
theorem Effect.born {D : Bytes → Bytes → Prop} {loc : U32} {c : Cmd cfg} {hs : List Handle}
    (he : Effect D st loc c hs st') {i : Nat} (hl : ¬ Live st i) (hl' : Live st' i) :
    (∃ f h, c = .init f ∧ st'.at i = rootContext cfg f loc h) ∨ ∃ m, Measures st loc c i m := by
  have inact : (st.at i).state = .inactive := by
    unfold Live at hl; exact Classical.not_not.mp hl
  have set : ∀ {k : Nat} {x : Context cfg}, Live st k → SetSlot st k x st' → False := by
    intro k x h1 hs
    by_cases e : i = k
    · subst e; exact hl h1
    · unfold Live at hl'; rw [hs.2.1 i e] at hl'; exact hl hl'
  have destr : ∀ {k : Nat}, DestroyEffect st k st' → False := by
    intro k hd
    unfold Live at hl'
    by_cases e : DestroyedWith st k i
    · rw [hd.1 i e] at hl'; exact absurd rfl hl'
    · obtain ⟨ch, hc⟩ := (hd.2.1 i e).1
      rw [hc] at hl'; exact hl hl'
  cases c with
  | getProfile => rw [he.2] at hl'; exact absurd hl' hl
  | chain c => rw [he.2] at hl'; exact absurd hl' hl
  | init f =>
    obtain ⟨h, _, k, hf, h2, h3, _⟩ := he
    by_cases e : i = k
    · subst e; exact .inl ⟨f, h, rfl, h2⟩
    · unfold Live at hl'; rw [h3 i e] at hl'; exact absurd hl' hl
  | rotate c =>
    obtain ⟨h, _, k, hr, hset, hc⟩ := he; exact (set (live_of_active hr.1.1) hset).elim
  | sign c =>
    obtain ⟨h, _, k, hr, hn, hset⟩ := he; exact (set (live_of_active hr.1.1) hset).elim
  | certify c =>
    obtain ⟨h, _, k, hr, hn, hset⟩ := he; exact (set (live_of_active hr.1.1) hset).elim
  | destroy h => obtain ⟨_, idx, _, he⟩ := he; exact (destr he).elim
  | derive c =>
    obtain ⟨idx, h, hp, _, hr, he⟩ := he
    have hi := live_of_active hr.1.1
    cases he with
    | «recursive» hb _ hn hset => exact (set hi hset).elim
    | @child _ _ _ _ k _ _ hb hx hff _ hch hpa _ h2 h3 h4 _ =>
      by_cases e : i = k
      · subst e
        exact .inr ⟨_, rfl, by rw [if_neg hb]; exact ⟨hx, hff⟩⟩
      · by_cases e' : i = idx
        · subst e'; exact absurd hi hl
        · unfold Live at hl'; rw [h4 i e e'] at hl'; exact absurd hl' hl
    | exported _ _ _ _ hpa hset => exact (set hi hset).elim
    | exportedLast _ _ _ _ _ hd => exact (destr hd).elim
  | update c =>
    obtain ⟨hc, hp, _, idx, k, v, hr, hnd, hac, hki, _, hun, hcc, h1, h2, h3, _⟩ := he
    by_cases e : i = idx
    · subst e; exact absurd (live_of_active hr.1.1) hl
    · by_cases e' : i = k
      · subst e'; exact absurd (live_of_active hac.2.1) hl
      · unfold Live at hl'; rw [h3 i e e'] at hl'; exact absurd hl' hl

theorem logged_inv (h : Logged H log st) :
    (∀ i, Live st i → LogOk H cfg.tciSize (log i) (st.at i)) ∧ ∀ i, ¬ Live st i → log i = [] := by
  induction h with
  | new a b =>
    refine ⟨fun i hi => ?_, fun _ _ => rfl⟩
    unfold Live at hi; rw [at_new] at hi; exact absurd rfl hi
  | @auto σ ops ty m a b w out r s' log hH hr hz hok herr =>
    have hdead := autoInit_slots hr
    have key : Live s'.st 0 → LogOk H cfg.tciSize (log 0) (s'.st.at 0) := by
      intro hl
      obtain ⟨_, _, h1, h2⟩ := C51_auto_init hH hr
      cases r with
      | error e =>
        rw [herr (by simp)]
        rcases h1 ⟨e, rfl⟩ with h1 | ⟨loc, _, _, h1⟩
        · unfold Live at hl; rw [h1, at_new] at hl; exact absurd rfl hl
        · rw [h1.eq ops w, at_initPost cfg.pos, if_pos rfl, rootContext_eq]; exact .zero
      | ok u =>
        rw [hok rfl]
        obtain ⟨loc, _, _, st1, v, _, _, h3, h4, h5⟩ := h2 rfl
        refine LogOk.fresh h4 ?_ ?_ <;> rw [h5.1]
    constructor
    · intro i hi
      by_cases e : i = 0
      · subst e; exact key hi
      · exact absurd (hdead i e) hi
    · intro i hi
      by_cases e : i = 0
      · subst e
        refine herr ?_
        rintro rfl
        obtain ⟨_, _, _, h2⟩ := C51_auto_init hH hr
        obtain ⟨loc, _, _, st1, v, _, _, h3, h4, h5⟩ := h2 rfl
        refine hi ?_
        unfold Live
        rw [h5.1, h3.eq ops w, at_initPost cfg.pos, if_pos rfl, rootContext_eq]
        simp [rootContext]
      · exact hz i e
  | @create σ ops st w out r s' log _ hr ih =>
    rcases dpeNew_effect hr with h | ⟨loc, h⟩
    · simp only at h; rw [h]; exact ih
    · obtain ⟨k, hf, h1, h2, _⟩ := h
      simp only at hf h1 h2
      have hk : ¬ Live st k := fun h => h hf.2.1
      constructor
      · intro i hi
        by_cases e : i = k
        · subst e; rw [h1, ih.2 i hk]; exact .zero
        · unfold Live at hi
          rw [h2 i e] at hi ⊢
          exact ih.1 i hi
      · intro i hi
        by_cases e : i = k
        · subst e; exact ih.2 i hk
        · unfold Live at hi
          rw [h2 i e] at hi
          exact ih.2 i hi
  | @cmd σ env c loc st w out r s' log log' hl hH hr hstep ih =>
    have wf := hl.reachable.wf
    refine ⟨fun i hi => ?_, fun i hi => ?_⟩
    · have hs := hstep i
      -- the slot was not measured into, and its measurements are untouched
      have keep : Live st i → (s'.st.at i).tci = (st.at i).tci →
          (s'.st.at i).parentIdx = (st.at i).parentIdx → log' i = log i →
          LogOk H cfg.tciSize (log' i) (s'.st.at i) := by
        intro h1 h2 h3 h4
        rw [h4]; exact (ih.1 i h1).same h2 h3
      have same : s'.st = st → Live st i ∧ (s'.st.at i).tci = (st.at i).tci ∧
          (s'.st.at i).parentIdx = (st.at i).parentIdx := by
        intro h; rw [h] at hi ⊢; exact ⟨hi, rfl, rfl⟩
      rcases exec_outcome (s := ⟨st, w, out⟩) wf hH hr with ⟨⟨e, rfl⟩, h1⟩ | ⟨hs', he, h1⟩ |
          ⟨u, e, hc, rfl, h1, he⟩ | ⟨k, hd, hc, rfl, he, _⟩
      · rcases hs with ⟨h, _⟩ | ⟨_, h, _⟩ | ⟨_, _, h⟩
        · exact absurd hi h
        · rcases h with ⟨n, h⟩ | ⟨_, h⟩
          · cases h
          · exact absurd h1 h
        · obtain ⟨a, b, c⟩ := same h1
          exact keep a b c h
      · simp only at he
        rcases hs with ⟨h, _⟩ | ⟨_, h, m, hm, hlg⟩ | ⟨_, h, hlg⟩
        · exact absurd hi h
        · rw [hlg]
          exact he.measured hm (ih.1 i) (ih.2 i)
        · by_cases ht : Took r st s'.st
          · have hm : ∀ m, ¬ Measures st loc c i m := fun m hm => h ⟨ht, m, hm⟩
            by_cases hli : Live st i
            · obtain ⟨a, b, _⟩ := he.kept wf hli hi hm
              exact keep hli a b hlg
            · rcases he.born hli hi with ⟨f, hh, _, hb⟩ | ⟨m, hm'⟩
              · rw [hlg, ih.2 i hli, hb]; exact .zero
              · exact absurd hm' (hm m)
          · rcases h1 with ⟨n, hr, _⟩ | ⟨hr, _⟩
            · exact absurd (.inl ⟨n, hr⟩) ht
            · obtain ⟨a, b, c⟩ := same (by_contra fun hne => ht (.inr ⟨hr, hne⟩))
              exact keep a b c hlg
      · rcases hs with ⟨h, _⟩ | ⟨_, h, _⟩ | ⟨_, _, h⟩
        · exact absurd hi h
        · rcases h with ⟨n, h⟩ | ⟨h, _⟩
          · cases h
          · rcases h1 with rfl | ⟨ce, rfl⟩ <;> cases h
        · obtain ⟨idx, kk, hp, hres, _, _, _, _, hset⟩ := he
          simp only at hres hset
          by_cases e : i = idx
          · subst e
            refine keep (live_of_active hres.1.1) ?_ ?_ h <;> rw [hset.1]
          · have h3 := hset.2.1 i e
            refine keep ?_ (by rw [h3]) (by rw [h3]) h
            unfold Live at hi ⊢; rwa [h3] at hi
      · rcases hs with ⟨h, _⟩ | ⟨_, h, _⟩ | ⟨_, _, h⟩
        · exact absurd hi h
        · rcases h with ⟨n, h⟩ | ⟨h, _⟩ <;> cases h
        · obtain ⟨idx, hres, _, hset⟩ := he
          simp only at hres hset
          by_cases e : i = idx
          · subst e
            refine keep (live_of_active hres.1.1) ?_ ?_ h <;> rw [hset.1]
          · have h3 := hset.2.1 i e
            refine keep ?_ (by rw [h3]) (by rw [h3]) h
            unfold Live at hi ⊢; rwa [h3] at hi
    · rcases hstep i with ⟨_, h⟩ | ⟨h, _⟩ | ⟨h, _⟩
      · exact h
      · exact absurd h hi
      · exact absurd h hi

/-- C19: in every history whose environments hash with `H`, each live context's cumulative TCI
is the hash chain, from zero, of exactly the measurements put into it, in order; its current TCI
is the last one (zero if there is none); and every context other than a root received at least
one. -/
theorem C19_cumulative (h : Logged H log st) {i : Nat} (hi : Live st i) :
    (st.at i).tci.cumulative.toList = hashChain H cfg.tciSize (log i) ∧
    (st.at i).tci.current.toList = (log i).getLastD (List.replicate cfg.tciSize 0) ∧
    ((st.at i).parentIdx ≠ ROOT → log i ≠ []) :=
  have ⟨h1, h2, h3, _⟩ := (logged_inv h).1 i hi
  ⟨h1, h2, h3⟩

/-- C19: a context with a type has been measured into, and all measurements have the size of a TCI. -/
theorem C19_typed (h : Logged H log st) {i : Nat} (hi : Live st i) :
    ((st.at i).tci.tciType ≠ 0 → log i ≠ []) ∧ ∀ m ∈ log i, m.length = cfg.tciSize :=
  ((logged_inv h).1 i hi).2.2.2

/-- C19: a log can be kept along every history. -/
theorem C19_log_exists (loc : U32) (c : Cmd cfg) (r : Except Err Nat) (st st' : State cfg)
    (log : Nat → List Bytes) :
    ∃ log' : Nat → List Bytes, ∀ i, LogStep st loc c r st' i (log i) (log' i) := by
  refine Classical.skolem.mp fun i => ?_
  by_cases h1 : Live st' i
  · by_cases h2 : Took r st st' ∧ ∃ m, Measures st loc c i m
    · exact ⟨_, .inr (.inl ⟨h1, h2.1, _, h2.2.choose_spec, rfl⟩)⟩
    · exact ⟨_, .inr (.inr ⟨h1, h2, rfl⟩)⟩
  · exact ⟨_, .inl ⟨h1, rfl⟩⟩

end

/-! ### Non-vacuity: a hash function that depends on the order of its input -/

namespace Toy

/-- A small hash: two bytes that depend on the order of the input. -/
def hash2 (x : Bytes) : Bytes := [x.foldl (fun a b => 3 * a + b) 1, UInt8.ofNat x.length]

/-- Operations whose world is the input of the hash in progress. -/
def opsHash : Ops Bytes where
  Cdi := Unit
  Key := Unit
  rand w := (.error .notImplemented, w)
  hasher w := (.ok (), w)
  hashInit _ := (.ok (), [])
  hashUpdate b w := (.ok (), w ++ b)
  hashFinish w := (.ok (hash2 w), [])
  deriveCdi _ _ w := (.ok (), w)
  deriveKeyPair _ _ _ w := (.ok (), w)
  deriveExportedCdi _ _ w := (.error .notImplemented, w)
  deriveKeyPairExported _ _ _ w := (.error .notImplemented, w)
  sign _ _ w := (.error .notImplemented, w)
  publicKey _ w := (.error .notImplemented, w)
  signAlias _ w := (.error .notImplemented, w)
  sigAlgMldsa := false
  digestSize := 2
  certChain _ _ w := (.error .certificateChainError, w)
  issuerName w := (.error .notImplemented, w)
  signerId w := (.error .notImplemented, w)
  issuerKeyId w := (.error .notImplemented, w)
  vendorId w := (.ok 0, w)
  vendorSku w := (.ok 0, w)
  autoInitLocality w := (.ok 0, w)
  certValidity w := (.error .notImplemented, w)
  subjectAltName w := (.error .notImplemented, w)
  ueid w := (.error .notImplemented, w)

/-- The environment built from it. -/
def envHash : Env cfg Bytes where
  toOps := opsHash
  certGen _ _ _ w win := ((.error .panic, w), win)

theorem updated_opsHash : ∀ (l : List Bytes) (w w' : Bytes), Updated opsHash l w w' → w' = w ++ l.flatten
  | [], w, w', h => by cases h; simp
  | b :: bs, w, w', ⟨w1, h1, h2⟩ => by
    cases h1
    rw [updated_opsHash bs _ _ h2]
    simp

theorem hashesWith : HashesWith hash2 opsHash := by
  rintro chunks w w' d ⟨w1, w2, w3, h1, h2, h3, h4⟩
  cases h2
  rw [updated_opsHash _ _ _ h3] at h4
  cases h4
  rfl

end Toy

/-- Non-vacuity: a default root recursively extended with two measurements holds their chain. -/
example : let s := (exec Toy.envHash (.init 0x40000000) 0 ⟨State.new Toy.cfg Toy.support 0, [], Toy.buf⟩).2
    let s1 := (exec Toy.envHash (.derive ⟨Handle.default, Toy.data 1 2, 0x01000000, 0, 0, 0⟩) 0
      { s with out := Toy.buf }).2
    let x := exec Toy.envHash (.derive ⟨Handle.default, Toy.data 3 4, 0x01000000, 0, 0, 0⟩) 0
      { s1 with out := Toy.buf }
    x.1 = .ok 44 ∧ (x.2.st.at 0).tci.cumulative.toList = hashChain Toy.hash2 2 [[1, 2], [3, 4]] ∧
    (x.2.st.at 0).tci.cumulative.toList ≠ hashChain Toy.hash2 2 [[3, 4], [1, 2]] ∧
    (x.2.st.at 0).tci.current.toList = [3, 4] := by
  decide +kernel

/-- Non-vacuity: the theorem applied to the first of these steps. -/
example (s : State Toy.cfg)
    (hs : s = (exec Toy.envHash (.init 0x40000000) 0 ⟨State.new Toy.cfg Toy.support 0, [], Toy.buf⟩).2.st) :
    Live s 0 ∧ ∃ log, Logged Toy.hash2 log s ∧
      (s.at 0).tci.cumulative.toList = hashChain Toy.hash2 2 (log 0) := by
  generalize hx : exec Toy.envHash (.init 0x40000000) 0
    ⟨State.new Toy.cfg Toy.support 0, [], Toy.buf⟩ = x at hs
  obtain ⟨r, s'⟩ := x
  obtain ⟨log', hl⟩ := C19_log_exists 0 (.init 0x40000000) r (State.new Toy.cfg Toy.support 0) s'.st
    (fun _ => [])
  have hlive : Live s 0 := by
    have h2 : s = (exec Toy.envHash (.init 0x40000000) 0
      ⟨State.new Toy.cfg Toy.support 0, [], Toy.buf⟩).2.st := by rw [hx]; exact hs
    rw [h2]; unfold Live; decide +kernel
  have hlg : Logged Toy.hash2 log' s := by
    rw [hs]; exact .cmd (.new _ _) Toy.hashesWith hx hl
  exact ⟨hlive, log', hlg, (C19_cumulative hlg hlive).1⟩

end Dpe
