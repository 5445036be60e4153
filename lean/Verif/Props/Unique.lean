import Verif.Spec.Handles
import Verif.Props.Rules
import Verif.Props.AutoInit
import Verif.Props.Handles
/-
C12 (unique handles) and C13 (default contexts are alone in their locality).
-/
namespace Dpe
section
variable {cfg : Cfg} {σ : Type} {env : Env cfg σ} {c : Cmd cfg} {loc : U32} {s s' : Sys cfg σ}
  {r : Except Err Nat} {st st' : State cfg}

theorem ReachableNoTwins.reachable (h : ReachableNoTwins st) : Reachable st := by
  induction h with
  | new a b => exact .new a b
  | create ops st w out _ ih => exact .create ops st w out ih
  | autoInit ops ty m a b w out => exact .autoInit ops ty m a b w out
  | step env c loc st w out _ _ ih => exact .step env c loc st w out ih

theorem UniqueHandles.of {P : Nat → Prop} (hu : UniqueHandles st)
    (hold : ∀ i, (st'.at i).state = .active → ¬ P i →
      (st.at i).state = .active ∧ (st'.at i).handle = (st.at i).handle)
    (hnew : ∀ i, P i → (st'.at i).state = .active → (st'.at i).handle ≠ Handle.default →
      ∀ j, j ≠ i → (st'.at j).state = .active → (st'.at j).handle ≠ (st'.at i).handle) :
    UniqueHandles st' := by
  intro i j hi hj he hd
  by_contra hne
  by_cases pi : P i
  · exact hnew i pi hi hd j (fun h => hne h.symm) hj he.symm
  · by_cases pj : P j
    · exact hnew j pj hj (by rw [← he]; exact hd) i hne hi he
    · obtain ⟨a1, a2⟩ := hold i hi pi
      obtain ⟨b1, b2⟩ := hold j hj pj
      rw [a2] at he hd; rw [b2] at he
      exact hne (hu i j a1 b1 he hd)

theorem Unused.ne_active {h : Handle} (hh : Unused st h) {j : Nat} (hj : (st.at j).state = .active) :
    (st.at j).handle ≠ h := hh.2 j (lt_of_live (live_of_active hj))

/-- Only slot `i` gets a new handle, which is default or carried by no other slot. -/
theorem UniqueHandles.set {i : Nat} {x : Context cfg} (hu : UniqueHandles st)
    (hs : SetSlot st i x st') (hh : x.state = .active → x.handle = Handle.default ∨ Unused st x.handle) :
    UniqueHandles st' := by
  refine hu.of (P := (· = i)) ?_ ?_
  · intro j hj hji
    rw [hs.2.1 j hji] at hj ⊢
    exact ⟨hj, rfl⟩
  · rintro j rfl ha hd k hk hka
    rw [hs.1] at ha hd ⊢
    rw [hs.2.1 k hk] at hka ⊢
    rcases hh ha with h | h
    · exact absurd h hd
    · exact h.ne_active hka

theorem NextHandle.ok {a b : Handle} (h : NextHandle st a b) :
    b = Handle.default ∨ Unused st b := h.elim (fun h => .inl h.2) (fun h => .inr h.2)

theorem DestroyEffect.active {idx i : Nat} (hd : DestroyEffect st idx st')
    (hi : (st'.at i).state = .active) : (st.at i).state = .active ∧
      (st'.at i).handle = (st.at i).handle ∧ (st'.at i).locality = (st.at i).locality := by
  by_cases h : DestroyedWith st idx i
  · rw [hd.1 i h] at hi; cases hi
  · obtain ⟨ch, hc⟩ := (hd.2.1 i h).1
    rw [hc] at hi ⊢
    exact ⟨hi, rfl, rfl⟩

theorem UniqueHandles.destroy {idx : Nat} (hu : UniqueHandles st) (hd : DestroyEffect st idx st') :
    UniqueHandles st' :=
  hu.of (P := fun _ => False) (fun _ hi _ => ⟨(hd.active hi).1, (hd.active hi).2.1⟩)
    (fun _ h => h.elim)

theorem InitEffect.unique {f : U32} {h : Handle} (hu : UniqueHandles st)
    (he : InitEffect st f loc h st') : UniqueHandles st' := by
  obtain ⟨i, _, h1, h2, _, _, h3⟩ := he
  refine hu.of (P := (· = i)) (fun j hj hji => by rw [h2 j hji] at hj ⊢; exact ⟨hj, rfl⟩) ?_
  rintro j rfl _ hd k hk hka
  rw [h1] at hd ⊢
  rw [h2 k hk] at hka ⊢
  rcases h3 with ⟨_, _, _, h3⟩ | ⟨_, _, _, h3⟩
  · exact absurd h3 hd
  · exact h3.ne_active hka

theorem Effect.unique {D : Bytes → Bytes → Prop} {hs : List Handle} (hu : UniqueHandles st)
    (he : Effect D st loc c hs st') : UniqueHandles st' ∨ Twins st c loc st' := by
  cases c with
  | getProfile => rw [he.2]; exact .inl hu
  | chain c => rw [he.2]; exact .inl hu
  | init f => obtain ⟨h, _, he⟩ := he; exact .inl (he.unique hu)
  | rotate c =>
    obtain ⟨h, _, i, _, hset, hc⟩ := he
    exact .inl (hu.set hset fun _ => hc.elim (fun h => .inl h.2.1) (fun h => .inr h.2))
  | sign c => obtain ⟨h, _, i, _, hn, hset⟩ := he; exact .inl (hu.set hset fun _ => hn.ok)
  | certify c => obtain ⟨h, _, i, _, hn, hset⟩ := he; exact .inl (hu.set hset fun _ => hn.ok)
  | destroy h => obtain ⟨_, idx, _, he⟩ := he; exact .inl (hu.destroy he)
  | derive c =>
    obtain ⟨idx, h, hp, _, hr, he⟩ := he
    have hpar : ∀ {hp x}, ParentNext st c (st.at idx) hp x → x = .active →
        hp = Handle.default ∨ Unused st hp := by
      rintro hp x (⟨_, _, h⟩ | ⟨_, h, _⟩) hx
      · exact h.ok
      · rw [hx] at h; cases h
    cases he with
    | «recursive» _ _ hn hset => exact .inl (hu.set hset fun _ => hn.ok)
    | @child _ _ _ _ k _ _ hb hx hff _ hch hpa _ h2 h3 h4 _ =>
      by_cases ht : Twins st (.derive c) loc st'
      · exact .inr ht
      left
      refine hu.of (P := fun j => j = k ∨ j = idx) ?_ ?_
      · intro j hj hji
        rw [not_or] at hji
        rw [h4 j hji.1 hji.2] at hj ⊢
        exact ⟨hj, rfl⟩
      · have hki : k ≠ idx := by
          rintro rfl
          have := hff.2.1
          rw [hr.1.1] at this; cases this
        have htw : (st'.at idx).state = .active → (st'.at k).handle ≠ Handle.default →
            (st'.at idx).handle ≠ (st'.at k).handle := by
          intro ha hd e
          rw [h3] at ha
          rcases hpa with ⟨hret, _, _⟩ | ⟨_, h, _⟩
          · exact ht ⟨c, idx, k, rfl, hret, hr, hff, e, by rw [e]; exact hd⟩
          · change _ = _ at ha; rw [h] at ha; cases ha
        rintro j (rfl | rfl) ha hd l hl hla
        · by_cases hli : l = idx
          · subst hli; exact htw hla hd
          · rw [h4 l hl hli] at hla ⊢
            rw [h2] at hd ⊢
            rcases hch with ⟨_, hch⟩ | ⟨_, hch⟩
            · exact absurd hch hd
            · exact hch.ne_active hla
        · by_cases hli : l = k
          · subst hli
            intro e
            exact htw ha (by rw [e]; exact hd) e.symm
          · rw [h4 l hli hl] at hla ⊢
            rw [h3] at hd ha ⊢
            rcases hpar hpa ha with h | h
            · exact absurd h hd
            · exact h.ne_active hla
    | exported _ _ _ _ hpa hset => exact .inl (hu.set hset fun ha => hpar hpa ha)
    | exportedLast _ _ _ _ _ hd => exact .inl (hu.destroy hd)
  | update c =>
    obtain ⟨hc, hp, _, idx, k, v, hr, _, hac, hki, _, hun, hcc, h1, h2, h3, _⟩ := he
    left
    have hc' : (st'.at k).handle ≠ Handle.default → hc ≠ hp ∧
        ∀ j, j < cfg.maxHandles → j ≠ idx → (st.at j).handle ≠ hc := by
      rw [h2]
      intro hd
      rcases hcc with ⟨_, h⟩ | ⟨_, _, h⟩
      · exact absurd h hd
      · exact h
    refine hu.of (P := fun j => j = k ∨ j = idx) ?_ ?_
    · intro j hj hji
      rw [not_or] at hji
      rw [h3 j hji.2 hji.1] at hj ⊢
      exact ⟨hj, rfl⟩
    · rintro j (rfl | rfl) ha hd l hl hla
      · have hh := hc' hd
        by_cases hli : l = idx
        · subst hli; rw [h1, h2]; exact fun e => hh.1 e.symm
        · rw [h3 l hli hl] at hla ⊢
          rw [h2]
          exact hh.2 l (lt_of_live (live_of_active hla)) hli
      · by_cases hli : l = k
        · subst hli
          intro e
          have hh := hc' (by rw [e]; exact hd)
          rw [h1, h2] at e
          exact hh.1 e
        · rw [h3 l hl hli] at hla ⊢
          rw [h1]
          exact hun.ne_active hla

/-- C12 (step): a command, whatever its outcome, keeps non-default handles unique, unless it is
a DeriveContext retaining its parent that gave parent and child the same handle.
Missing from the full claim: the twins case, which a random source that repeats itself within
one command makes real (`C12_twins`). -/
theorem C12_step_partial (hst : InService s.st) (hu : UniqueHandles s.st)
    (h : exec env c loc s = (r, s')) : UniqueHandles s'.st ∨ Twins s.st c loc s'.st := by
  rcases effect_cases_wf hst.wf (digests_true _) h with h | ⟨hs, h⟩ | ⟨u, _, h⟩
  · rw [h]; exact .inl hu
  · exact h.unique hu
  · obtain ⟨idx, k, hp, _, _, _, _, hun, hset⟩ := h
    exact .inl (hu.set hset fun _ => .inr hun)

theorem UniqueHandles.new (support : U32) (flags : BitVec 16) :
    UniqueHandles (State.new cfg support flags) := by
  intro i j hi
  rw [at_new] at hi; cases hi

theorem AfterDefaultInit.eq {support : U32} {flags : BitVec 16} (ops : Ops σ) (w : σ)
    (h : AfterDefaultInit support flags loc st) :
    st = initPost (State.new cfg support flags) 0x40000000 loc 0 Handle.default := by
  let env : Env cfg σ := { toOps := ops, certGen := fun _ _ _ w win => ((.error .panic, w), win) }
  obtain ⟨n, s', h1, h2⟩ := h σ env w (List.replicate 28 0) (by simp)
  obtain ⟨out', h3⟩ := initCtx_new (cfg := cfg) (support := support) (flags := flags) (loc := loc)
    ops w (List.replicate 28 0) (by simp)
  have h4 : exec env (.init 0x40000000) loc ⟨State.new cfg support flags, w, List.replicate 28 0⟩ =
    _ := h3
  rw [h4] at h1
  rw [← h2, ← (Prod.mk.inj h1).2]

theorem autoInit_slots {ops : Ops σ} {ty : U32} {m : BArr cfg.tciSize} {support : U32}
    {flags : BitVec 16} {w : σ} {out : Bytes} {r : Except Err Unit}
    (h : dpeNewAutoInit ops ty m ⟨State.new cfg support flags, w, out⟩ = (r, s')) :
    ∀ i, i ≠ 0 → (s'.st.at i).state = .inactive := by
  intro i hi
  have hz : ∀ {st : State cfg} {loc : U32}, AfterDefaultInit support flags loc st →
      (st.at i).state = .inactive := by
    intro st loc h
    rw [h.eq ops w, at_initPost cfg.pos, if_neg hi, at_new]; rfl
  obtain ⟨_, _, h1, h2⟩ := C51_auto_init (D := fun _ _ => True) (digests_true _) h
  cases r with
  | error e =>
    rcases h1 ⟨e, rfl⟩ with h1 | ⟨loc, _, _, h1⟩
    · rw [h1, at_new]; rfl
    · exact hz h1
  | ok u =>
    obtain ⟨loc, _, _, st1, v, _, _, h3, _, h4⟩ := h2 rfl
    rw [h4.2.1 i hi]; exact hz h3

/-- C12: in every state reached without twins, two different Active contexts never share a
non-default handle.  Missing from the full claim: see `C12_step_partial`. -/
theorem C12_unique_partial (h : ReachableNoTwins st) : UniqueHandles st := by
  induction h with
  | new a b => exact .new a b
  | create ops st w out _ ih =>
    rcases hr : dpeNew ops ⟨st, w, out⟩ with ⟨r, s'⟩
    rcases dpeNew_effect hr with h | ⟨loc, h⟩
    · simp only at h; rw [h]; exact ih
    · exact h.unique ih
  | autoInit ops ty m a b w out =>
    rcases hr : dpeNewAutoInit ops ty m ⟨State.new cfg a b, w, out⟩ with ⟨r, s'⟩
    have hz := autoInit_slots hr
    intro i j hi hj _ _
    by_cases h1 : i = 0
    · by_cases h2 : j = 0
      · rw [h1, h2]
      · rw [hz j h2] at hj; cases hj
    · rw [hz i h1] at hi; cases hi
  | step env c loc st w out hp ht ih =>
    rcases hr : exec env c loc ⟨st, w, out⟩ with ⟨r, s'⟩
    rw [hr] at ht
    exact (C12_step_partial (s := ⟨st, w, out⟩) hp.reachable ih hr).resolve_right ht

theorem Effect.awakened {D : Bytes → Bytes → Prop} {hs : List Handle} {j : Nat}
    (he : Effect D st loc c hs st') (h0 : (st.at j).state ≠ .active)
    (h1 : (st'.at j).state = .active) :
    (st'.at j).handle = Handle.default ∨ Unused st (st'.at j).handle := by
  have set : ∀ {i : Nat} {x : Context cfg}, (st.at i).state = .active → SetSlot st i x st' → False := by
    intro i x ha hs
    by_cases e : j = i
    · subst e; exact h0 ha
    · rw [hs.2.1 j e] at h1; exact h0 h1
  cases c with
  | getProfile => rw [he.2] at h1; exact absurd h1 h0
  | chain c => rw [he.2] at h1; exact absurd h1 h0
  | init f =>
    obtain ⟨h, _, i, _, h2, h3, _, _, h4⟩ := he
    by_cases e : j = i
    · subst e
      rw [h2]
      rcases h4 with ⟨_, _, _, h4⟩ | ⟨_, _, _, h4⟩
      · exact .inl h4
      · exact .inr h4
    · rw [h3 j e] at h1; exact absurd h1 h0
  | rotate c => obtain ⟨h, _, i, hr, hset, hc⟩ := he; exact (set hr.1.1 hset).elim
  | sign c => obtain ⟨h, _, i, hr, hn, hset⟩ := he; exact (set hr.1.1 hset).elim
  | certify c => obtain ⟨h, _, i, hr, hn, hset⟩ := he; exact (set hr.1.1 hset).elim
  | destroy h => obtain ⟨_, idx, _, he⟩ := he; exact absurd (he.active h1).1 h0
  | derive c =>
    obtain ⟨idx, h, hp, _, hr, he⟩ := he
    cases he with
    | «recursive» _ _ hn hset => exact (set hr.1.1 hset).elim
    | @child _ _ _ _ k _ _ hb hx hff _ hch hpa _ h2 h3 h4 _ =>
      by_cases e : j = k
      · subst e; rw [h2]
        rcases hch with ⟨_, hch⟩ | ⟨_, hch⟩
        · exact .inl hch
        · exact .inr hch
      · by_cases e' : j = idx
        · subst e'; exact absurd hr.1.1 h0
        · rw [h4 j e e'] at h1; exact absurd h1 h0
    | exported _ _ _ _ hpa hset => exact (set hr.1.1 hset).elim
    | exportedLast _ _ _ _ _ hd => exact absurd (hd.active h1).1 h0
  | update c =>
    obtain ⟨hc, hp, _, idx, k, v, hr, _, hac, hki, _, hun, hcc, h2, h3, h4, _⟩ := he
    by_cases e : j = k
    · subst e; exact absurd hac.2.1 h0
    · by_cases e' : j = idx
      · subst e'; exact absurd hr.1.1 h0
      · rw [h4 j e' e] at h1; exact absurd h1 h0

/-- C11/C12: where handles are unique, after a successful command that keeps the context named
by a non-default handle, that handle names nothing any more, from any locality (for
UpdateContextMeasurement: nothing but possibly the updated child, see `C11_update_reuse`). -/
theorem C11_gone {n i k : Nat} {h : Handle} (hst : InService s.st) (hu : UniqueHandles s.st)
    (hr : exec env c loc s = (.ok n, s')) (hh : c.usesHandle = some h) (hk : KeepsNamed c k)
    (hi : Resolves s.st h loc i) (hd : h ≠ Handle.default) (l : U32) (j : Nat)
    (hj : Names s'.st h l j) : ∃ u, c = .update u ∧ ActiveChild s.st i u.tciType j := by
  obtain ⟨_, _, h1, _⟩ := C11_one_time hst hr hh hk hi
  obtain ⟨_, _, h2⟩ := h1 hd
  have hlt : j < cfg.maxHandles := lt_of_live (live_of_active hj.1)
  obtain ⟨hji, h3⟩ := h2 j hlt hj.2.1
  refine h3.elim (fun h3 => ?_) id
  -- the slot already had the handle, so by uniqueness it was not Active before
  exfalso
  have hna : (s.st.at j).state ≠ .active := by
    intro ha
    exact hji (hu j i ha hi.1.1 (by rw [h3, hi.1.2.1]) (by rw [h3]; exact hd))
  obtain ⟨hs, he, _⟩ := C52_success_effect (D := fun _ _ => True) hst (digests_true _) hr
  rcases he.awakened hna hj.1 with h4 | h4
  · exact hd (by rw [← hj.2.1]; exact h4)
  · exact h4.2 j hlt (by rw [h3, hj.2.1])

/-- C12: a (handle, locality) pair names at most one context wherever handles are unique and
default contexts are alone. -/
theorem C12_names_one (hu : UniqueHandles st) (hd : DefaultAlone st) {h : Handle} {i j : Nat}
    (hi : Names st h loc i) (hj : Names st h loc j) : i = j := by
  by_cases e : h = Handle.default
  · exact hd i j hi.1 hj.1 (by rw [hi.2.2, hj.2.2]) (by rw [hi.2.1, e])
  · exact hu i j hi.1 hj.1 (by rw [hi.2.1, hj.2.1]) (by rw [hi.2.1]; exact e)

/-! ### C47: every handle that appears is fresh -/

/-- The command asks for the default handle to be assigned. -/
def AsksDefault : Cmd cfg → Prop
  | .init f => Bit f IFlag.default
  | .rotate c => Bit c.flags RFlag.targetIsDefault
  | .derive c => Bit c.flags DFlag.makeDefault
  | _ => False

/-- C47: a slot whose handle changes during a command (whatever its outcome) ends up with a
non-default handle carried by no slot before the command; or with the default handle, because
the command asked for it; or with the invalid marker, the context being no longer Active; or it
is the child of an UpdateContextMeasurement and its new handle is non-default, was carried by no
slot except possibly the parent, and is not the parent's new handle. -/
theorem C47_stored (hst : InService s.st) (h : exec env c loc s = (r, s')) (j : Nat)
    (hne : (s'.st.at j).handle ≠ (s.st.at j).handle) :
    Unused s.st (s'.st.at j).handle ∨
    ((s'.st.at j).handle = Handle.default ∧ AsksDefault c) ∨
    ((s'.st.at j).handle = Handle.invalid ∧ (s'.st.at j).state ≠ .active) ∨
    (∃ u i, c = .update u ∧ Resolves s.st u.parentHandle loc i ∧ ActiveChild s.st i u.tciType j ∧
      (s'.st.at j).handle ≠ Handle.default ∧ (s'.st.at j).handle ≠ (s'.st.at i).handle ∧
      ∀ k, k < cfg.maxHandles → k ≠ i → (s.st.at k).handle ≠ (s'.st.at j).handle) := by
  have key : ∀ {i : Nat} {x : Context cfg}, SetSlot s.st i x s'.st → (s'.st.at j).handle = x.handle ∧ j = i := by
    intro i x hs
    by_cases e : j = i
    · subst e; exact ⟨by rw [hs.1], rfl⟩
    · exact absurd (by rw [hs.2.1 j e]) hne
  have next : ∀ {i : Nat} {a b : Handle}, (s.st.at i).handle = a → NextHandle s.st a b → j = i →
      (s'.st.at j).handle = b → Unused s.st (s'.st.at j).handle := by
    intro i a b h1 h2 h3 h4
    rcases h2 with ⟨h5, h6⟩ | ⟨_, h6⟩
    · subst h3; exact absurd (by rw [h4, h6, h1, h5]) hne
    · rw [h4]; exact h6
  have destr : ∀ {i : Nat}, DestroyEffect s.st i s'.st →
      (s'.st.at j).handle = Handle.invalid ∧ (s'.st.at j).state ≠ .active := by
    intro i hd
    by_cases e : DestroyedWith s.st i j
    · rw [hd.1 j e]; exact ⟨rfl, by simp [wiped]⟩
    · obtain ⟨ch, hc⟩ := (hd.2.1 j e).1
      exact absurd (by rw [hc]) hne
  rcases effect_cases_wf hst.wf (digests_true _) h with h1 | ⟨hs, he⟩ | ⟨u, _, h1⟩
  · exact absurd (by rw [h1]) hne
  · cases c with
    | getProfile => exact absurd (by rw [he.2]) hne
    | chain c => exact absurd (by rw [he.2]) hne
    | init f =>
      obtain ⟨h, _, i, _, h2, h3, _, _, h4⟩ := he
      by_cases e : j = i
      · subst e
        rw [h2]
        rcases h4 with ⟨h5, _, _, h4⟩ | ⟨_, _, _, h4⟩
        · exact .inr (.inl ⟨h4, h5⟩)
        · exact .inl h4
      · exact absurd (by rw [h3 j e]) hne
    | rotate c =>
      obtain ⟨h, _, i, hr, hset, hc⟩ := he
      obtain ⟨h1, rfl⟩ := key hset
      rw [h1]
      rcases hc with ⟨h5, hc, _⟩ | ⟨_, hc⟩
      · exact .inr (.inl ⟨hc, h5⟩)
      · exact .inl hc
    | sign c =>
      obtain ⟨h, _, i, hr, hn, hset⟩ := he
      obtain ⟨h1, h2⟩ := key hset
      exact .inl (next hr.1.2.1 hn h2 h1)
    | certify c =>
      obtain ⟨h, _, i, hr, hn, hset⟩ := he
      obtain ⟨h1, h2⟩ := key hset
      exact .inl (next hr.1.2.1 hn h2 h1)
    | destroy h => obtain ⟨_, idx, _, he⟩ := he; exact .inr (.inr (.inl (destr he)))
    | derive c =>
      obtain ⟨idx, h, hp, _, hr, he⟩ := he
      cases he with
      | «recursive» _ _ hn hset =>
        obtain ⟨h1, h2⟩ := key hset
        exact .inl (next hr.1.2.1 hn h2 h1)
      | @child _ _ _ _ k _ _ hb hx hff _ hch hpa _ h2 h3 h4 _ =>
        by_cases e : j = k
        · subst e; rw [h2]
          rcases hch with ⟨h5, hch⟩ | ⟨_, hch⟩
          · exact .inr (.inl ⟨hch, h5⟩)
          · exact .inl hch
        · by_cases e' : j = idx
          · rcases hpa with ⟨_, h5, hn⟩ | ⟨_, h5, h6⟩
            · exact .inl (next rfl hn e' (by rw [e', h3]))
            · subst e'; rw [h3]
              exact .inr (.inr (.inl ⟨h6, by simp [h5]⟩))
          · exact absurd (by rw [h4 j e e']) hne
      | exported _ _ _ _ hpa hset =>
        obtain ⟨h1, h2⟩ := key hset
        rcases hpa with ⟨_, h5, hn⟩ | ⟨_, h5, h6⟩
        · exact .inl (next rfl hn h2 h1)
        · exact .inr (.inr (.inl ⟨by rw [h1]; exact h6, by rw [h2, hset.1]; simp [h5]⟩))
      | exportedLast _ _ _ _ _ hd => exact .inr (.inr (.inl (destr hd)))
    | update c =>
      obtain ⟨hc, hp, _, idx, k, v, hr, hnd, hac, hki, _, hun, hcc, h1, h2, h3, _⟩ := he
      by_cases e : j = idx
      · subst e; rw [h1]; exact .inl hun
      · by_cases e' : j = k
        · subst e'
          rcases hcc with ⟨h4, h5⟩ | ⟨_, h5, h6, h7⟩
          · exact absurd (by rw [h2, h4]; exact h5) hne
          · exact .inr (.inr (.inr ⟨c, idx, rfl, hr, hac, by rw [h2]; exact h5,
              by rw [h1, h2]; exact h6, fun k hk hki => by rw [h2]; exact h7 k hk hki⟩))
        · exact absurd (by rw [h3 j e e']) hne
  · obtain ⟨idx, k, hp, hr, hnd, _, _, hun, hset⟩ := h1
    obtain ⟨h1, h2⟩ := key hset
    exact .inl (by rw [h1]; exact hun)

/-! ### C13 -/

theorem DefaultAlone.of {P : Nat → Prop} (hu : DefaultAlone st)
    (hold : ∀ i, (st'.at i).state = .active → ¬ P i →
      (st.at i).state = .active ∧ (st'.at i).locality = (st.at i).locality ∧
        ((st'.at i).handle = Handle.default → (st.at i).handle = Handle.default))
    (hnew : ∀ i, P i → (st'.at i).state = .active →
      ∀ j, j ≠ i → (st'.at j).state = .active → (st'.at j).locality = (st'.at i).locality →
        (st'.at i).handle ≠ Handle.default ∧ (st'.at j).handle ≠ Handle.default) :
    DefaultAlone st' := by
  intro i j hi hj he hd
  by_contra hne
  by_cases pi : P i
  · exact (hnew i pi hi j (fun h => hne h.symm) hj he.symm).1 hd
  · by_cases pj : P j
    · exact (hnew j pj hj i hne hi he).2 hd
    · obtain ⟨a1, a2, a3⟩ := hold i hi pi
      obtain ⟨b1, b2, b3⟩ := hold j hj pj
      rw [a2, b2] at he
      exact hne (hu i j a1 b1 he (a3 hd))

/-- Only slot `i` changes, it stays in its locality, and becomes default only if it was, or is
alone. -/
theorem DefaultAlone.set {i : Nat} {x : Context cfg} (hu : DefaultAlone st)
    (hs : SetSlot st i x st') (ha : (st.at i).state = .active) (hl : x.locality = (st.at i).locality)
    (hh : x.state = .active → x.handle = Handle.default → (st.at i).handle = Handle.default ∨
      ∀ j, (st.at j).state = .active → (st.at j).locality = (st.at i).locality → j = i) :
    DefaultAlone st' := by
  refine hu.of (P := (· = i)) ?_ ?_
  · intro j hj hji
    rw [hs.2.1 j hji] at hj ⊢
    exact ⟨hj, rfl, id⟩
  · rintro j rfl hj k hk hka hkl
    rw [hs.1] at hj hkl ⊢
    rw [hs.2.1 k hk] at hka hkl ⊢
    rw [hl] at hkl
    constructor
    · intro e
      rcases hh hj e with h | h
      · exact hk (hu j k ha hka hkl.symm h).symm
      · exact hk (h k hka hkl)
    · intro e
      exact hk (hu k j hka ha hkl e)

theorem NextHandle.default {a b : Handle} (h : NextHandle st a b) (hb : b = Handle.default) :
    a = Handle.default := by
  rcases h with h | h
  · exact h.1
  · exact absurd hb h.2.1

theorem DefaultAlone.destroy {idx : Nat} (hu : DefaultAlone st) (hd : DestroyEffect st idx st') :
    DefaultAlone st' :=
  hu.of (P := fun _ => False) (fun _ hi _ => ⟨(hd.active hi).1, (hd.active hi).2.2,
    fun h => by rw [← (hd.active hi).2.1]; exact h⟩) (fun _ h => h.elim)

/-- Any effect other than that of InitializeContext keeps default contexts alone, if the
default rule of DeriveContext was respected. -/
theorem Effect.alone {D : Bytes → Bytes → Prop} {hs : List Handle} (hu : DefaultAlone st)
    (hni : ∀ f, c ≠ .init f) (hn : NoRefusal (lateRules st loc c))
    (he : Effect D st loc c hs st') : DefaultAlone st' := by
  cases c with
  | getProfile => rw [he.2]; exact hu
  | chain c => rw [he.2]; exact hu
  | init f => exact absurd rfl (hni f)
  | rotate c =>
    obtain ⟨h, _, i, hr, hset, hc⟩ := he
    refine hu.set hset hr.1.1 rfl fun _ e => ?_
    rcases hc with ⟨_, _, hc, _⟩ | ⟨_, hc⟩
    · exact .inr fun j ha hl => hc j ha (by rw [hl]; exact hr.1.2.2)
    · exact absurd e hc.1
  | sign c =>
    obtain ⟨h, _, i, hr, hn, hset⟩ := he
    exact hu.set hset hr.1.1 rfl fun _ e => .inl (by rw [hr.1.2.1]; exact hn.default e)
  | certify c =>
    obtain ⟨h, _, i, hr, hn, hset⟩ := he
    exact hu.set hset hr.1.1 rfl fun _ e => .inl (by rw [hr.1.2.1]; exact hn.default e)
  | destroy h => obtain ⟨_, idx, _, he⟩ := he; exact hu.destroy he
  | derive c =>
    obtain ⟨idx, h, hp, _, hr, he⟩ := he
    have hpar : ∀ {hp x}, ParentNext st c (st.at idx) hp x → x = .active → hp = Handle.default →
        (st.at idx).handle = Handle.default := by
      rintro hp x (⟨_, _, h⟩ | ⟨_, h, _⟩) hx e
      · exact h.default e
      · rw [hx] at h; cases h
    cases he with
    | «recursive» _ _ hn hset =>
      exact hu.set hset hr.1.1 rfl fun _ e => .inl (by rw [hr.1.2.1]; exact hn.default e)
    | @child _ _ _ s k _ _ hb hx hff _ hch hpa _ h2 h3 h4 _ =>
      have hcl : ¬ DefaultClash st c idx (targetOf c loc) := by
        intro hcl
        simp only [lateRules, NoRefusal.cons] at hn
        exact hn.2.1 ⟨hb, hx, idx, hr, hcl⟩
      have hki : k ≠ idx := by
        rintro rfl
        have := hff.2.1
        rw [hr.1.1] at this; cases this
      have hl2 : (st'.at k).locality = targetOf c loc := by rw [h2]; rfl
      have hl3 : (st'.at idx).locality = (st.at idx).locality := by rw [h3]
      -- the parent part alone
      have hold : ∀ i, (st'.at i).state = .active → ¬ i = k →
          (st.at i).state = .active ∧ (st'.at i).locality = (st.at i).locality ∧
          ((st'.at i).handle = Handle.default → (st.at i).handle = Handle.default) := by
        intro i hi hik
        by_cases hii : i = idx
        · subst hii
          refine ⟨hr.1.1, hl3, fun e => ?_⟩
          rw [h3] at hi e
          exact hpar hpa hi e
        · rw [h4 i hik hii] at hi ⊢
          exact ⟨hi, rfl, id⟩
      refine hu.of (P := (· = k)) hold ?_
      rintro i rfl hi j hji hja hjl
      obtain ⟨o1, o2, o3⟩ := hold j hja hji
      rw [o2, hl2] at hjl
      -- if `j` is the parent then it was retained
      have hret : j = idx → Bit c.flags DFlag.retainParent := by
        rintro rfl
        rw [h3] at hja
        rcases hpa with ⟨h, _⟩ | ⟨_, h, _⟩
        · exact h
        · change s = _ at hja
          rw [h] at hja; cases hja
      constructor
      · intro e
        rw [h2] at e
        rcases hch with ⟨hm, _⟩ | ⟨_, hch⟩
        · refine hcl (.inl ⟨hm, j, o1, hjl, ?_⟩)
          by_cases hjd : j = idx
          · exact .inr (.inl (hret hjd))
          · exact .inl hjd
        · exact absurd e hch.1
      · intro e
        have hdj := o3 e
        by_cases hm : Bit c.flags DFlag.makeDefault
        · refine hcl (.inl ⟨hm, j, o1, hjl, ?_⟩)
          by_cases hjd : j = idx
          · exact .inr (.inl (hret hjd))
          · exact .inl hjd
        · obtain ⟨d, hd⟩ := exists_resolves (st := st) (h := Handle.default) (loc := targetOf c loc)
            (i := j) ⟨o1, hdj, hjl⟩
          have hdj : d = j := hu d j hd.1.1 o1 (by rw [hd.1.2.2, hjl]) hd.1.2.1
          subst hdj
          refine hcl (.inr ⟨hm, d, hd, ?_⟩)
          by_cases hjd : d = idx
          · exact .inr (hret hjd)
          · exact .inl hjd
    | exported _ _ _ _ hpa hset =>
      exact hu.set hset hr.1.1 rfl fun ha e => .inl (hpar hpa ha e)
    | exportedLast _ _ _ _ _ hd => exact hu.destroy hd
  | update c =>
    obtain ⟨hc, hp, _, idx, k, v, hr, hnd, hac, hki, _, hun, hcc, h1, h2, h3, _⟩ := he
    refine hu.of (P := fun _ => False) ?_ (fun _ h => h.elim)
    intro i hi _
    by_cases e : i = idx
    · subst e
      rw [h1]
      exact ⟨hr.1.1, rfl, fun e => absurd e hun.1⟩
    · by_cases e' : i = k
      · subst e'
        rw [h2]
        refine ⟨hac.2.1, rfl, fun e => ?_⟩
        rcases hcc with ⟨h, _⟩ | ⟨_, h, _⟩
        · exact h
        · exact absurd e h
      · rw [h3 i e e'] at hi ⊢
        exact ⟨hi, rfl, id⟩

/-- C13 (step): every command other than InitializeContext, whatever its outcome, keeps default
contexts alone in their localities. -/
theorem C13_step (hst : InService s.st) (hu : DefaultAlone s.st) (hni : ∀ f, c ≠ .init f)
    (h : exec env c loc s = (r, s')) : DefaultAlone s'.st := by
  rcases effect_cases_wf hst.wf (digests_true _) h with h1 | ⟨hs, h1⟩ | ⟨u, _, h1⟩
  · rw [h1]; exact hu
  · rcases exec_verdict hst.wf h with ⟨_, _, _, h2⟩ | ⟨_, ⟨_, _, h2, _⟩ | ⟨h2, _⟩⟩
    · rw [h2]; exact hu
    · rw [h2]; exact hu
    · exact h1.alone hu hni h2
  · obtain ⟨idx, k, hp, hr, hnd, _, _, hun, hset⟩ := h1
    exact hu.set hset hr.1.1 rfl fun _ e => absurd e hun.1

theorem InitEffect.alone {f : U32} {h : Handle} (he : InitEffect st f loc h st')
    (hn : ∀ i, ¬ ((st.at i).state = .active)) : DefaultAlone st' := by
  obtain ⟨k, _, _, h2, _⟩ := he
  intro i j hi hj _ _
  by_cases e : i = k
  · by_cases e' : j = k
    · rw [e, e']
    · rw [h2 j e'] at hj; exact absurd hj (hn j)
  · rw [h2 i e] at hi; exact absurd hi (hn i)

theorem none_active_of_fresh (hst : InService st) (hns : ¬ st.supports Feature.simulation)
    (h : st.hasInitialized = false) (i : Nat) : ¬ ((st.at i).state = .active) := by
  intro ha
  have hn := (C16_attributes hst).1 hns i
  rw [hst.wf.inited i (live_of_active ha) hn] at h
  cases h

theorem alone_create {ops : Ops σ} {st : State cfg} {w : σ} {out : Bytes} (hst : InService st)
    (ih : ¬ st.supports Feature.simulation → DefaultAlone st)
    (hns : ¬ (dpeNew ops ⟨st, w, out⟩).2.st.supports Feature.simulation) :
    DefaultAlone (dpeNew ops ⟨st, w, out⟩).2.st := by
  rcases hr : dpeNew ops ⟨st, w, out⟩ with ⟨r, s'⟩
  rw [hr] at hns
  rcases dpeNew_effect hr with h | ⟨loc, h⟩
  · simp only at h hns ⊢; rw [h] at hns ⊢; exact ih hns
  · have h0 := h
    obtain ⟨_, _, _, _, hcfg, _, h5⟩ := h
    have hns' : ¬ st.supports Feature.simulation := by
      unfold State.supports at hns ⊢; rw [hcfg.2.2.1] at hns; exact hns
    rcases h5 with ⟨_, _, h5, _⟩ | ⟨_, _, h5, _⟩
    · exact h0.alone (none_active_of_fresh hst hns' h5)
    · exact absurd h5 hns'

theorem alone_step {env : Env cfg σ} {c : Cmd cfg} {loc : U32} {st : State cfg} {w : σ} {out : Bytes}
    (hst : InService st) (ih : ¬ st.supports Feature.simulation → DefaultAlone st)
    (hns : ¬ (exec env c loc ⟨st, w, out⟩).2.st.supports Feature.simulation) :
    DefaultAlone (exec env c loc ⟨st, w, out⟩).2.st := by
  rcases hr : exec env c loc ⟨st, w, out⟩ with ⟨r, s'⟩
  rw [hr] at hns
  rcases effect_cases_wf (s := ⟨st, w, out⟩) hst.wf (digests_true _) hr with h1 | ⟨hs, h1⟩ | ⟨u, hu, h1⟩
  · simp only at h1 hns ⊢; rw [h1] at hns ⊢; exact ih hns
  · have hns' : ¬ st.supports Feature.simulation := by
      unfold State.supports at hns ⊢; rw [h1.config.1.2.2.1] at hns; exact hns
    by_cases hi : ∃ f, c = .init f
    · obtain ⟨f, rfl⟩ := hi
      obtain ⟨h, _, h1⟩ := h1
      have h0 := h1
      obtain ⟨_, _, _, _, hcfg, _, h5⟩ := h1
      rcases h5 with ⟨_, _, h5, _⟩ | ⟨_, _, h5, _⟩
      · exact h0.alone (none_active_of_fresh hst hns' h5)
      · exact absurd h5 hns'
    · exact C13_step (s := ⟨st, w, out⟩) hst (ih hns') (fun f h => hi ⟨f, h⟩) hr
  · have hns' : ¬ st.supports Feature.simulation := by
      obtain ⟨_, _, _, _, _, _, _, _, hset⟩ := h1
      unfold State.supports at hns ⊢; rw [hset.2.2.1.2.2.1] at hns; exact hns
    exact C13_step (s := ⟨st, w, out⟩) hst (ih hns') (fun f h => by rw [hu] at h; cases h) hr

/-- C13: on an instance without simulation support a default-handle Active context is always the
only Active context of its locality.  Missing from the full claim: instances with simulation
support, where it is false (`C13_false_simulation`) because InitializeContext does not look at
the other contexts of its locality. -/
theorem C13_alone_partial (hst : InService st) (hns : ¬ st.supports Feature.simulation) :
    DefaultAlone st := by
  induction hst with
  | reached hst =>
    induction hst with
    | new a b => intro i j hi; rw [at_new] at hi; cases hi
    | create ops st w out hst ih => exact alone_create hst ih hns
    | autoInit ops ty m a b w out =>
      rcases hr : dpeNewAutoInit ops ty m ⟨State.new cfg a b, w, out⟩ with ⟨r, s'⟩
      have hz := autoInit_slots hr
      intro i j hi hj _ _
      by_cases h1 : i = 0
      · by_cases h2 : j = 0
        · rw [h1, h2]
        · rw [hz j h2] at hj; cases hj
      · rw [hz i h1] at hi; cases hi
    | step env c loc st w out hst ih => exact alone_step hst ih hns
  | @restored st fuel hf h _ =>
    have := validateDpe_res hf (st := st)
    rw [h] at this
    exact Lawful.alone this
  | create ops st w out hst ih => exact alone_create hst ih hns
  | step env c loc st w out hst ih => exact alone_step hst ih hns

end

/-! ### Witnesses and non-vacuity -/

/-- A random source that always delivers handle 9. -/
def Toy.same : Env Toy.cfg Nat := { Toy.env with rand := fun n => (.ok (Toy.hd 9), n + 1) }

/-- C12 is false in general: with a random source that repeats itself, deriving a retained child
through a non-default handle gives parent and child the same handle. -/
theorem C12_twins :
    let s : Sys Toy.cfg Nat := Toy.s2.sys
    let x := exec Toy.same Toy.s3cmd 0 s
    Reachable s.st ∧ (∃ n, x.1 = .ok n) ∧ ¬ UniqueHandles x.2.st ∧
      Names x.2.st (Toy.hd 9) 0 0 ∧ Names x.2.st (Toy.hd 9) 0 1 := by
  refine ⟨Toy.s2.reach, ⟨44, by decide +kernel⟩, fun h => ?_, ?_, ?_⟩
  · exact absurd (h 0 1 (by decide +kernel) (by decide +kernel) (by decide +kernel)
      (by decide +kernel)) (by decide)
  · unfold Names; decide +kernel
  · unfold Names; decide +kernel

/-- C13 is false in general: a simulation context initialised in the locality of the default
context. -/
theorem C13_false_simulation :
    let st := (Toy.s1.step (.init 0x80000000) 0).st
    Reachable st ∧ ¬ DefaultAlone st := by
  refine ⟨(Toy.s1.step (.init 0x80000000) 0).reach, fun h => ?_⟩
  exact absurd (h 0 1 (by decide +kernel) (by decide +kernel) (by decide +kernel)
    (by decide +kernel)) (by decide)

/-- C12 is false for the default handle: a simulation context made default, then a default
initialisation in the same locality, give two contexts that answer to the default handle. -/
theorem C12_false_default :
    let st := (((Toy.s0.step (.init 0x80000000) 0).step (.rotate ⟨Toy.hd 1, 0x80000000⟩) 0).step
      (.init 0x40000000) 0).st
    Reachable st ∧ Names st Handle.default 0 0 ∧ Names st Handle.default 0 1 := by
  refine ⟨Toy.R.reach _, ?_, ?_⟩
  · unfold Names; decide +kernel
  · unfold Names; decide +kernel

/-- Non-vacuity for C12: the derive of `Toy.s3` makes no twins, and `s3` is reached without
any. -/
example : ¬ Twins Toy.s2.st Toy.s3cmd 0 Toy.s3.st ∧ UniqueHandles Toy.s3.st := by
  have hs : ∃ x, exec Toy.env Toy.s3cmd 0 Toy.s2.sys = x ∧ x.2.st = Toy.s3.st :=
    ⟨_, rfl, by unfold Toy.s3 Toy.R.step Toy.run; rfl⟩
  have hr : Resolves Toy.s2.st (Toy.hd 1) 0 0 :=
    ⟨⟨by decide +kernel, by decide +kernel, by decide +kernel⟩, fun j hj => by omega⟩
  have hf : FirstFree Toy.s2.st 1 := by
    refine ⟨by decide, by decide +kernel, fun j hj => ?_⟩
    obtain rfl : j = 0 := by omega
    unfold Live; decide +kernel
  have ht : ¬ Twins Toy.s2.st Toy.s3cmd 0 Toy.s3.st := by
    rintro ⟨k, i, j, h1, _, h3, h4, h5, _⟩
    cases h1
    cases h3.unique hr
    have : j = 1 := by
      have a : ¬ j < 1 := fun h => hf.2.2 j h h4.2.1
      have b : ¬ 1 < j := fun h => h4.2.2 1 h hf.2.1
      omega
    subst this
    revert h5
    decide +kernel
  refine ⟨ht, ?_⟩
  obtain ⟨⟨r, s'⟩, h1, h2⟩ := hs
  have hu : UniqueHandles Toy.s2.sys.st := by
    have h0 : ∀ i, 1 ≤ i → (Toy.s2.st.at i).state = .inactive := by
      intro i hi
      by_cases h : i < 4
      · have : ∀ i, i < 4 → 1 ≤ i → (Toy.s2.st.at i).state = .inactive := by decide +kernel
        exact this i h hi
      · rw [at_of_ge (by simpa [Toy.cfg] using h)]; rfl
    intro i j hi hj _ _
    have a : ¬ 1 ≤ i := fun h => by rw [h0 i h] at hi; cases hi
    have b : ¬ 1 ≤ j := fun h => by rw [h0 j h] at hj; cases hj
    omega
  rw [← h2]
  exact (C12_step_partial Toy.s2.sys_reach hu h1).resolve_right (by simp only at h2; rw [h2]; exact ht)

/-- Non-vacuity for C47_stored: deriving `s3` gives slots 0 and 1 the handles 2 and 3. -/
example : (Toy.s3.st.at 0).handle = Toy.hd 2 ∧ (Toy.s2.st.at 0).handle = Toy.hd 1 ∧
    (Toy.s3.st.at 1).handle = Toy.hd 3 ∧ (Toy.s2.st.at 1).handle ≠ Toy.hd 3 := by decide +kernel

/-- Non-vacuity for C13: an instance without simulation support with a default child in another
locality than its (non-default) parent. -/
example : ∃ x : Toy.R, ¬ x.st.supports Feature.simulation ∧ (x.st.at 1).state = .active ∧
    (x.st.at 1).handle = Handle.default ∧ (x.st.at 0).state = .active := by
  refine ⟨(Toy.R.mk (State.new Toy.cfg 0x5FFFFFFF 0, 0) (.new _ _)).step (.init 0x40000000) 0 |>.step
    (.rotate ⟨Handle.default, 0⟩) 0 |>.step (.derive ⟨Toy.hd 1, Toy.data 0 0,
      Toy.fRetain ||| Toy.fMakeDefault ||| Toy.fChangeLoc, 5, 7, 0⟩) 0, ?_⟩
  unfold State.supports
  decide +kernel

end Dpe
