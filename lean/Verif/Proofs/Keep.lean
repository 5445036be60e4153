import Verif.Spec.Keep
import Verif.Props.Binding
import Verif.Props.Unique
import Verif.Proofs.SoftKey
/-
Helper lemmas for C74.
-/
namespace Dpe
variable {cfg : Cfg} {σ : Type} {st st' : State cfg} {i : Nat} {loc : U32} {c : Cmd cfg}

theorem Desc.lists {a b : Nat} (h : Desc st a b) : ∃ k, Lists st a k := by
  rcases h.cases_head with h | ⟨k, h, _⟩
  · exact ⟨_, h⟩
  · exact ⟨_, h⟩

theorem Meant.named {h : Handle} (hm : ¬ Meant st loc c i) (hc : c.usesHandle = some h) {idx : Nat}
    (hr : Resolves st h loc idx) : idx ≠ i := by
  rintro rfl
  exact hm (.inl ⟨h, hc, hr⟩)

/-- A context that is Active is not touched by a command that is not about it, but for its list of
children. -/
theorem Effect.left {D : Bytes → Bytes → Prop} {hs : List Handle} (he : Effect D st loc c hs st')
    (ha : (st.at i).state = .active) (hm : ¬ Meant st loc c i) :
    ∃ ch, st'.at i = { st.at i with children := ch } := by
  have free : ∀ {k}, FirstFree st k → i ≠ k := by
    rintro k hk rfl
    rw [hk.2.1] at ha; cases ha
  have same : st'.at i = st.at i → ∃ ch, st'.at i = { st.at i with children := ch } :=
    fun h => ⟨(st.at i).children, h⟩
  have gone : ∀ {idx}, DestroyEffect st idx st' → i ≠ idx → ¬ Desc st idx i →
      ∃ ch, st'.at i = { st.at i with children := ch } := by
    intro idx hd h1 h2
    refine (hd.2.1 i ?_).1
    rintro (h | h | h)
    · exact h1 h
    · exact h2 h
    · rw [h.retired] at ha; cases ha
  cases c with
  | getProfile => exact same (by rw [he.2])
  | chain c => exact same (by rw [he.2])
  | init f => obtain ⟨h, _, k, hk, _, h2, _⟩ := he; exact same (h2 i (free hk))
  | rotate c =>
    obtain ⟨h, _, k, hr, hset, _⟩ := he
    exact same (hset.2.1 i (Meant.named hm rfl hr).symm)
  | sign c =>
    obtain ⟨h, _, k, hr, _, hset⟩ := he
    exact same (hset.2.1 i (Meant.named hm rfl hr).symm)
  | certify c =>
    obtain ⟨h, _, k, hr, _, hset⟩ := he
    exact same (hset.2.1 i (Meant.named hm rfl hr).symm)
  | destroy h =>
    obtain ⟨_, idx, hr, hd⟩ := he
    exact gone hd (Meant.named hm rfl hr).symm fun h2 => hm (.inr (.inl ⟨h, idx, rfl, hr, h2⟩))
  | derive c =>
    obtain ⟨idx, h, hp, _, hr, he⟩ := he
    have hne := (Meant.named hm rfl hr).symm
    cases he with
    | «recursive» _ _ _ hset => exact same (hset.2.1 i hne)
    | «child» _ _ hk _ _ _ _ _ _ h4 _ => exact same (h4 i (free hk) hne)
    | exported _ _ _ _ _ hset => exact same (hset.2.1 i hne)
    | exportedLast _ _ _ _ hn hd =>
      refine gone hd hne fun h2 => ?_
      obtain ⟨k, hk⟩ := h2.lists
      exact hn k hk
  | update c =>
    obtain ⟨hc, hp, _, idx, k, v, hr, _, hac, _, _, _, _, _, _, h3, _⟩ := he
    refine same (h3 i (Meant.named hm rfl hr).symm ?_)
    rintro rfl
    exact hm (.inr (.inr ⟨c, idx, rfl, hr, hac⟩))

/-! ### No other context takes its name -/

theorem active_at {j : Nat} (h : (st.at j).state = .active) : j < cfg.maxHandles :=
  lt_of_live (by unfold Live; rw [h]; decide)

theorem Unused.other {h : Handle} (hu : Unused st h) (ha : (st.at i).state = .active) {x : Context cfg}
    (hx : x.handle = h) : ¬ SameName (st.at i) x := fun e =>
  hu.2 i (active_at ha) (by rw [← e.1, hx])

theorem Sole.of (hs : Sole st i) (hi : ∃ ch, st'.at i = { st.at i with children := ch })
    (h : ∀ j, j ≠ i → (st'.at j).state = .active →
      ((st.at j).state = .active ∧ (st'.at j).handle = (st.at j).handle ∧
        (st'.at j).locality = (st.at j).locality) ∨ ¬ SameName (st.at i) (st'.at j)) : Sole st' i := by
  obtain ⟨ch, hi⟩ := hi
  intro j hj hn
  rw [hi] at hn
  have hn : SameName (st.at i) (st'.at j) := hn
  refine Classical.byContradiction fun hne => ?_
  rcases h j hne hj with ⟨h1, h2, h3⟩ | h1
  · refine hne (hs j h1 ?_)
    unfold SameName at hn ⊢
    rw [h2, h3] at hn
    exact hn
  · exact h1 hn

theorem Sole.set {k : Nat} {x : Context cfg} (hs : Sole st i)
    (hi : ∃ ch, st'.at i = { st.at i with children := ch }) (h : SetSlot st k x st')
    (hx : x.state = .active → ¬ SameName (st.at i) x) : Sole st' i := by
  refine hs.of hi fun j _ ha => ?_
  by_cases e : j = k
  · subst e
    rw [h.1] at ha ⊢
    exact .inr (hx ha)
  · rw [h.2.1 j e] at ha ⊢
    exact .inl ⟨ha, rfl, rfl⟩

theorem Sole.destroy {idx : Nat} (hs : Sole st i)
    (hi : ∃ ch, st'.at i = { st.at i with children := ch }) (h : DestroyEffect st idx st') :
    Sole st' i := by
  refine hs.of hi fun j _ ha => ?_
  by_cases e : DestroyedWith st idx j
  · rw [h.1 j e] at ha; cases ha
  · obtain ⟨ch, e⟩ := (h.2.1 j e).1
    rw [e] at ha ⊢
    exact .inl ⟨ha, rfl, rfl⟩

theorem Sole.init {f : U32} {h : Handle} (hs : Sole st i) (ha : (st.at i).state = .active)
    (hi : ∃ ch, st'.at i = { st.at i with children := ch })
    (hin : (st.at i).handle = Handle.default → st.hasInitialized = true)
    (he : InitEffect st f loc h st') : Sole st' i := by
  obtain ⟨k, hk, h1, h2, _, _, h3⟩ := he
  refine hs.of hi fun j _ hj => ?_
  by_cases e : j = k
  · subst e
    right
    rcases h3 with ⟨_, _, h3, rfl⟩ | ⟨_, _, _, h3⟩
    · intro e
      rw [h1] at e
      rw [hin e.1.symm] at h3
      cases h3
    · exact h3.other ha (by rw [h1]; rfl)
  · rw [h2 j e] at hj ⊢
    exact .inl ⟨hj, rfl, rfl⟩

theorem Effect.sole {D : Bytes → Bytes → Prop} {hs : List Handle} (he : Effect D st loc c hs st')
    (ha : (st.at i).state = .active) (hm : ¬ Meant st loc c i) (hn : NoRefusal (lateRules st loc c))
    (hin : (st.at i).handle = Handle.default → st.hasInitialized = true)
    (hso : Sole st i) : Sole st' i := by
  have hi := he.left ha hm
  -- a context that is used keeps the default handle or gets a handle that nobody has
  have next : ∀ {k : Nat} {h : Handle} {x : Context cfg}, k ≠ i → (st.at k).state = .active →
      NextHandle st (st.at k).handle h → x.handle = h → x.locality = (st.at k).locality →
      ¬ SameName (st.at i) x := by
    intro k h x hki hk hnx hx hl hsn
    rcases hnx with ⟨h1, rfl⟩ | ⟨_, h1⟩
    · refine hki (hso k hk ?_)
      unfold SameName at hsn ⊢
      rw [hx, hl] at hsn
      rw [h1]
      exact hsn
    · exact h1.other ha hx hsn
  cases c with
  | getProfile => rw [he.2]; exact hso
  | chain c => rw [he.2]; exact hso
  | init f => obtain ⟨h, _, he⟩ := he; exact hso.init ha hi hin he
  | rotate c =>
    obtain ⟨h, _, k, hr, hset, hc⟩ := he
    have hki := Meant.named hm rfl hr
    refine hso.set hi hset fun _ hsn => ?_
    rcases hc with ⟨_, rfl, hc, _⟩ | ⟨_, hc⟩
    · refine hki (hc i ha ?_).symm
      rw [← hsn.2 hsn.1.symm]
      exact hr.1.2.2
    · exact hc.other ha rfl hsn
  | sign c =>
    obtain ⟨h, _, k, hr, hnx, hset⟩ := he
    exact hso.set hi hset fun _ => next (Meant.named hm rfl hr) hr.1.1 (by rw [hr.1.2.1]; exact hnx) rfl rfl
  | certify c =>
    obtain ⟨h, _, k, hr, hnx, hset⟩ := he
    exact hso.set hi hset fun _ => next (Meant.named hm rfl hr) hr.1.1 (by rw [hr.1.2.1]; exact hnx) rfl rfl
  | destroy h => obtain ⟨_, idx, _, hd⟩ := he; exact hso.destroy hi hd
  | derive c =>
    obtain ⟨idx, h, hp, _, hr, he⟩ := he
    have hki := Meant.named hm rfl hr
    have parent : ∀ {hp : Handle} {y : CtxState} {x : Context cfg}, ParentNext st c (st.at idx) hp y →
        x.state = y → x.handle = hp → x.locality = (st.at idx).locality → x.state = .active →
        ¬ SameName (st.at i) x := by
      rintro hp y x (⟨_, _, h⟩ | ⟨_, h, _⟩) hx hh hl hxa
      · exact next hki hr.1.1 h hh hl
      · rw [hx, h] at hxa; cases hxa
    cases he with
    | «recursive» _ _ hnx hset =>
      exact hso.set hi hset fun _ => next hki hr.1.1 (by rw [hr.1.2.1]; exact hnx) rfl rfl
    | @child _ _ _ s k _ _ hb hx hff _ hch hpa _ h2 h3 h4 _ =>
      refine hso.of hi fun j _ hj => ?_
      by_cases e : j = k
      · subst e
        right
        intro hsn
        rcases hch with ⟨hmd, rfl⟩ | ⟨_, hch⟩
        · simp only [lateRules, NoRefusal.cons] at hn
          refine hn.2.1 ⟨hb, hx, idx, hr, .inl ⟨hmd, i, ha, ?_, .inl hki.symm⟩⟩
          rw [h2] at hsn
          rw [← hsn.2 hsn.1.symm]
          rfl
        · exact hch.other ha (by rw [h2]; rfl) hsn
      · by_cases e' : j = idx
        · subst e'
          right
          rw [h3] at hj ⊢
          exact parent hpa rfl rfl rfl hj
        · rw [h4 j e e'] at hj ⊢
          exact .inl ⟨hj, rfl, rfl⟩
    | exported _ _ _ _ hpa hset => exact hso.set hi hset fun hx => parent hpa rfl rfl rfl hx
    | exportedLast _ _ _ _ _ hd => exact hso.destroy hi hd
  | update c =>
    obtain ⟨hc, hp, _, idx, k, v, hr, hnd, hac, hki, _, hun, hcc, h1, h2, h3, _⟩ := he
    refine hso.of hi fun j hji hj => ?_
    by_cases e : j = idx
    · subst e
      rw [h1]
      exact .inr (hun.other ha rfl)
    · by_cases e' : j = k
      · subst e'
        rw [h2]
        rcases hcc with ⟨hcc, rfl⟩ | ⟨_, hcc, _, hcu⟩
        · exact .inl ⟨hac.2.1, hcc.symm, rfl⟩
        · right
          intro hsn
          exact hcu i (active_at ha) (Meant.named hm rfl hr).symm hsn.1.symm
      · rw [h3 j e e'] at hj ⊢
        exact .inl ⟨hj, rfl, rfl⟩

theorem HalfUpdate.left {u : UpdateCmd cfg} (he : HalfUpdate st u loc st')
    (hm : ¬ Meant st loc (.update u) i) : ∃ ch, st'.at i = { st.at i with children := ch } := by
  obtain ⟨idx, k, hp, hr, _, _, _, hun, hset⟩ := he
  exact ⟨_, hset.2.1 i (Meant.named hm rfl hr).symm⟩

/-- What is kept of a context during calls that are not about it. -/
theorem exec_left {env : Env cfg σ} {s s' : Sys cfg σ} {r : Except Err Nat} (hst : InService s.st)
    (h : exec env c loc s = (r, s')) (ha : (s.st.at i).state = .active) (hm : ¬ Meant s.st loc c i) :
    ∃ ch, s'.st.at i = { s.st.at i with children := ch } := by
  rcases effect_cases_wf hst.wf (digests_true _) h with h1 | ⟨hs, h1⟩ | ⟨u, rfl, h1⟩
  · exact ⟨(s.st.at i).children, by rw [h1]⟩
  · exact h1.left ha hm
  · exact h1.left hm

theorem exec_sole {env : Env cfg σ} {s s' : Sys cfg σ} {r : Except Err Nat} (hst : InService s.st)
    (h : exec env c loc s = (r, s')) (ha : (s.st.at i).state = .active) (hm : ¬ Meant s.st loc c i)
    (hin : (s.st.at i).handle = Handle.default → s.st.hasInitialized = true) (hso : Sole s.st i) :
    Sole s'.st i := by
  rcases effect_cases_wf hst.wf (digests_true _) h with h1 | ⟨hs, h1⟩ | ⟨u, rfl, h1⟩
  · rw [h1]; exact hso
  · rcases exec_verdict hst.wf h with ⟨_, _, _, h2⟩ | ⟨_, ⟨_, _, h2, _⟩ | ⟨h2, _⟩⟩
    · rw [h2]; exact hso
    · rw [h2]; exact hso
    · exact h1.sole ha hm h2 hin hso
  · have hi := h1.left hm
    obtain ⟨idx, k, hp, hr, _, _, _, hun, hset⟩ := h1
    exact hso.set hi hset fun _ => hun.other ha rfl

theorem CallsWith.calls {P : State cfg → U32 → Cmd cfg → Prop} (h : CallsWith P st st') : Calls st st' := by
  induction h with
  | refl => exact .refl
  | cmd env c loc w out _ _ ih => exact .step ih (.cmd env c loc _ w out)
  | create ops w out _ ih => exact .step ih (.create ops _ w out)

theorem CallsWith.mono {P Q : State cfg → U32 → Cmd cfg → Prop} (h : CallsWith P st st')
    (hpq : ∀ st loc c, P st loc c → Q st loc c) : CallsWith Q st st' := by
  induction h with
  | refl => exact .refl
  | cmd env c loc w out _ hp ih => exact .cmd env c loc w out ih (hpq _ _ _ hp)
  | create ops w out _ ih => exact .create ops w out ih

theorem CallsWith.inService {P : State cfg → U32 → Cmd cfg → Prop} (hst : InService st)
    (h : CallsWith P st st') : InService st' := by
  induction h with
  | refl => exact hst
  | cmd env c loc w out _ _ ih => exact .step env c loc _ w out ih
  | create ops w out _ ih => exact .create ops _ w out ih

theorem Kept.trans {a b c : Context cfg} (h : Kept a b) (h' : Kept b c) : Kept a c :=
  ⟨h'.1.trans h.1, h'.2.1.trans h.2.1, h'.2.2.1.trans h.2.2.1, h'.2.2.2.1.trans h.2.2.2.1,
    h'.2.2.2.2.trans h.2.2.2.2⟩

theorem Kept.evidence {l : List Nat} (hs : st'.support = st.support)
    (h : ∀ j ∈ l, Kept (st.at j) (st'.at j)) : SameEvidence st l st' l := by
  refine ⟨hs.symm, List.map_congr_left fun j hj => ?_⟩
  obtain ⟨h1, _, h2, h3, h4⟩ := h j hj
  unfold Dpe.evidence
  rw [h1, h2, h3, h4]

theorem SameEvidence.measured {ops : Ops σ} {l l' : List Nat} {w w' : σ} {d : Bytes}
    (h : SameEvidence st l st' l') (hm : Measured ops st l w d w') : Measured ops st' l' w d w' := by
  unfold Measured at hm ⊢
  rw [← h.chunks, ← h.info, ← h.dice, ← h.1]
  exact hm

theorem SameEvidence.key {ops : Ops σ} {l l' : List Nat} {label : Bytes} {w w' : σ} {key : ops.Key}
    (h : SameEvidence st l st' l') (hm : SigningKey ops st l label w key w') :
    SigningKey ops st' l' label w key w' := by
  obtain ⟨d, cdi, w1, w2, h1, h2⟩ := hm
  exact ⟨d, cdi, w1, w2, h.measured h1, h2⟩

end Dpe
