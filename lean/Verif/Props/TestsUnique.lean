import Verif.Model.TestsUnique
import Verif.Props.TestsMax
/-
C92: what the conformance suite's test of children of one type finds out.
-/
namespace Dpe
open Suite
section
variable {cfg : Cfg} {L : Lib} {a : Artifact} {c : Client} {loc : U32} {addr : Nat}
  {s s1 s2 s3 : Sys cfg (Soft (L.crypto cfg.profile) × Unit)}
variable (hL : L.Total) (ha : a.Fit) (hb : Built cfg a) (hs : cfg.Standard) (hc : Connected L a cfg c)
include hL ha hb hs hc

theorem means_typed (h : Handle) (f y l : U32) :
    ∃ z : BArr cfg.tciSize, Means (.derive h (zeros c.kind.digest) f y l) (.derive (cfg := cfg) ⟨h, z, f, y, l, 0⟩) := by
  have hz := zeros_sizes hL ha hb hs hc
  rcases C61_means hs (.derive h (zeros c.kind.digest) f y l) with h' | h' | ⟨cmd, h1, h2⟩
  · exact absurd hz.1 h'
  · exact h'.elim
  · generalize hk : zeros c.kind.digest = z at h1
    cases h1
    exact ⟨_, .derive ..⟩

omit hL ha hb hs hc in
theorem keep_bits : Bit retainParentContext DFlag.retainParent ∧ ¬ Bit retainParentContext DFlag.changeLocality ∧
    ¬ Bit retainParentContext DFlag.recursive ∧ ¬ Bit retainParentContext DFlag.exportCdi ∧
    ¬ Bit retainParentContext DFlag.makeDefault ∧ ¬ Bit retainParentContext DFlag.allowX509 := by decide

/-- A refusal by one of the rules that come before anything else. -/
theorem call_refused_early {k : GoCall} {cmd : Cmd cfg} {e : Err} (hst : InService s.st) (hal : addr % 4 = 0)
    (hm : Means k cmd) (hin : InProfile cfg cmd) (hu : ∀ u, cmd ≠ .update u)
    (hr : FirstRefusal (earlyRules s.st loc cmd) e) :
    ∃ s', c.call (simSend ((device L a cfg.profile).env cfg) loc addr) k (some s) =
      (.error (.status (statusWord e)), some s') ∧ s'.st = s.st := by
  have hr' : FirstRefusal (rules s.st loc cmd) e := hr.left
  have hx : ¬ ∃ reply st' w', Succeeds (device L a cfg.profile) s.st loc s.w cmd reply st' w' := by
    rintro ⟨_, _, _, h, _⟩
    exact hr'.not_none h
  obtain ⟨e', s', h1, _, h3, h4⟩ := C61_failed hL ha hb hs hc hst hal hm hin hx
  refine ⟨s', ?_, h4.resolve_right fun ⟨u, h, _⟩ => hu u h⟩
  rcases h3 with h3 | ⟨d, h3, _, _, h5, _⟩ | ⟨h3, _⟩
  · rw [h1, h3.unique hr']
  · exact absurd h5 hr.not_none
  · exact absurd h3 hr'.not_none

/-- A rotation without flags that is served gives the context a fresh handle. -/
theorem rotate_step {h h' : Handle} {x : Option (Sys cfg (Soft (L.crypto cfg.profile) × Unit))} (hst : InService s.st)
    (hal : addr % 4 = 0)
    (hcall : c.call (simSend ((device L a cfg.profile).env cfg) loc addr) (.rotate h 0) (some s) = (.ok (.handle h'), x)) :
    ∃ s1 i, x = some s1 ∧ InService s1.st ∧ Resolves s.st h loc i ∧ Unused s.st h' ∧
      SetSlot s.st i { s.st.at i with handle := h' } s1.st ∧ ¬ Bit cfg.disabled Feature.rotate ∧
      s.st.supports Feature.rotate := by
  have h0 : ¬ Bit (0 : U32) RFlag.targetIsDefault := by decide
  have hd : ¬ Bit cfg.disabled Feature.rotate := fun hd => by
    have := C61_deadly (addr := addr) (loc := loc) (k := .rotate h 0) hL ha hb hs hc hst id hd
    rw [hcall] at this
    simp at this
  obtain ⟨hno, _, h1, s1, e1, rfl, hst1, h2, e2, i, hr, hset, hun⟩ :=
    (call_handle hL ha hb hs hc hst hal (.inr ⟨_, _, rfl⟩) (.rotate h 0) hd).2 _ _ hcall
  cases e1
  cases e2
  exact ⟨s1, i, rfl, hst1, hr, (hun.resolve_left fun g => h0 g.1).2, hset, hd, ((rotate_allowed h0).1 hno).1⟩

/-- Destroying a context without children; those that had none still have none. -/
theorem destroy_bare {h : Handle} {i : Nat} (hst : InService s.st) (hal : addr % 4 = 0) (hr : Resolves s.st h loc i)
    (hch : (s.st.at i).children = 0) :
    ∃ s', c.call (simSend ((device L a cfg.profile).env cfg) loc addr) (.destroy h) (some s) = (.ok .nothing, some s') ∧
      InService s'.st ∧ SameMeta s.st s'.st ∧
      (∀ j, (s'.st.at j).state = .active ↔ (s.st.at j).state = .active ∧ j ≠ i) ∧
      ∀ j, (s'.st.at j).state = .active → (∃ ch, s'.st.at j = { s.st.at j with children := ch }) ∧
        ((s.st.at j).children = 0 → (s'.st.at j).children = 0) := by
  obtain ⟨s', hcall, _, e3, e4⟩ := destroy_leaf hL ha hb hs hc hst hal hr hch
  have hst1 := call_inService hL ha hb hs hc hst hal hcall
  obtain ⟨cmd', reply, st', w', hm', hin', hans, hx, he⟩ := call_ok hL ha hb hs hc hst hal hcall
  obtain rfl := C61_means_one hm' (Means.destroy _) hin' trivial
  obtain ⟨hs', ⟨rfl, i', hr', heff⟩, hrep⟩ :=
    C52_success_effect (s := ⟨s.st, s.w, List.replicate reply.length 0⟩) hst (digests_true _) he
  cases hx
  refine ⟨_, hcall, hst1, heff.2.2, e3, fun j hj => ⟨e4 j hj, fun h0 => ?_⟩⟩
  have hnd : ¬ DestroyedWith s.st i' j := fun g => by
    have hj : (st'.at j).state = .active := hj
    rw [heff.1 j g] at hj
    cases hj
  refine BitVec.eq_of_getLsbD_eq fun m _ => ?_
  have := ((heff.2.1 j hnd).2 m).1
  simp only [Lists, h0] at this
  simpa using this

/-- A derivation that keeps its parent, served. -/
theorem keep_any {h : Handle} {f y : U32} {v : GoValue} {x : Option (Sys cfg (Soft (L.crypto cfg.profile) × Unit))}
    (hst : InService s.st) (hal : addr % 4 = 0) (hnd : h ≠ Handle.default) (b0 : Bit f DFlag.retainParent)
    (b1 : ¬ Bit f DFlag.changeLocality) (b2 : ¬ Bit f DFlag.recursive) (b3 : ¬ Bit f DFlag.exportCdi)
    (b4 : ¬ Bit f DFlag.makeDefault)
    (hcall : c.call (simSend ((device L a cfg.profile).env cfg) loc addr)
        (.derive h (zeros c.kind.digest) f y 0) (some s) = (.ok v, x)) :
    ∃ h1 hp s1 i k kids, v = .derived h1 hp (Vector.replicate 32 0) 0 [] ∧ x = some s1 ∧ InService s1.st ∧
      SameMeta s.st s1.st ∧ Resolves s.st h loc i ∧ FirstFree s.st k ∧ k ≠ i ∧ Unused s.st h1 ∧ Unused s.st hp ∧
      ¬ AsksUnsupported s.st f ∧
      Names s1.st h1 loc k ∧ (s1.st.at k).children = 0 ∧ (s1.st.at k).tci.tciType = y ∧
      (s1.st.at k).allowRecursive = decide (Bit f DFlag.allowRecursive ∧ (s.st.at i).allowRecursive = true) ∧
      s1.st.at i = { s.st.at i with handle := hp, children := kids } ∧
      (∀ j, Lists s1.st i j ↔ Lists s.st i j ∨ j = k) ∧ ∀ j, j ≠ k → j ≠ i → s1.st.at j = s.st.at j := by
  obtain ⟨hfit, hser, _⟩ := C58_meets (cfg := cfg) (L := L) hL ha 0
  obtain ⟨z, hm⟩ := means_typed hL ha hb hs hc h f y 0
  obtain ⟨cmd', reply, st', w', hm', hin', hans, rfl, he⟩ := call_ok hL ha hb hs hc hst hal hcall
  obtain rfl := C61_means_one hm' hm hin' trivial
  have hst1 := call_inService hL ha hb hs hc hst hal hcall
  obtain ⟨hno, _⟩ := (C57_exact (s := ⟨s.st, s.w, List.replicate reply.length 0⟩) hst (fun _ => ⟨hfit, hser⟩)).1 he
  have hask : ¬ AsksUnsupported s.st f := hno _ (List.mem_append_left _ (List.mem_cons_self ..))
  obtain ⟨hs', ⟨idx, h1, hp, rfl, hr, heff⟩, hrep⟩ :=
    C52_success_effect (s := ⟨s.st, s.w, List.replicate reply.length 0⟩) hst (digests_true _) he
  have hans' : ∃ h parent, reply = handlesReply cfg.profile [h, parent] ∧
      v = .derived h parent (Vector.replicate 32 0) 0 [] := by
    simpa only [Answer, b3, if_false] using hans
  obtain ⟨hh, hpp, e1, rfl⟩ := hans'
  have h2 : RepliesWith cfg.profile [hh, hpp] reply :=
    ⟨[], by rw [e1]; cases cfg.profile <;> simp [handlesReply, successBytes]⟩
  have q1 := Vector.toList_inj.1 ((hrep.at (k := 0) (x := h1) rfl).symm.trans (h2.at (k := 0) (x := hh) rfl))
  have q2 := Vector.toList_inj.1 ((hrep.at (k := 1) (x := hp) rfl).symm.trans (h2.at (k := 1) (x := hpp) rfl))
  subst q1 q2
  clear hcall hans he hrep h2 e1
  cases heff with
  | recursive hbit => exact absurd hbit b2
  | exported _ hbit => exact absurd hbit b3
  | exportedLast _ hbit => exact absurd hbit b3
  | @child h' hp v sx k kids st' _ _ hfree _ hun hpn hkids hk hi ho hmeta =>
    have hun := (hun.resolve_left fun h => b4 h.1).2
    obtain ⟨_, rfl, hnx⟩ := hpn.resolve_right fun h => h.1 b0
    have hpu : Unused s.st hp := by
      rcases hnx with ⟨g, _⟩ | ⟨_, g⟩
      · exact absurd (hr.1.2.1.symm.trans g) hnd
      · exact g
    have hki : k ≠ idx := by
      rintro rfl
      have := hr.1.1
      rw [hfree.2.1] at this
      cases this
    refine ⟨h1, hp, _, idx, k, kids, rfl, rfl, hst1, hmeta, hr, hfree, hki, hun, hpu, hask, ?_, ?_, ?_, ?_, ?_, ?_, ho⟩
    · have nm : Names st' h1 loc k := by
        unfold Names
        rw [hk]
        exact ⟨rfl, rfl, by simp only [childContext, b1, if_false]⟩
      exact nm
    · show (st'.at k).children = 0
      rw [hk]; rfl
    · show (st'.at k).tci.tciType = y
      rw [hk]; rfl
    · show (st'.at k).allowRecursive = _
      rw [hk]; rfl
    · show st'.at idx = _
      rw [hi, ← hr.1.1]
    · intro j
      show Lists st' idx j ↔ _
      rw [← hkids]
      unfold Lists
      rw [hi]

@[inherit_doc keep_any]
theorem keep_step {h : Handle} {y : U32} {v : GoValue} {x : Option (Sys cfg (Soft (L.crypto cfg.profile) × Unit))}
    (hst : InService s.st) (hal : addr % 4 = 0) (hnd : h ≠ Handle.default)
    (hcall : c.call (simSend ((device L a cfg.profile).env cfg) loc addr)
        (.derive h (zeros c.kind.digest) retainParentContext y 0) (some s) = (.ok v, x)) :
    ∃ h1 hp s1 i k kids, v = .derived h1 hp (Vector.replicate 32 0) 0 [] ∧ x = some s1 ∧ InService s1.st ∧
      SameMeta s.st s1.st ∧ Resolves s.st h loc i ∧ FirstFree s.st k ∧ k ≠ i ∧ Unused s.st h1 ∧ Unused s.st hp ∧
      ¬ AsksUnsupported s.st retainParentContext ∧
      Names s1.st h1 loc k ∧ (s1.st.at k).children = 0 ∧ (s1.st.at k).tci.tciType = y ∧
      s1.st.at i = { s.st.at i with handle := hp, children := kids } ∧
      (∀ j, Lists s1.st i j ↔ Lists s.st i j ∨ j = k) ∧ ∀ j, j ≠ k → j ≠ i → s1.st.at j = s.st.at j := by
  obtain ⟨b0, b1, b2, b3, b4, _⟩ := keep_bits
  obtain ⟨h1, hp, s1, i, k, kids, q1, q2, q3, q4, q5, q6, q7, q8, q9, q10, q11, q12, q13, _, q14⟩ :=
    keep_any hL ha hb hs hc hst hal hnd b0 b1 b2 b3 b4 hcall
  exact ⟨h1, hp, s1, i, k, kids, q1, q2, q3, q4, q5, q6, q7, q8, q9, q10, q11, q12, q13, q14⟩

/-- The end of a test that has made two children of the default context, which it has given another handle. -/
theorem clean_up {p2 c1 c2 : Handle} {i k k2 : Nat} {kids : Children} (hst3 : InService s3.st) (hal : addr % 4 = 0)
    (hd : ¬ Bit cfg.disabled Feature.rotate) (hsup3 : s3.st.supports Feature.rotate)
    (hr : Names s.st Handle.default loc i) (hki : k ≠ i) (hki2 : k2 ≠ i) (hkk : k ≠ k2)
    (hfree : (s.st.at k).state ≠ .active) (hfree2 : (s.st.at k2).state ≠ .active)
    (hn1 : Names s3.st c1 loc k) (hch1 : (s3.st.at k).children = 0)
    (hn2 : Names s3.st c2 loc k2) (hch2 : (s3.st.at k2).children = 0)
    (hi3 : s3.st.at i = { s.st.at i with handle := p2, children := kids })
    (ho : ∀ j, j ≠ i → j ≠ k → j ≠ k2 → s3.st.at j = s.st.at j)
    (hp2 : p2 ≠ Handle.default) (hd1 : c1 ≠ p2) (hd2 : c2 ≠ p2) (hcc : c1 ≠ c2)
    (hu : ∀ j, (s.st.at j).state = .active → j ≠ i →
      (s.st.at j).handle ≠ c1 ∧ (s.st.at j).handle ≠ c2 ∧ (s.st.at j).handle ≠ p2) :
    let call := c.call (simSend ((device L a cfg.profile).env cfg) loc addr)
    let final := call (.rotate p2 targetIsDefault) (call (.destroy c1) (call (.destroy c2) (some s3)).2).2
    let sole := ∃ i, Names s.st Handle.default loc i ∧
      ∀ j, (s.st.at j).state = .active → (s.st.at j).locality = loc → j = i
    (sole ∧ ∃ h' s', final = (.ok (.handle h'), some s') ∧
      (∀ j, (s'.st.at j).state = .active ↔ (s.st.at j).state = .active) ∧
      ∀ j, (s'.st.at j).state = .active → ∃ ch, s'.st.at j = { s.st.at j with children := ch }) ∨
    (¬ sole ∧ ∃ e s', final = (.error e, some s')) := by
  intro call final sole
  have hi0 := hr.1
  have hrc2 : Resolves s3.st c2 loc k2 := by
    refine ⟨hn2, fun j hj q => ?_⟩
    by_cases g : j = i
    · subst g
      have := q.2.1
      rw [hi3] at this
      exact hd2 this.symm
    · by_cases gk : j = k
      · subst gk
        exact hcc (hn1.2.1.symm.trans q.2.1)
      · unfold Names at q
        rw [ho j g gk (Nat.ne_of_lt hj)] at q
        exact (hu j q.1 g).2.1 q.2.1
  obtain ⟨s4, f1, hst4, hm4, f2, f3⟩ := destroy_bare hL ha hb hs hc hst3 hal hrc2 hch2
  have hk4 : (s4.st.at k).state = .active := (f2 k).2 ⟨hn1.1, hkk⟩
  obtain ⟨⟨ch4, g4⟩, g4'⟩ := f3 k hk4
  have hrc1 : Resolves s4.st c1 loc k := by
    refine ⟨⟨hk4, by rw [g4]; exact hn1.2.1, by rw [g4]; exact hn1.2.2⟩, fun j hj q => ?_⟩
    obtain ⟨⟨ch, g⟩, _⟩ := f3 j q.1
    obtain ⟨q1, q2⟩ := (f2 j).1 q.1
    have q3 := q.2.1
    rw [g] at q3
    have q3 : (s3.st.at j).handle = c1 := q3
    by_cases gj : j = i
    · subst gj
      rw [hi3] at q3
      exact hd1 q3.symm
    · rw [ho j gj (Nat.ne_of_lt hj) q2] at q1 q3
      exact (hu j q1 gj).1 q3
  obtain ⟨s5, r1, hst5, hm5, r2, r3⟩ := destroy_bare hL ha hb hs hc hst4 hal hrc1 (g4' hch1)
  have act : ∀ j, (s5.st.at j).state = .active ↔ (s.st.at j).state = .active := by
    intro j
    rw [r2, f2]
    by_cases gk : j = k
    · subst gk
      exact iff_of_false (fun g => g.2 rfl) hfree
    · by_cases gi : j = i
      · subst gi
        rw [hi3]
        exact ⟨fun g => hi0, fun g => ⟨⟨hi0, fun e => hki2 e.symm⟩, gk⟩⟩
      · by_cases g2 : j = k2
        · subst g2
          exact iff_of_false (fun g => g.1.2 rfl) hfree2
        · rw [ho j gi gk g2]
          exact ⟨fun g => g.1.1, fun g => ⟨⟨g, g2⟩, gk⟩⟩
  have rest : ∀ j, (s5.st.at j).state = .active → ∃ ch,
      s5.st.at j = if j = i then { s.st.at j with handle := p2, children := ch } else { s.st.at j with children := ch } := by
    intro j hj
    obtain ⟨⟨ch5, g5⟩, _⟩ := r3 j hj
    obtain ⟨q1, q2⟩ := (r2 j).1 hj
    obtain ⟨⟨ch, g⟩, _⟩ := f3 j q1
    obtain ⟨q3, q4⟩ := (f2 j).1 q1
    refine ⟨ch5, ?_⟩
    rw [g5, g]
    by_cases gi : j = i
    · subst gi
      rw [if_pos rfl, hi3]
    · rw [if_neg gi, ho j gi q2 q4]
  obtain ⟨ch5, at5⟩ := rest i ((act i).2 hi0)
  rw [if_pos rfl] at at5
  have hr5 : Resolves s5.st p2 loc i := by
    refine ⟨⟨by rw [at5]; exact hi0, by rw [at5], by rw [at5]; exact hr.2.2⟩, fun j hj q => ?_⟩
    obtain ⟨ch, g⟩ := rest j q.1
    have q5 := q.2.1
    rw [g, if_neg (Nat.ne_of_lt hj)] at q5
    exact (hu j ((act j).1 q.1) (Nat.ne_of_lt hj)).2.2 q5
  have hsup5 : s5.st.supports Feature.rotate := by
    unfold State.supports at hsup3 ⊢
    rw [hm5.1.2.2.1, hm4.1.2.2.1]
    exact hsup3
  have clash : ((∃ j, Names s5.st Handle.default loc j) ∨ Named s5.st p2 loc fun i => ∃ j, j ≠ i ∧
      (s5.st.at j).state = .active ∧ (s5.st.at j).locality = loc) ↔ ¬ sole := by
    have locs : ∀ j, (s5.st.at j).state = .active → (s5.st.at j).locality = (s.st.at j).locality := by
      intro j hj
      obtain ⟨ch, g⟩ := rest j hj
      rw [g]
      split <;> rfl
    constructor
    · rintro hcl ⟨i', hi', hone⟩
      obtain rfl : i = i' := hone i hi0 hr.2.2
      rcases hcl with ⟨j, q⟩ | ⟨i', q, j, q1, q2, q3⟩
      · obtain rfl := hone j ((act j).1 q.1) ((locs j q.1).symm.trans q.2.2)
        have := q.2.1
        rw [at5] at this
        exact hp2 this
      · obtain rfl := q.unique hr5
        exact q1 (hone j ((act j).1 q2) ((locs j q2).symm.trans q3))
    · intro hno
      refine .inr ⟨i, hr5, Classical.byContradiction fun g => hno ⟨i, hr, fun j q1 q2 => ?_⟩⟩
      exact Classical.byContradiction fun g' => g ⟨j, g', (act j).2 q1, (locs j ((act j).2 q1)).trans q2⟩
  have hbit : Bit targetIsDefault RFlag.targetIsDefault := by decide
  have hback := rotate_back hL ha hb hs hc hst5 hal hd hsup5 hr5
  have hfin : final = call (.rotate p2 targetIsDefault) (some s5) := by
    show call _ (call _ (call _ _).2).2 = _
    simp only [call, f1, r1]
  rw [hfin]
  by_cases hcl : (∃ j, Names s5.st Handle.default loc j) ∨ Named s5.st p2 loc fun i => ∃ j, j ≠ i ∧
      (s5.st.at j).state = .active ∧ (s5.st.at j).locality = loc
  · obtain ⟨s6, e, _⟩ := hback.1 hcl
    exact .inr ⟨clash.1 hcl, _, s6, e⟩
  · obtain ⟨h6, s6, e⟩ := hback.2 hcl
    refine .inl ⟨Classical.byContradiction fun g => hcl (clash.2 g), h6, s6, e, ?_⟩
    obtain ⟨_, _, h7, s7, e1, e2, _, h8, e3, i', hr6, hset6, htgt⟩ :=
      (call_handle hL ha hb hs hc hst5 hal (.inr ⟨_, _, rfl⟩) (.rotate p2 targetIsDefault) hd).2 _ _ e
    cases e1
    cases e2
    cases e3
    obtain rfl := hr6.unique hr5
    obtain ⟨_, rfl, _⟩ := htgt.resolve_right fun g => g.1 hbit
    have six : ∀ j, (s6.st.at j).state = .active ↔ (s.st.at j).state = .active := by
      intro j
      by_cases g : j = i'
      · subst g
        rw [hset6.1]
        exact act j
      · rw [hset6.2.1 j g]
        exact act j
    refine ⟨six, fun j hj => ?_⟩
    obtain ⟨ch, g⟩ := rest j ((act j).2 ((six j).1 hj))
    refine ⟨ch, ?_⟩
    by_cases gi : j = i'
    · subst gi
      rw [if_pos rfl] at g
      rw [hset6.1, g, ← hr.2.1]
    · rw [if_neg gi] at g
      rw [hset6.2.1 j gi, g]

/-- C92: suppose that the calls of `TestDeriveContextInputTypeUniqueness` that are to be served are, and that neither
derivation gives parent and child one handle.  Then the second child of one type is refused as the test demands, and the
test passes exactly if the default context was the only active context of its locality.  If so, the default handle names
the same context afterwards, the same contexts are active, and they differ in nothing but their lists of children. -/
theorem C92_type_unique {h c1 p1 c2 p2 : Handle} {d1 d2 : Vector UInt8 32} {n1 n2 : U32} {l1 l2 : Bytes}
    {x3 : Option (Sys cfg (Soft (L.crypto cfg.profile) × Unit))}
    (hst : InService s.st) (hal : addr % 4 = 0)
    (h1 : c.call (simSend ((device L a cfg.profile).env cfg) loc addr) (.rotate Handle.default 0) (some s) =
      (.ok (.handle h), some s1))
    (h2 : c.call (simSend ((device L a cfg.profile).env cfg) loc addr)
      (.derive h (zeros c.kind.digest) 0x20000000 0xABCD1234 0) (some s1) = (.ok (.derived c1 p1 d1 n1 l1), some s2))
    (h3 : c.call (simSend ((device L a cfg.profile).env cfg) loc addr)
      (.derive p1 (zeros c.kind.digest) 0x20000000 0xDEADBEEF 0)
      (c.call (simSend ((device L a cfg.profile).env cfg) loc addr)
        (.derive p1 (zeros c.kind.digest) 0x20000000 0xABCD1234 0) (some s2)).2 = (.ok (.derived c2 p2 d2 n2 l2), x3))
    (hd1 : c1 ≠ p1) (hd2 : c2 ≠ p2) :
    (c.call (simSend ((device L a cfg.profile).env cfg) loc addr)
        (.derive p1 (zeros c.kind.digest) 0x20000000 0xABCD1234 0) (some s2)).1 = .error (.status statusInvalidArgument) ∧
    ((testTypeUnique c (simSend ((device L a cfg.profile).env cfg) loc addr) (some s)).1 = true ↔
      ∃ i, Names s.st Handle.default loc i ∧
        ∀ j, (s.st.at j).state = .active → (s.st.at j).locality = loc → j = i) ∧
    ((testTypeUnique c (simSend ((device L a cfg.profile).env cfg) loc addr) (some s)).1 = true →
      ∃ s', (testTypeUnique c (simSend ((device L a cfg.profile).env cfg) loc addr) (some s)).2 = some s' ∧
        (∀ j, (s'.st.at j).state = .active ↔ (s.st.at j).state = .active) ∧
        ∀ j, (s'.st.at j).state = .active → ∃ ch, s'.st.at j = { s.st.at j with children := ch }) := by
  obtain ⟨_, i, e, hst1, hr, hu, hset, hd, hsup⟩ := rotate_step hL ha hb hs hc hst hal h1
  cases e
  obtain ⟨_, _, _, i', k, kids, e1, e2, hst2, hm2, hr1, hf1, hki, huc1, hup1, hask, hn1, hch1, hty1, hi1, hl1, ho1⟩ :=
    keep_step hL ha hb hs hc hst1 hal hu.1 h2
  cases e1
  cases e2
  have hi0 := hr.1.1
  have hii : i' = i := Classical.byContradiction fun g => by
    have q := hr1.1
    unfold Names at q
    rw [hset.2.1 i' g] at q
    exact hu.2 i' (active_at q.1) q.2.1
  subst hii
  -- after the first derivation
  have hr2 : Resolves s2.st p1 loc i' := by
    refine ⟨⟨by rw [hi1, hset.1]; exact hi0, by rw [hi1], by rw [hi1, hset.1]; exact hr.1.2.2⟩, fun j hj q => ?_⟩
    by_cases g : j = k
    · subst g
      exact hd1 (hn1.2.1.symm.trans q.2.1)
    · unfold Names at q
      rw [ho1 j g (Nat.ne_of_lt hj)] at q
      exact hup1.2 j (active_at q.1) q.2.1
  have hask2 : ¬ AsksUnsupported s2.st retainParentContext := fun ⟨p, q1, q2, q3⟩ =>
    hask ⟨p, q1, q2, by unfold State.supports at q3 ⊢; rw [hm2.1.2.2.1] at q3; exact q3⟩
  obtain ⟨b0, b1, b2, b3, b4, b5⟩ := keep_bits
  obtain ⟨z, hm⟩ := means_typed hL ha hb hs hc p1 retainParentContext firstType 0
  obtain ⟨s2', hcall2, hsame⟩ := call_refused_early (addr := addr) (loc := loc) (e := .invalidArgument) hL ha hb hs hc hst2
    hal hm trivial (by simp) (by
      simp only [earlyRules, lookupRules, FirstRefusal, List.cons_append, List.nil_append]
      refine .inr ⟨hask2, .inr ⟨fun q => q ⟨i', hr2.1.1, hr2.1.2.2⟩, .inr ⟨fun q => q ⟨i', hr2.1⟩, ?_⟩⟩⟩
      by_cases g : Named s2.st p1 loc fun i => BadDerive (s2.st.at i) retainParentContext
      · exact .inl ⟨g, trivial⟩
      · exact .inr ⟨g, .inr ⟨fun q => b2 q.1, .inr ⟨fun q => b2 q.1,
          .inl ⟨⟨b2, i', hr2, k, (hl1 k).2 (.inr rfl), hty1⟩, trivial⟩⟩⟩⟩)
  have hcall2' := hcall2
  unfold retainParentContext firstType at hcall2'
  rw [hcall2'] at h3 ⊢
  refine ⟨rfl, ?_⟩
  have hst2' : InService s2'.st := hsame ▸ hst2
  obtain ⟨_, _, s3, i3, k2, kids2, e1, e2, hst3, hm3, hr3, hf2, hki2, huc2, hup2, _, hn2, hch2, _, hi3, _, ho2⟩ :=
    keep_step hL ha hb hs hc hst2' hal hup1.1 h3
  cases e1
  subst e2
  rw [hsame] at hm3 hr3 hf2 huc2 hup2 hi3 ho2
  obtain rfl := hr3.unique hr2
  have hkk : k ≠ k2 := by
    rintro rfl
    have := hn1.1
    rw [hf2.2.1] at this
    cases this
  have at3 : s3.st.at k = s2.st.at k := ho2 k hkk hki
  have hsup3 : s3.st.supports Feature.rotate := by
    unfold State.supports at hsup ⊢
    rw [hm3.1.2.2.1, hm2.1.2.2.1, hset.2.2.1.2.2.1]
    exact hsup
  have old : ∀ j, j ≠ i3 → j ≠ k → s2.st.at j = s.st.at j := fun j g1 g2 => (ho1 j g2 g1).trans (hset.2.1 j g1)
  have hfree : (s.st.at k).state ≠ .active := by
    rw [← hset.2.1 k hki, hf1.2.1]
    decide
  have hend := clean_up (s := s) (c1 := c1) (c2 := c2) (kids := kids2) hL ha hb hs hc hst3 hal hd hsup3 hr.1 hki hki2 hkk hfree
    (by rw [← old k2 hki2 (Ne.symm hkk), hf2.2.1]; decide) (by unfold Names; rw [at3]; exact hn1) (by rw [at3]; exact hch1)
    hn2 hch2 (by rw [hi3, hi1, hset.1]) (fun j g1 g2 g3 => (ho2 j g3 g1).trans (old j g1 g2)) hup2.1
    (fun g => hup2.2 k (active_at hn1.1) (hn1.2.1.trans g)) hd2 (fun g => huc2.2 k (active_at hn1.1) (hn1.2.1.trans g))
    (fun j g1 g2 => by
      have g3 : j ≠ k := fun g => hfree (g ▸ g1)
      have g4 := active_at g1
      rw [← old j g2 g3]
      refine ⟨?_, huc2.2 j g4, hup2.2 j g4⟩
      rw [ho1 j g3 g2]
      exact huc1.2 j g4)
  have hx := expects_eq (c := c) (w := statusInvalidArgument)
    (k := .derive p1 (zeros c.kind.digest) retainParentContext firstType 0)
    (simSend ((device L a cfg.profile).env cfg) loc addr) (some s2)
  have hxt : (expects c (simSend ((device L a cfg.profile).env cfg) loc addr) statusInvalidArgument
      (.derive p1 (zeros c.kind.digest) retainParentContext firstType 0) (some s2)) = (true, some s2') :=
    Prod.ext (hx.1.2 (by rw [hcall2]; rfl)) (by rw [hx.2, hcall2])
  have h2' : c.call (simSend ((device L a cfg.profile).env cfg) loc addr)
      (.derive h (zeros c.kind.digest) retainParentContext firstType 0) (some s1) = _ := h2
  have h3' : c.call (simSend ((device L a cfg.profile).env cfg) loc addr)
      (.derive p1 (zeros c.kind.digest) retainParentContext otherType 0) (some s2') = _ := h3
  rcases hend with ⟨hsole, h6, s6, e, q⟩ | ⟨hsole, er, s6, e⟩
  · have : testTypeUnique c (simSend ((device L a cfg.profile).env cfg) loc addr) (some s) = (true, some s6) := by
      simp only [testTypeUnique, withProfile_eq hL ha hb hs hst hal, h1, h2', hxt, h3', e, Bool.and_self]
    rw [this]
    exact ⟨iff_of_true rfl hsole, fun _ => ⟨s6, rfl, q⟩⟩
  · have : (testTypeUnique c (simSend ((device L a cfg.profile).env cfg) loc addr) (some s)).1 = false := by
      simp only [testTypeUnique, withProfile_eq hL ha hb hs hst hal, h1, h2', hxt, h3', e, Bool.and_false]
    rw [this]
    exact ⟨iff_of_false (by simp) hsole, fun g => by simp at g⟩

/-- C92: the test passes only if the calls of `C92_type_unique` are served. -/
theorem C92_needs (hst : InService s.st) (hal : addr % 4 = 0)
    (hpass : (testTypeUnique c (simSend ((device L a cfg.profile).env cfg) loc addr) (some s)).1 = true) :
    let call := c.call (simSend ((device L a cfg.profile).env cfg) loc addr)
    let derive := fun h y => GoCall.derive h (zeros c.kind.digest) 0x20000000 y 0
    ∃ h c1 p1 c2 p2 d1 d2 n1 n2 l1 l2 s1 s2 x3, call (.rotate Handle.default 0) (some s) = (.ok (.handle h), some s1) ∧
      call (derive h 0xABCD1234) (some s1) = (.ok (.derived c1 p1 d1 n1 l1), some s2) ∧
      (call (derive p1 0xABCD1234) (some s2)).1 = .error (.status statusInvalidArgument) ∧
      call (derive p1 0xDEADBEEF) (call (derive p1 0xABCD1234) (some s2)).2 = (.ok (.derived c2 p2 d2 n2 l2), x3) := by
  intro call derive
  simp only [testTypeUnique, withProfile_eq hL ha hb hs hst hal] at hpass
  rcases hcall : c.call (simSend ((device L a cfg.profile).env cfg) loc addr) (.rotate Handle.default 0) (some s) with
    ⟨r, x⟩
  rw [hcall] at hpass
  rcases r with er | v
  · simp at hpass
  cases v with
  | handle h =>
    obtain ⟨s1, i, rfl, hst1, _, hu, _⟩ := rotate_step hL ha hb hs hc hst hal hcall
    simp only at hpass
    rcases hcall1 : c.call (simSend ((device L a cfg.profile).env cfg) loc addr)
      (.derive h (zeros c.kind.digest) retainParentContext firstType 0) (some s1) with ⟨r, x⟩
    rw [hcall1] at hpass
    rcases r with er | v
    · simp at hpass
    obtain ⟨c1, p1, s2, _, _, _, rfl, rfl, _⟩ := keep_step hL ha hb hs hc hst1 hal hu.1 hcall1
    simp only at hpass
    have hx := expects_eq (c := c) (w := statusInvalidArgument)
      (k := .derive p1 (zeros c.kind.digest) retainParentContext firstType 0)
      (simSend ((device L a cfg.profile).env cfg) loc addr) (some s2)
    rw [hx.2] at hpass
    rcases hcall2 : c.call (simSend ((device L a cfg.profile).env cfg) loc addr)
      (.derive p1 (zeros c.kind.digest) retainParentContext otherType 0)
      (c.call (simSend ((device L a cfg.profile).env cfg) loc addr)
        (.derive p1 (zeros c.kind.digest) retainParentContext firstType 0) (some s2)).2 with ⟨r, x3⟩
    rw [hcall2] at hpass
    rcases r with er | v
    · simp at hpass
    cases v with
    | derived c2 p2 d2 n2 l2 =>
      exact ⟨h, c1, p1, c2, p2, _, d2, _, n2, _, l2, s1, s2, x3, hcall, hcall1, hx.1.1 (Bool.and_eq_true_iff.1 hpass).1, hcall2⟩
    | _ => simp at hpass
  | _ => simp at hpass

/-- C92: on a simulator that has just been started the test passes if its calls are served and no two handles agree;
without automatic initialisation or without RotateContextHandle it fails. -/
theorem C92_fresh (g : SimArgs) (hal : addr % 4 = 0) :
    let s : Sys cfg (Soft (L.crypto cfg.profile) × Unit) := (simStart cfg L a g).2
    let call := c.call (simSend ((device L a cfg.profile).env cfg) loc addr)
    let derive := fun h y => GoCall.derive h (zeros c.kind.digest) 0x20000000 y 0
    (∀ h c1 p1 c2 p2 d1 d2 n1 n2 l1 l2 s1 s2 x3, call (.rotate Handle.default 0) (some s) = (.ok (.handle h), some s1) →
      call (derive h 0xABCD1234) (some s1) = (.ok (.derived c1 p1 d1 n1 l1), some s2) →
      call (derive p1 0xDEADBEEF) (call (derive p1 0xABCD1234) (some s2)).2 = (.ok (.derived c2 p2 d2 n2 l2), x3) →
      c1 ≠ p1 → c2 ≠ p2 →
      (testTypeUnique c (simSend ((device L a cfg.profile).env cfg) loc addr) (some s)).1 = true) ∧
    (g.autoInit = false ∨ g.rotate = false →
      (testTypeUnique c (simSend ((device L a cfg.profile).env cfg) loc addr) (some s)).1 = false) := by
  obtain ⟨s, e, hr, hsup, _, _, hno, hyes⟩ := C59_start (cfg := cfg) (L := L) (a := a) g
  intro s' call derive
  have hs' : s' = s := by
    show (simStart cfg L a g).2 = s
    rw [e]
  rw [hs']
  have hst : InService s.st := .reached hr
  obtain ⟨_, q2, _, _, _, _, q7⟩ := asks_iff g
  have auto : ∀ {h : Handle} {x}, c.call (simSend ((device L a cfg.profile).env cfg) loc addr) (.rotate Handle.default 0)
      (some s) = (.ok (.handle h), x) → ∃ i, Names s.st Handle.default loc i ∧ s.st.supports Feature.autoInit ∧
        s.st.supports Feature.rotate := by
    intro h x hcall
    obtain ⟨_, i, _, _, hi, _, _, _, hro⟩ := rotate_step hL ha hb hs hc hst hal hcall
    refine ⟨i, hi.1, Classical.byContradiction fun hg => ?_, hro⟩
    have := hi.1.1
    rw [hno hg] at this
    cases this
  constructor
  · intro h c1 p1 c2 p2 d1 d2 n1 n2 l1 l2 s1 s2 x3 h1 h2 h3 hd1 hd2
    obtain ⟨i, hi, hg, _⟩ := auto h1
    refine (C92_type_unique hL ha hb hs hc hst hal h1 h2 h3 hd1 hd2).2.1.2 ⟨i, hi, fun j hj _ => ?_⟩
    obtain ⟨m, _, _, v3⟩ := fresh_childless a (hyes hg)
    have one : ∀ j, (s.st.at j).state = .active → j = m := fun j hj => Classical.byContradiction fun hjm => by
      rw [v3 j hjm] at hj
      cases hj
    rw [one j hj, one i hi.1]
  · intro hg
    simp only [testTypeUnique, withProfile_eq hL ha hb hs hst hal]
    rcases hcall : c.call (simSend ((device L a cfg.profile).env cfg) loc addr) (.rotate Handle.default 0) (some s) with
      ⟨r, x⟩
    cases r with
    | error er => rfl
    | ok v =>
      cases v with
      | handle h =>
        obtain ⟨_, _, g1, g2⟩ := auto hcall
        rcases hg with hg | hg
        · rw [q7.1 ((hsup _).1 g1).1] at hg
          cases hg
        · rw [q2.1 ((hsup _).1 g2).1] at hg
          cases hg
      | _ => rfl

end

namespace Ref

/-- Evaluated: the test on the suite's default target, from another locality, and twice in a row. -/
example : runs target 0 testTypeUnique = true ∧ runs target 1 testTypeUnique = false ∧
    runs target 0 (fun c t x => testTypeUnique c t (testTypeUnique c t x).2) = true := by decide +kernel

/-- Non-vacuity for C92: a client that connected to a simulator; without RotateContextHandle the test fails. -/
example : ∃ c : Client, Connected lib cert std c ∧
    ∀ loc, (testTypeUnique c (simSend ((device lib cert std.profile).env std) loc 8)
      (some (simStart std lib cert { target.args with rotate := false }).2)).1 = false := by
  obtain ⟨s0, hs0, hr0, _⟩ := C59_start (cfg := std) (L := lib) (a := cert) features.args
  obtain ⟨c, h1, _⟩ := (C62_connects_partial (loc := 3) (addr := 8) lib_total cert_fit std_built std_standard
    (.reached hr0) (by decide) (wireProfile std.profile)).1 rfl
  have hcon : Connected lib cert std c := ⟨_, _, _, _, _, .reached hr0, by decide, h1⟩
  exact ⟨c, hcon, fun loc => (C92_fresh lib_total cert_fit std_built std_standard hcon _ (by decide)).2 (.inr rfl)⟩

end Ref
end Dpe
