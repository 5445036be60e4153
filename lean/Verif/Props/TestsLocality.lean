import Verif.Model.TestsLocality
import Verif.Props.TestsDerive
/-
C89: when the conformance suite's test that moves a context to another locality and back passes.
-/
namespace Dpe
open Suite
section
variable {cfg : Cfg} {L : Lib} {a : Artifact} {c : Client} {loc : U32} {addr : Nat}
  {s s1 : Sys cfg (Soft (L.crypto cfg.profile) × Unit)}
variable (hL : L.Total) (ha : a.Fit) (hb : Built cfg a) (hs : cfg.Standard) (hc : Connected L a cfg c)
include hL ha hb hs hc

omit hL ha hb hs hc in
theorem moves_bits : (Bit changeLocality DFlag.changeLocality ∧ ¬ Bit changeLocality DFlag.recursive ∧
    ¬ Bit changeLocality DFlag.exportCdi ∧ ¬ Bit changeLocality DFlag.retainParent ∧
    ¬ Bit changeLocality DFlag.makeDefault ∧ ¬ Bit changeLocality DFlag.allowX509) := by decide

omit hL ha hb hs hc in
/-- When a derivation into another locality is allowed. -/
theorem move_allowed {st : State cfg} {h : Handle} {z : BArr cfg.tciSize} {tl : U32} :
    NoRefusal (rules st loc (.derive (cfg := cfg) ⟨h, z, changeLocality, 0, tl, 0⟩)) ↔
      (∃ i, Resolves st h loc i ∧ (∀ j, Lists st i j → (st.at j).tci.tciType ≠ 0) ∧
        ∀ d, Resolves st Handle.default tl d → d = i) ∧
      ∃ j, j < cfg.maxHandles ∧ ¬ Live st j := by
  obtain ⟨b1, b2, b3, b4, b5, b6⟩ := moves_bits
  have hask : ¬ AsksUnsupported st changeLocality := by
    simp [AsksUnsupported, deriveNeeds, Bit, changeLocality, DFlag.internalInfo, DFlag.internalDice, DFlag.retainParent,
      DFlag.allowX509, DFlag.exportCdi, DFlag.createCert, DFlag.recursive]
  have hbad : ∀ p : Context cfg, ¬ BadDerive p changeLocality := by
    rintro p (h | h | h)
    · exact b6 h.1
    · exact b3 h.1
    · exact b2 h.1
  simp only [NoRefusal, rules, earlyRules, lateRules, lookupRules, List.cons_append, List.nil_append, List.mem_cons,
    List.not_mem_nil, or_false, forall_eq_or_imp, forall_eq, hask, Named, hbad, b1, b2, b3, b4, b5, false_and,
    not_false_eq_true, and_false, exists_false, true_and, not_not, targetOf, if_true, DefaultClash, or_false, false_or]
  constructor
  · rintro ⟨_, ⟨i, hi⟩, h3, h4, h5⟩
    obtain ⟨i, hi⟩ := exists_resolves hi
    refine ⟨⟨i, hi, fun j hj ht => h3 ⟨i, hi, j, hj, ht⟩, fun d hd => ?_⟩, ?_⟩
    · exact Classical.byContradiction fun g => h5 ⟨i, hi, d, hd, g⟩
    · exact Classical.byContradiction fun g => h4 fun j hj => Classical.byContradiction fun g' => g ⟨j, hj, g'⟩
  · rintro ⟨⟨i, hi, h3, h4⟩, j, hj, hl⟩
    refine ⟨⟨i, hi.1.1, hi.1.2.2⟩, ⟨i, hi.1⟩, ?_, fun h => hl (h j hj), ?_⟩
    · rintro ⟨i', hi', j, hj, ht⟩
      obtain rfl := hi'.unique hi
      exact h3 j hj ht
    · rintro ⟨i', hi', d, hd, hne⟩
      obtain rfl := hi'.unique hi
      exact hne (h4 d hd)

/-- The derivation of a child in another locality. -/
theorem move_derive {h : Handle} {tl : U32} (hst : InService s.st) (hal : addr % 4 = 0) :
    ((∃ i, Resolves s.st h loc i ∧ (∀ j, Lists s.st i j → (s.st.at j).tci.tciType ≠ 0) ∧
        ∀ d, Resolves s.st Handle.default tl d → d = i) ∧ (∃ j, j < cfg.maxHandles ∧ ¬ Live s.st j) ∧
        CanDraw (L.crypto cfg.profile) s.st s.w.1.rng →
      ∃ v x, c.call (simSend ((device L a cfg.profile).env cfg) loc addr)
        (.derive h (zeros c.kind.digest) changeLocality 0 tl) (some s) = (.ok v, x)) ∧
    ∀ v x, c.call (simSend ((device L a cfg.profile).env cfg) loc addr)
        (.derive h (zeros c.kind.digest) changeLocality 0 tl) (some s) = (.ok v, x) →
      CanDraw (L.crypto cfg.profile) s.st s.w.1.rng ∧
      ∃ h1 s1 i k p, v = .derived h1 Handle.invalid (Vector.replicate 32 0) 0 [] ∧ x = some s1 ∧ InService s1.st ∧
        SameMeta s.st s1.st ∧ Resolves s.st h loc i ∧ (∀ j, Lists s.st i j → (s.st.at j).tci.tciType ≠ 0) ∧
        (∀ d, Resolves s.st Handle.default tl d → d = i) ∧ FirstFree s.st k ∧ k ≠ i ∧ Unused s.st h1 ∧
        s1.st.at k = p ∧ p.state = .active ∧ p.handle = h1 ∧ p.locality = tl ∧ p.children = 0 ∧ p.parentIdx = i ∧
        (s1.st.at i).state = .retired ∧ ∀ j, j ≠ k → j ≠ i → s1.st.at j = s.st.at j := by
  obtain ⟨b1, b2, b3, b4, b5, b6⟩ := moves_bits
  obtain ⟨hfit, hser, _⟩ := C58_meets (cfg := cfg) (L := L) hL ha 0
  obtain ⟨z, hm⟩ := means_zeros hL ha hb hs hc h changeLocality tl
  constructor
  · rintro ⟨g1, g2, g3⟩
    have hno := (move_allowed (loc := loc) (h := h) (tl := tl) (z := z)).2 ⟨g1, g2⟩
    obtain ⟨i, hi, _⟩ := g1
    obtain ⟨reply, st', w', hx⟩ := (C58_able hL ha hb (loc := loc) hst hno).2 ⟨i, hi, by
      simp only [b2, b3, b4, b5, if_false, false_and, false_or]
      exact ⟨_, rfl, g3⟩⟩
    have hlen : reply.length ≤ (Cmd.derive (cfg := cfg) ⟨h, z, changeLocality, 0, tl, 0⟩).respKind.size cfg := by
      obtain ⟨_, _, hx⟩ := hx
      simp only [b2, b3, if_false] at hx
      obtain ⟨_, _, _, _, _, _, _, _, _, _, _, _, _, _, _, _, _, rfl⟩ := hx
      rw [handlesReply_length]
      have hx : (DeriveCmd.exportCdi (cfg := cfg) ⟨h, z, changeLocality, 0, tl, 0⟩) = false := by
        simp [DeriveCmd.exportCdi, changeLocality]
      simp only [Cmd.respKind, hx]
      exact Nat.le_refl 44
    obtain ⟨v, e1, _⟩ := C61_served hL ha hb hs hc hst hal hm trivial ⟨hno, hx, hlen⟩
    exact ⟨_, _, e1⟩
  · intro v x hcall
    obtain ⟨cmd', reply, st', w', hm', hin', hans, rfl, he⟩ := call_ok hL ha hb hs hc hst hal hcall
    obtain rfl := C61_means_one hm' hm hin' trivial
    have hst1 := call_inService hL ha hb hs hc hst hal hcall
    obtain ⟨hno, reply', st'', w'', hsv, _⟩ := (C57_exact (s := ⟨s.st, s.w, List.replicate reply.length 0⟩) hst
      (fun _ => ⟨hfit, hser⟩)).1 he
    obtain ⟨hs', ⟨idx, h1, hp, rfl, hr, heff⟩, hrep⟩ :=
      C52_success_effect (s := ⟨s.st, s.w, List.replicate reply.length 0⟩) hst (digests_true _) he
    have hab := (C58_able hL ha hb (s := ⟨s.st, s.w, s.out⟩) hst hno).1 ⟨reply', st'', w'', hsv⟩
    obtain ⟨⟨i, g1, g1', g1''⟩, g2⟩ := move_allowed.1 hno
    obtain rfl := g1.unique hr
    refine ⟨?_, ?_⟩
    · obtain ⟨_, _, hab⟩ := hab
      simp only [b2, b3, b4, b5, if_false, false_and, false_or] at hab
      obtain ⟨_, rfl, hab⟩ := hab
      exact hab
    · have hans' : ∃ h parent, reply = handlesReply cfg.profile [h, parent] ∧
          v = .derived h parent (Vector.replicate 32 0) 0 [] := by
        simpa only [Answer, b3, if_false] using hans
      obtain ⟨hh, hpp, e1, rfl⟩ := hans'
      have h2 : RepliesWith cfg.profile [hh, hpp] reply :=
        ⟨[], by rw [e1]; cases cfg.profile <;> simp [handlesReply, successBytes]⟩
      have q1 := Vector.toList_inj.1 ((hrep.at (k := 0) (x := h1) rfl).symm.trans (h2.at (k := 0) (x := hh) rfl))
      have q2 := Vector.toList_inj.1 ((hrep.at (k := 1) (x := hp) rfl).symm.trans (h2.at (k := 1) (x := hpp) rfl))
      subst q1 q2
      clear hcall hans he hrep h2 e1
      cases heff with
      | recursive hbit => exact absurd hbit b2
      | exported _ hbit => exact absurd hbit b3
      | exportedLast _ hbit => exact absurd hbit b3
      | @child h' hp v sx k kids st' _ _ hfree _ hun hpn _ hk hi ho hmeta =>
        have hun := (hun.resolve_left fun h => b5 h.1).2
        obtain ⟨_, rfl, rfl⟩ := hpn.resolve_left fun h => b4 h.1
        have hki : k ≠ i := by
          rintro rfl
          have := hr.1.1
          rw [hfree.2.1] at this
          cases this
        refine ⟨h1, _, i, k, _, rfl, rfl, hst1, hmeta, hr, g1', g1'', hfree, hki, hun, hk, rfl, rfl, ?_, rfl, rfl, ?_, ho⟩
        · simp only [childContext, b1, if_true]
        · show (st'.at i).state = _; rw [hi]

/-- A context without children is destroyed; no other active context goes with it. -/
theorem destroy_leaf {h : Handle} {i : Nat} (hst : InService s.st) (hal : addr % 4 = 0) (hr : Resolves s.st h loc i)
    (hch : (s.st.at i).children = 0) :
    ∃ s', c.call (simSend ((device L a cfg.profile).env cfg) loc addr) (.destroy h) (some s) = (.ok .nothing, some s') ∧
      ¬ Live s'.st i ∧ (∀ j, (s'.st.at j).state = .active ↔ (s.st.at j).state = .active ∧ j ≠ i) ∧
      ∀ j, (s'.st.at j).state = .active → ∃ ch, s'.st.at j = { s.st.at j with children := ch } := by
  have hno : NoRefusal (rules s.st loc (.destroy h)) := by
    intro x hx
    simp only [rules, earlyRules, lateRules, lookupRules, List.cons_append, List.nil_append, List.append_nil, List.mem_cons,
      List.not_mem_nil, or_false] at hx
    rcases hx with rfl | rfl
    · exact fun g => g ⟨i, hr.1.1, hr.1.2.2⟩
    · exact fun g => g ⟨i, hr.1⟩
  obtain ⟨reply, st', w', hx⟩ := (C58_able hL ha hb (s := s) hst hno).2 trivial
  have hx' := hx
  obtain ⟨i', q1, q2, _, q3⟩ := hx'
  obtain rfl := q1.unique hr
  obtain ⟨v, h1, h2⟩ := C61_served hL ha hb hs hc hst hal (Means.destroy h) trivial
    ⟨hno, hx, by rw [q3, handlesReply_length]; exact Nat.le_refl 12⟩
  obtain ⟨_, rfl⟩ := h2
  have hl : ∀ j, ¬ Lists s.st i' j := fun j => by simp [Lists, hch]
  have hd : ∀ j, DestroyedWith s.st i' j → j = i' ∨ (s.st.at j).state = .retired := by
    rintro j (rfl | hj | hj)
    · exact .inl rfl
    · exfalso
      induction hj with
      | child g => exact hl _ g
      | step _ _ ih => exact ih
    · right
      cases hj with
      | parent _ g => exact g
      | step _ _ g => exact g
  have gone : ∀ j, DestroyedWith s.st i' j → (st'.at j).state = .inactive := fun j hj => by rw [q2.1 j hj]; rfl
  refine ⟨_, h1, fun g => g (gone i' (.inl rfl)), fun j => ?_, fun j hj => ?_⟩
  · show (st'.at j).state = _ ↔ _
    by_cases g : DestroyedWith s.st i' j
    · rw [gone j g]
      refine iff_of_false (by decide) fun ⟨g1, g2⟩ => ?_
      rw [(hd j g).resolve_left g2] at g1
      cases g1
    · obtain ⟨⟨ch, g1⟩, _⟩ := q2.2.1 j g
      rw [g1]
      exact ⟨fun g2 => ⟨g2, fun g3 => g (.inl g3)⟩, fun g2 => g2.1⟩
  · have hj : (st'.at j).state = .active := hj
    by_cases g : DestroyedWith s.st i' j
    · rw [gone j g] at hj
      cases hj
    · exact (q2.2.1 j g).1

/-- C89: `TestChangeLocality` passes exactly if the default handle names one context of its locality and none of the next,
this context has no child of type 0, two slots are free, and a handle can be drawn before each of the two derivations.
It leaves behind all other active contexts, but not the default context. -/
theorem C89_change_locality (hst : InService s.st) (hal : addr % 4 = 0) :
    ((testChangeLocality c (simSend ((device L a cfg.profile).env cfg) loc addr)
        (simSend ((device L a cfg.profile).env cfg) (loc + 1) addr) loc (some s)).1 = true ↔
      (∃ i, Names s.st Handle.default loc i ∧ (∀ j, Names s.st Handle.default loc j → j = i) ∧
        ∀ j, Lists s.st i j → (s.st.at j).tci.tciType ≠ 0) ∧
      (∀ j, ¬ Names s.st Handle.default (loc + 1) j) ∧
      (∃ j k, j ≠ k ∧ j < cfg.maxHandles ∧ k < cfg.maxHandles ∧ ¬ Live s.st j ∧ ¬ Live s.st k) ∧
      CanDraw (L.crypto cfg.profile) s.st s.w.1.rng ∧
      ∀ v s1, c.call (simSend ((device L a cfg.profile).env cfg) loc addr)
        (.derive Handle.default (zeros c.kind.digest) changeLocality 0 (loc + 1)) (some s) = (.ok v, some s1) →
          CanDraw (L.crypto cfg.profile) s1.st s1.w.1.rng) ∧
    ((testChangeLocality c (simSend ((device L a cfg.profile).env cfg) loc addr)
        (simSend ((device L a cfg.profile).env cfg) (loc + 1) addr) loc (some s)).1 = true →
      ∃ s', (testChangeLocality c (simSend ((device L a cfg.profile).env cfg) loc addr)
          (simSend ((device L a cfg.profile).env cfg) (loc + 1) addr) loc (some s)).2 = some s' ∧ InService s'.st ∧
        (∀ j, (s'.st.at j).state = .active ↔ (s.st.at j).state = .active ∧ ¬ Names s.st Handle.default loc j) ∧
        ∀ j, (s'.st.at j).state = .active → ∃ ch, s'.st.at j = { s.st.at j with children := ch }) := by
  have hne : loc + 1 ≠ loc := by
    intro h
    have := congrArg BitVec.toNat h
    have h1 : (1 : U32).toNat = 1 := rfl
    rw [BitVec.toNat_add, h1] at this
    have := loc.isLt
    omega
  obtain ⟨k1, k2⟩ := move_derive (loc := loc) (h := Handle.default) (tl := loc + 1) hL ha hb hs hc hst hal
  rw [testChangeLocality, withProfile_eq hL ha hb hs hst hal]
  rcases hcall : c.call (simSend ((device L a cfg.profile).env cfg) loc addr)
    (.derive Handle.default (zeros c.kind.digest) changeLocality 0 (loc + 1)) (some s) with ⟨r, x⟩
  cases r with
  | error er =>
    refine ⟨iff_of_false (by simp) ?_, fun h => by simp at h⟩
    rintro ⟨⟨i, q1, q2, q3⟩, q4, ⟨j, _, _, q5, _, q6, _⟩, q7, _⟩
    obtain ⟨i', hi'⟩ := exists_resolves q1
    obtain rfl := q2 i' hi'.1
    obtain ⟨_, _, h1⟩ := k1 ⟨⟨i', hi', q3, fun d hd => absurd hd.1 (q4 d)⟩, ⟨j, q5, q6⟩, q7⟩
    rw [hcall] at h1
    cases h1
  | ok v =>
    obtain ⟨hdraw, h1, s1, i, k, p, rfl, rfl, hst1, _, hr, hty, hdef, hfree, hki, hun, hk, p1, p2, p3, p4, p5, hi, ho⟩ :=
      k2 _ _ hcall
    subst hk
    have hnodef : ∀ j, ¬ Names s.st Handle.default (loc + 1) j := by
      intro j hj
      obtain ⟨d, hd⟩ := exists_resolves hj
      obtain rfl := hdef d hd
      exact hne (hd.1.2.2.symm.trans hr.1.2.2)
    have hr1 : Resolves s1.st h1 (loc + 1) k := by
      refine ⟨⟨p1, p2, p3⟩, fun j hj ⟨n1, n2, _⟩ => ?_⟩
      by_cases hji : j = i
      · rw [hji, hi] at n1
        cases n1
      · rw [ho j (Nat.ne_of_lt hj) hji] at n1 n2
        exact hun.2 j (active_at n1) n2
    have hkl : ¬ Live s.st k := fun g => g hfree.2.1
    have hil : Live s.st i := by unfold Live; rw [hr.1.1]; decide
    have hl1 : ∀ j, ¬ Lists s1.st k j := fun j => by simp [Lists, p4]
    have same : ∀ j, ¬ Live s1.st j ↔ ¬ Live s.st j ∧ j ≠ k := by
      intro j
      by_cases g1 : j = k
      · subst g1
        exact iff_of_false (fun g => g (by unfold Live; rw [p1]; decide)) fun g => g.2 rfl
      · by_cases g2 : j = i
        · subst g2
          exact iff_of_false (fun g => g (by unfold Live; rw [hi]; decide)) fun g => g.1 hil
        · unfold Live
          rw [ho j g1 g2]
          exact ⟨fun g => ⟨g, g1⟩, fun g => g.1⟩
    have sole : (∀ d, Resolves s1.st Handle.default loc d → d = k) ↔ ∀ j, Names s.st Handle.default loc j → j = i := by
      constructor
      · intro g j hj
        refine Classical.byContradiction fun hji => ?_
        have hjk : j ≠ k := by
          rintro rfl
          exact hkl (by unfold Live; rw [hj.1]; decide)
        have hj1 : Names s1.st Handle.default loc j := by unfold Names; rw [ho j hjk hji]; exact hj
        obtain ⟨d, hd⟩ := exists_resolves hj1
        obtain rfl := g d hd
        exact hun.1 (p2.symm.trans hd.1.2.1)
      · intro g d hd
        refine Classical.byContradiction fun hdk => ?_
        have hdi : d ≠ i := by
          rintro rfl
          have := hd.1.1
          rw [hi] at this
          cases this
        refine hdi (g d ?_)
        have := hd.1
        unfold Names at this ⊢
        rw [ho d hdk hdi] at this
        exact this
    obtain ⟨k3, k4⟩ := move_derive (loc := loc + 1) (h := h1) (tl := loc) hL ha hb hs hc hst1 hal
    simp only
    rcases hcall2 : c.call (simSend ((device L a cfg.profile).env cfg) (loc + 1) addr)
      (.derive h1 (zeros c.kind.digest) changeLocality 0 loc) (some s1) with ⟨r, x⟩
    cases r with
    | error er =>
      refine ⟨iff_of_false (by simp) ?_, fun h => by simp at h⟩
      rintro ⟨⟨i', q1, q2, q3⟩, _, ⟨j, j', q4, q5, q5', q6, q6'⟩, _, q7⟩
      obtain rfl := q2 i hr.1
      have hf : ∃ j, j < cfg.maxHandles ∧ ¬ Live s1.st j := by
        by_cases g : j = k
        · exact ⟨j', q5', (same j').2 ⟨q6', fun g' => q4 (g.trans g'.symm)⟩⟩
        · exact ⟨j, q5, (same j).2 ⟨q6, g⟩⟩
      obtain ⟨_, _, h1⟩ := k3 ⟨⟨k, hr1, fun j hj => absurd hj (hl1 j), sole.2 q2⟩, hf, q7 _ _ rfl⟩
      rw [hcall2] at h1
      cases h1
    | ok v =>
      obtain ⟨hdraw2, h2, s2, k', n, p', rfl, rfl, hst2, _, hr', _, hdef2, hfree2, hnk, hun2, hn, r1, r2, r3, r4, r5, hk2, ho2⟩ :=
        k4 _ _ hcall2
      obtain rfl := hr'.unique hr1
      subst hn
      have hnl := (same n).1 fun g => g hfree2.2.1
      have hni : n ≠ i := fun g => hnl.1 (g ▸ hil)
      have hr2 : Resolves s2.st h2 loc n := by
        refine ⟨⟨r1, r2, r3⟩, fun j hj ⟨n1, n2, _⟩ => ?_⟩
        by_cases hji : j = k'
        · rw [hji, hk2] at n1
          cases n1
        · rw [ho2 j (Nat.ne_of_lt hj) hji] at n1 n2
          exact hun2.2 j (active_at n1) n2
      obtain ⟨s3, e1, e2, e3, e4⟩ := destroy_leaf hL ha hb hs hc hst2 hal hr2 r4
      simp only [e1, true_iff, true_implies]
      have hsole := sole.1 hdef2
      refine ⟨⟨⟨i, hr.1, hsole, hty⟩, hnodef, ⟨k', n, hnk.symm, hfree.1, hfree2.1, hkl, hnl.1⟩, hdraw, ?_⟩, s3, rfl, call_inService hL ha hb hs hc hst2 hal e1, ?_, ?_⟩
      · intro v s1' g
        cases g
        exact hdraw2
      · intro j
        rw [e3]
        by_cases g1 : j = n
        · subst g1
          exact iff_of_false (fun g => g.2 rfl) fun g => hnl.1 (by unfold Live; rw [g.1]; decide)
        · by_cases g2 : j = k'
          · subst g2
            rw [hk2, hfree.2.1]
            exact iff_of_false (fun g => by cases g.1) fun g => by cases g.1
          · rw [ho2 j g1 g2]
            by_cases g3 : j = i
            · subst g3
              rw [hi]
              exact iff_of_false (fun g => by cases g.1) fun g => g.2 hr.1
            · rw [ho j g2 g3]
              exact ⟨fun g => ⟨g.1, fun g' => g3 (hsole j g')⟩, fun g => ⟨g.1, g1⟩⟩
      · intro j hj
        obtain ⟨g0, g1⟩ := (e3 j).1 hj
        obtain ⟨ch, e⟩ := e4 j hj
        refine ⟨ch, ?_⟩
        by_cases g2 : j = k'
        · subst g2
          rw [hk2] at g0
          cases g0
        · by_cases g3 : j = i
          · subst g3
            rw [ho2 j g1 g2, hi] at g0
            cases g0
          · rw [e, ho2 j g1 g2, ho j g2 g3]

/-- A call that fails leaves the contexts as they were (UpdateContextMeasurement apart). -/
theorem call_error_same {k : GoCall} {cmd : Cmd cfg} {er : ClErr} {x : Option (Sys cfg (Soft (L.crypto cfg.profile) × Unit))}
    (hst : InService s.st) (hal : addr % 4 = 0) (hm : Means k cmd) (hin : InProfile cfg cmd) (hu : ∀ u, cmd ≠ .update u)
    (h : c.call (simSend ((device L a cfg.profile).env cfg) loc addr) k (some s) = (.error er, x)) :
    ∃ s', x = some s' ∧ s'.st = s.st := by
  by_cases hx : ∃ reply st' w', Succeeds (device L a cfg.profile) s.st loc s.w cmd reply st' w'
  · obtain ⟨reply, st', w', hx⟩ := hx
    obtain ⟨v, h1, _⟩ := C61_served hL ha hb hs hc hst hal hm hin hx
    rw [h1] at h
    cases h
  · obtain ⟨e', s', h1, _, _, h4⟩ := C61_failed hL ha hb hs hc hst hal hm hin hx
    rw [h1] at h
    cases h
    exact ⟨s', rfl, h4.resolve_right fun ⟨u, g, _⟩ => hu u g⟩

/-- C89: after `TestPrivilegesEscalation` has passed, the default handle no longer names the context it named. -/
theorem C89_privileges_irreversible (hst : InService s.st) (hal : addr % 4 = 0)
    (h : (testPrivileges c (simSend ((device L a cfg.profile).env cfg) loc addr) (some s)).1 = true) :
    ∃ s', (testPrivileges c (simSend ((device L a cfg.profile).env cfg) loc addr) (some s)).2 = some s' ∧ InService s'.st ∧
      ∀ j, Names s'.st Handle.default loc j → Names s.st Handle.default loc j ∧ ¬ Resolves s.st Handle.default loc j := by
  obtain ⟨k1, k2⟩ := plain_derive (loc := loc) hL ha hb hs hc hst hal
  rw [testPrivileges, withProfile_eq hL ha hb hs hst hal] at h ⊢
  rcases hcall : c.call (simSend ((device L a cfg.profile).env cfg) loc addr)
    (.derive Handle.default (zeros c.kind.digest) 0 0 0) (some s) with ⟨r, x⟩
  rw [hcall] at h
  cases r with
  | error er => simp at h
  | ok v =>
    obtain ⟨_, hd, s1, k, rfl, rfl, hst1, _, _, _, _, hnm⟩ := k2 _ _ hcall
    obtain ⟨z, hm⟩ := means_zeros hL ha hb hs hc hd inputAllowX509 0
    obtain ⟨d, m1, m2, _, _⟩ := means_certify hL ha hb hs hc hd
    simp only [expectsAll, Bool.and_true, Bool.and_eq_true] at h ⊢
    have hx := expects_eq (c := c) (w := statusInvalidArgument) (k := .derive hd (zeros c.kind.digest) inputAllowX509 0 0)
      (simSend ((device L a cfg.profile).env cfg) loc addr) (some s1)
    have e1 := hx.1.1 h.1
    obtain ⟨s2, e2, e3⟩ := call_error_same hL ha hb hs hc hst1 hal hm trivial (by simp) (Prod.ext e1 rfl)
    have hst2 : InService s2.st := by rw [e3]; exact hst1
    have hx2 := hx.2.trans e2
    rw [hx2] at h ⊢
    have hy := expects_eq (c := c) (w := statusInvalidArgument) (k := .certifyKey hd (zeros c.kind.digest) 0 0)
      (simSend ((device L a cfg.profile).env cfg) loc addr) (some s2)
    have e4 := hy.1.1 h.2
    obtain ⟨s3, e5, e6⟩ := call_error_same hL ha hb hs hc hst2 hal m1 m2 (by simp) (Prod.ext e4 rfl)
    exact ⟨s3, hy.2.trans e5, by rw [e6]; exact hst2, by rw [e6, e3]; exact hnm⟩

/-- C89: so it is after `TestDeriveContextDisallowedChildCdiExport`, which the suite counts among the tests that can be
reversed: the default handle, with which it cleans up, is no longer in use. -/
theorem C89_export_irreversible (hst : InService s.st) (hal : addr % 4 = 0)
    (hone : ∀ i j, Names s.st Handle.default loc i → Names s.st Handle.default loc j → i = j)
    (h : (testDisallowedExport c (simSend ((device L a cfg.profile).env cfg) loc addr) (some s)).1 = true) :
    ∃ s', (testDisallowedExport c (simSend ((device L a cfg.profile).env cfg) loc addr) (some s)).2 = some s' ∧
      InService s'.st ∧ ∀ j, ¬ Names s'.st Handle.default loc j := by
  obtain ⟨k1, k2⟩ := plain_derive (loc := loc) hL ha hb hs hc hst hal
  rw [testDisallowedExport, withProfile_eq hL ha hb hs hst hal] at h ⊢
  rcases hcall : c.call (simSend ((device L a cfg.profile).env cfg) loc addr)
    (.derive Handle.default (zeros c.kind.digest) 0 0 0) (some s) with ⟨r, x⟩
  rw [hcall] at h
  cases r with
  | error er => simp at h
  | ok v =>
    obtain ⟨_, hd, s1, k, rfl, rfl, hst1, _, _, _, _, hnm⟩ := k2 _ _ hcall
    simp only at h ⊢
    rcases hcall2 : c.call (simSend ((device L a cfg.profile).env cfg) loc addr)
      (.derive hd (zeros c.kind.digest) (cdiExport ||| createCertificate) 0 0) (some s1) with ⟨r, x⟩
    rw [hcall2] at h
    cases r with
    | ok v => simp at h
    | error er =>
      obtain ⟨z, hm⟩ := means_zeros hL ha hb hs hc hd (cdiExport ||| createCertificate) 0
      obtain ⟨s2, rfl, e3⟩ := call_error_same hL ha hb hs hc hst1 hal hm trivial (by simp) hcall2
      have hst2 : InService s2.st := by rw [e3]; exact hst1
      have hno : ∀ j, ¬ Names s2.st Handle.default loc j := by
        intro j hj
        rw [e3] at hj
        obtain ⟨g1, g2⟩ := hnm j hj
        obtain ⟨d, hd⟩ := exists_resolves g1
        obtain rfl := hone j d g1 hd.1
        exact g2 hd
      simp only
      rcases hcall3 : c.call (simSend ((device L a cfg.profile).env cfg) loc addr) (.destroy Handle.default) (some s2) with
        ⟨r, x⟩
      cases r with
      | error er =>
        obtain ⟨s3, rfl, e4⟩ := call_error_same hL ha hb hs hc hst2 hal (Means.destroy _) trivial (by simp) hcall3
        exact ⟨s3, rfl, by rw [e4]; exact hst2, by rw [e4]; exact hno⟩
      | ok v =>
        obtain ⟨cmd', reply, st', w', hm', hin', _, _, he⟩ := call_ok hL ha hb hs hc hst2 hal hcall3
        obtain rfl := C61_means_one hm' (Means.destroy _) hin' trivial
        obtain ⟨_, ⟨_, i, hr, _⟩, _⟩ :=
          C52_success_effect (s := ⟨s2.st, s2.w, List.replicate reply.length 0⟩) hst2 (digests_true _) he
        exact absurd hr.1 (hno i)

/-- C89: none of the three tests passes twice, nor one after the other, where the default handle named a single
context. -/
theorem C89_once (hst : InService s.st) (hal : addr % 4 = 0)
    (hone : ∀ i j, Names s.st Handle.default loc i → Names s.st Handle.default loc j → i = j) :
    let t := fun l => simSend ((device L a cfg.profile).env cfg) l addr
    ∀ f ∈ [testPrivileges c (t loc), testDisallowedExport c (t loc), testChangeLocality c (t loc) (t (loc + 1)) loc],
    ∀ g ∈ [testPrivileges c (t loc), testDisallowedExport c (t loc), testChangeLocality c (t loc) (t (loc + 1)) loc],
      (f (some s)).1 = true → (g (f (some s)).2).1 = false := by
  intro t f hf g hg h
  have key : ∃ s', (f (some s)).2 = some s' ∧ InService s'.st ∧ ∀ j, ¬ Names s'.st Handle.default loc j := by
    simp only [List.mem_cons, List.not_mem_nil, or_false] at hf
    rcases hf with rfl | rfl | rfl
    · obtain ⟨s', h1, h2, h3⟩ := C89_privileges_irreversible hL ha hb hs hc hst hal h
      refine ⟨s', h1, h2, fun j hj => ?_⟩
      obtain ⟨g1, g2⟩ := h3 j hj
      obtain ⟨d, hd⟩ := exists_resolves g1
      obtain rfl := hone j d g1 hd.1
      exact g2 hd
    · exact C89_export_irreversible hL ha hb hs hc hst hal hone h
    · obtain ⟨s', h1, h0, h2, h3⟩ := (C89_change_locality hL ha hb hs hc hst hal).2 h
      refine ⟨s', h1, h0, fun j hj => ?_⟩
      obtain ⟨ch, e⟩ := h3 j hj.1
      refine ((h2 j).1 hj.1).2 ?_
      unfold Names at hj
      rw [e] at hj
      exact hj
  obtain ⟨s', h1, h2, h3⟩ := key
  rw [h1]
  simp only [List.mem_cons, List.not_mem_nil, or_false] at hg
  rcases hg with rfl | rfl | rfl <;> refine Bool.eq_false_iff.2 fun h => ?_
  · obtain ⟨_, ⟨i, hi, _⟩, _⟩ := (C88_privileges hL ha hb hs hc h2 hal).1 h
    exact h3 i hi.1
  · obtain ⟨⟨i, hi, _⟩, _⟩ := (C88_disallowed_export hL ha hb hs hc h2 hal).1 h
    exact h3 i hi.1
  · obtain ⟨⟨i, hi, _⟩, _⟩ := (C89_change_locality hL ha hb hs hc h2 hal).1.1 h
    exact h3 i hi

/-- C89: on a simulator that has just been started with automatic initialisation and has room for three contexts,
`TestChangeLocality` passes from locality 0 if the two handles can be drawn, and of the three tests only the first one
run passes; from other localities, or without automatic initialisation, it fails. -/
theorem C89_fresh (g : SimArgs) (hal : addr % 4 = 0) (hda : ¬ Bit cfg.disabled Feature.autoInit) :
    let s : Sys cfg (Soft (L.crypto cfg.profile) × Unit) := (simStart cfg L a g).2
    let t := fun loc => simSend ((device L a cfg.profile).env cfg) loc addr
    (g.autoInit = true → 3 ≤ cfg.maxHandles → CanDraw (L.crypto cfg.profile) s.st s.w.1.rng →
      (∀ v s1, c.call (t 0) (.derive Handle.default (zeros c.kind.digest) changeLocality 0 1) (some s) = (.ok v, some s1) →
        CanDraw (L.crypto cfg.profile) s1.st s1.w.1.rng) →
      (testChangeLocality c (t 0) (t 1) 0 (some s)).1 = true) ∧
    (∀ f ∈ [testPrivileges c (t 0), testDisallowedExport c (t 0), testChangeLocality c (t 0) (t 1) 0],
      ∀ g ∈ [testPrivileges c (t 0), testDisallowedExport c (t 0), testChangeLocality c (t 0) (t 1) 0],
        (f (some s)).1 = true → (g (f (some s)).2).1 = false) ∧
    ∀ loc, g.autoInit = false ∨ loc ≠ 0 → (testChangeLocality c (t loc) (t (loc + 1)) loc (some s)).1 = false := by
  obtain ⟨s, h1, hr, hsup, _, _, hno, hyes⟩ := C59_start (cfg := cfg) (L := L) (a := a) g
  rw [h1]
  intro s' t
  obtain ⟨_, _, _, _, _, _, q7⟩ := asks_iff g
  have hst : InService s.st := .reached hr
  have hauto : g.autoInit = true → ∃ i, Names s.st Handle.default 0 i ∧ (∀ j, ¬ Lists s.st i j) ∧
      ∀ j, j ≠ i → (s.st.at j).state = .inactive := fun h =>
    fresh_childless a (hyes ((hsup Feature.autoInit).2 ⟨q7.2 h, hda⟩))
  have hnone : g.autoInit = false → ∀ loc j, ¬ Names s.st Handle.default loc j := by
    intro hg loc j hj
    have := hj.1
    rw [hno (fun h => by have := q7.1 ((hsup _).1 h).1; rw [hg] at this; cases this)] at this
    cases this
  have hone : ∀ loc i j, Names s.st Handle.default loc i → Names s.st Handle.default loc j → i = j := by
    intro loc i j hi hj
    cases hg : g.autoInit with
    | false => exact absurd hi (hnone hg loc i)
    | true =>
      obtain ⟨k, _, _, v3⟩ := hauto hg
      have all : ∀ i, Names s.st Handle.default loc i → i = k := by
        intro i hi
        by_cases hik : i = k
        · exact hik
        · have := hi.1
          rw [v3 i hik] at this
          cases this
      rw [all i hi, all j hj]
  refine ⟨fun w1 w2 w3 w4 => ?_, C89_once hL ha hb hs hc hst hal (hone 0), fun loc w => ?_⟩
  · obtain ⟨i, v1, v2, v3⟩ := hauto w1
    refine (C89_change_locality (loc := 0) hL ha hb hs hc hst hal).1.2
      ⟨⟨i, v1, fun j hj => hone 0 j i hj v1, fun j hj => absurd hj (v2 j)⟩, fun j hj => ?_, ?_, w3, w4⟩
    · by_cases hji : j = i
      · subst hji
        exact absurd (hj.2.2.symm.trans v1.2.2) (by decide)
      · have := hj.1
        rw [v3 j hji] at this
        cases this
    · have dead : ∀ j, j ≠ i → ¬ Live s.st j := fun j hj h => h (v3 j hj)
      by_cases h0 : i = 0
      · exact ⟨1, 2, by decide, by omega, by omega, dead 1 (by omega), dead 2 (by omega)⟩
      · by_cases h2 : i = 1
        · exact ⟨0, 2, by decide, by omega, by omega, dead 0 (by omega), dead 2 (by omega)⟩
        · exact ⟨0, 1, by decide, by omega, by omega, dead 0 (by omega), dead 1 (by omega)⟩
  · refine Bool.eq_false_iff.2 fun h => ?_
    obtain ⟨⟨i, hi, _⟩, _⟩ := (C89_change_locality hL ha hb hs hc hst hal).1.1 h
    cases hg : g.autoInit with
    | false => exact hnone hg loc i hi
    | true =>
      have hl := w.resolve_left (by simp [hg])
      obtain ⟨j, v1, _, v3⟩ := hauto hg
      by_cases hij : i = j
      · subst hij
        exact hl (hi.2.2.symm.trans v1.2.2)
      · have := hi.1
        rw [v3 i hij] at this
        cases this

end

namespace Ref

/-- Evaluated: the test on the suite's default target and from another locality, and each of the three tests after
another. -/
example :
    (match newClient wires 3 (some (simStart std lib cert target.args).2) with
      | (.ok c, x) =>
        let t := fun loc => simSend ((device lib cert std.profile).env std) loc 8
        let f := testChangeLocality c (t 0) (t 1) 0
        ((f x).1, (testChangeLocality c (t 1) (t 2) 1 x).1, (f (f x).2).1, (f (testDisallowedExport c (t 0) x).2).1,
          (testDisallowedExport c (t 0) (f x).2).1)
      | _ => (false, false, false, false, false)) = (true, false, false, false, false) := by decide +kernel

/-- Non-vacuity for C89: a client that connected to a simulator; none of the tests passes after another. -/
example : ∃ c : Client, Connected lib cert std c ∧
    (testChangeLocality c (simSend ((device lib cert std.profile).env std) 5 8)
      (simSend ((device lib cert std.profile).env std) (5 + 1) 8) 5 (some (simStart std lib cert target.args).2)).1 = false ∧
    ((testPrivileges c (simSend ((device lib cert std.profile).env std) 0 8)
        (some (simStart std lib cert target.args).2)).1 = true →
      (testDisallowedExport c (simSend ((device lib cert std.profile).env std) 0 8)
        (testPrivileges c (simSend ((device lib cert std.profile).env std) 0 8)
          (some (simStart std lib cert target.args).2)).2).1 = false) := by
  obtain ⟨s0, hs0, hr0, _⟩ := C59_start (cfg := std) (L := lib) (a := cert) features.args
  obtain ⟨c, h1, _⟩ := (C62_connects_partial (loc := 3) (addr := 8) lib_total cert_fit std_built std_standard
    (.reached hr0) (by decide) (wireProfile std.profile)).1 rfl
  have hcon : Connected lib cert std c := ⟨_, _, _, _, _, .reached hr0, by decide, h1⟩
  obtain ⟨_, k2, k3⟩ := C89_fresh (addr := 8) lib_total cert_fit std_built std_standard hcon target.args
    (by decide) (by decide)
  exact ⟨c, hcon, k3 5 (.inr (by decide)), k2 _ (.head _) _ (.tail _ (.head _))⟩

end Ref
end Dpe
