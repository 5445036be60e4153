import Verif.Model.TestsFlags
import Verif.Props.TestsLocality
/-
C90: when the conformance suite's test of the internal inputs passes.
-/
namespace Dpe
open Suite
section
variable {cfg : Cfg} {L : Lib} {a : Artifact} {c : Client} {loc : U32} {addr : Nat}
  {s s1 : Sys cfg (Soft (L.crypto cfg.profile) × Unit)}
variable (hL : L.Total) (ha : a.Fit) (hb : Built cfg a) (hs : cfg.Standard) (hc : Connected L a cfg c)
include hL ha hb hs hc

/-- Flags of a derivation that replaces the parent, in its locality. -/
def InLine (f : U32) : Prop :=
  ¬ Bit f DFlag.changeLocality ∧ ¬ Bit f DFlag.recursive ∧ ¬ Bit f DFlag.exportCdi ∧ ¬ Bit f DFlag.retainParent ∧
    ¬ Bit f DFlag.makeDefault ∧ ¬ Bit f DFlag.allowX509

omit hL ha hb hs hc in
/-- When a derivation that keeps nothing and stays in its locality is allowed. -/
theorem line_allowed {st : State cfg} {h : Handle} {f : U32} (hf : InLine f) {z : BArr cfg.tciSize} :
    NoRefusal (rules st loc (.derive (cfg := cfg) ⟨h, z, f, 0, 0, 0⟩)) ↔ ¬ AsksUnsupported st f ∧
      (∃ i, Resolves st h loc i ∧ (∀ j, Lists st i j → (st.at j).tci.tciType ≠ 0) ∧
        ∀ d, Resolves st Handle.default loc d → d = i) ∧
      ∃ j, j < cfg.maxHandles ∧ ¬ Live st j := by
  obtain ⟨b1, b2, b3, b4, b5, b6⟩ := hf
  have hbad : ∀ p : Context cfg, ¬ BadDerive p f := by
    rintro p (h | h | h)
    · exact b6 h.1
    · exact b3 h.1
    · exact b2 h.1
  simp only [NoRefusal, rules, earlyRules, lateRules, lookupRules, List.cons_append, List.nil_append, List.mem_cons,
    List.not_mem_nil, or_false, forall_eq_or_imp, forall_eq, Named, hbad, b1, b2, b3, b4, b5, false_and,
    not_false_eq_true, and_false, exists_false, true_and, not_not, targetOf, if_false, DefaultClash, or_false, false_or]
  constructor
  · rintro ⟨h0, _, ⟨i, hi⟩, h3, h4, h5⟩
    obtain ⟨i, hi⟩ := exists_resolves hi
    refine ⟨h0, ⟨i, hi, fun j hj ht => h3 ⟨i, hi, j, hj, ht⟩, fun d hd => ?_⟩, ?_⟩
    · exact Classical.byContradiction fun g => h5 ⟨i, hi, d, hd, g⟩
    · exact Classical.byContradiction fun g => h4 fun j hj => Classical.byContradiction fun g' => g ⟨j, hj, g'⟩
  · rintro ⟨h0, ⟨i, hi, h3, h4⟩, j, hj, hl⟩
    refine ⟨h0, ⟨i, hi.1.1, hi.1.2.2⟩, ⟨i, hi.1⟩, ?_, fun h => hl (h j hj), ?_⟩
    · rintro ⟨i', hi', j, hj, ht⟩
      obtain rfl := hi'.unique hi
      exact h3 j hj ht
    · rintro ⟨i', hi', d, hd, hne⟩
      obtain rfl := hi'.unique hi
      exact hne (h4 d hd)

/-- The derivation of a child that takes its parent's place. -/
theorem line_derive {h : Handle} {f : U32} (hf : InLine f) (hst : InService s.st) (hal : addr % 4 = 0) :
    (¬ AsksUnsupported s.st f ∧ (∃ i, Resolves s.st h loc i ∧ (∀ j, Lists s.st i j → (s.st.at j).tci.tciType ≠ 0) ∧
        ∀ d, Resolves s.st Handle.default loc d → d = i) ∧ (∃ j, j < cfg.maxHandles ∧ ¬ Live s.st j) ∧
        CanDraw (L.crypto cfg.profile) s.st s.w.1.rng →
      ∃ v x, c.call (simSend ((device L a cfg.profile).env cfg) loc addr)
        (.derive h (zeros c.kind.digest) f 0 0) (some s) = (.ok v, x)) ∧
    ∀ v x, c.call (simSend ((device L a cfg.profile).env cfg) loc addr)
        (.derive h (zeros c.kind.digest) f 0 0) (some s) = (.ok v, x) →
      ¬ AsksUnsupported s.st f ∧ CanDraw (L.crypto cfg.profile) s.st s.w.1.rng ∧
      ∃ h1 s1 i k p, v = .derived h1 Handle.invalid (Vector.replicate 32 0) 0 [] ∧ x = some s1 ∧ InService s1.st ∧
        SameMeta s.st s1.st ∧ Resolves s.st h loc i ∧ (∀ j, Lists s.st i j → (s.st.at j).tci.tciType ≠ 0) ∧
        (∀ d, Resolves s.st Handle.default loc d → d = i) ∧ FirstFree s.st k ∧ k ≠ i ∧ Unused s.st h1 ∧
        s1.st.at k = p ∧ p.state = .active ∧ p.handle = h1 ∧ p.locality = loc ∧ p.children = 0 ∧ p.parentIdx = i ∧
        (s1.st.at i).state = .retired ∧ ∀ j, j ≠ k → j ≠ i → s1.st.at j = s.st.at j := by
  have hf' := hf
  obtain ⟨b1, b2, b3, b4, b5, b6⟩ := hf
  obtain ⟨hfit, hser, _⟩ := C58_meets (cfg := cfg) (L := L) hL ha 0
  obtain ⟨z, hm⟩ := means_zeros hL ha hb hs hc h f 0
  constructor
  · rintro ⟨g0, g1, g2, g3⟩
    have hno := (line_allowed (st := s.st) (loc := loc) (h := h) hf' (z := z)).2 ⟨g0, g1, g2⟩
    obtain ⟨i, hi, _⟩ := g1
    obtain ⟨reply, st', w', hx⟩ := (C58_able hL ha hb (loc := loc) hst hno).2 ⟨i, hi, by
      simp only [b2, b3, b4, b5, if_false, false_and, false_or]
      exact ⟨_, rfl, g3⟩⟩
    have hlen : reply.length ≤ (Cmd.derive (cfg := cfg) ⟨h, z, f, 0, 0, 0⟩).respKind.size cfg := by
      obtain ⟨_, _, hx⟩ := hx
      simp only [b2, b3, if_false] at hx
      obtain ⟨_, _, _, _, _, _, _, _, _, _, _, _, _, _, _, _, _, rfl⟩ := hx
      rw [handlesReply_length]
      have hx : (DeriveCmd.exportCdi (cfg := cfg) ⟨h, z, f, 0, 0, 0⟩) = false := by
        exact Bool.eq_false_iff.2 b3
      simp only [Cmd.respKind, hx]
      exact Nat.le_refl 44
    obtain ⟨v, e1, _⟩ := C61_served hL ha hb hs hc hst hal hm trivial ⟨hno, hx, hlen⟩
    exact ⟨_, _, e1⟩
  · intro v x hcall
    obtain ⟨cmd', reply, st', w', hm', hin', hans, rfl, he⟩ := call_ok hL ha hb hs hc hst hal hcall
    obtain rfl := C61_means_one hm' hm hin' trivial
    have hst1 := call_inService hL ha hb hs hc hst hal hcall
    obtain ⟨hno, reply', st'', w'', hsv, _⟩ := (C57_exact (s := ⟨s.st, s.w, List.replicate reply.length 0⟩) hst
      (fun _ => ⟨hfit, hser⟩)).1 he
    obtain ⟨hs', ⟨idx, h1, hp, rfl, hr, heff⟩, hrep⟩ :=
      C52_success_effect (s := ⟨s.st, s.w, List.replicate reply.length 0⟩) hst (digests_true _) he
    have hab := (C58_able hL ha hb (s := ⟨s.st, s.w, s.out⟩) hst hno).1 ⟨reply', st'', w'', hsv⟩
    obtain ⟨g0, ⟨i, g1, g1', g1''⟩, g2⟩ := (line_allowed hf').1 hno
    obtain rfl := g1.unique hr
    refine ⟨g0, ?_, ?_⟩
    · obtain ⟨_, _, hab⟩ := hab
      simp only [b2, b3, b4, b5, if_false, false_and, false_or] at hab
      obtain ⟨_, rfl, hab⟩ := hab
      exact hab
    · have hans' : ∃ h parent, reply = handlesReply cfg.profile [h, parent] ∧
          v = .derived h parent (Vector.replicate 32 0) 0 [] := by
        simpa only [Answer, b3, if_false] using hans
      obtain ⟨hh, hpp, e1, rfl⟩ := hans'
      have h2 : RepliesWith cfg.profile [hh, hpp] reply :=
        ⟨[], by rw [e1]; cases cfg.profile <;> simp [handlesReply, successBytes]⟩
      have q1 := Vector.toList_inj.1 ((hrep.at (k := 0) (x := h1) rfl).symm.trans (h2.at (k := 0) (x := hh) rfl))
      have q2 := Vector.toList_inj.1 ((hrep.at (k := 1) (x := hp) rfl).symm.trans (h2.at (k := 1) (x := hpp) rfl))
      subst q1 q2
      clear hcall hans he hrep h2 e1
      cases heff with
      | recursive hbit => exact absurd hbit b2
      | exported _ hbit => exact absurd hbit b3
      | exportedLast _ hbit => exact absurd hbit b3
      | @child h' hp v sx k kids st' _ _ hfree _ hun hpn _ hk hi ho hmeta =>
        have hun := (hun.resolve_left fun h => b5 h.1).2
        obtain ⟨_, rfl, rfl⟩ := hpn.resolve_left fun h => b4 h.1
        have hki : k ≠ i := by
          rintro rfl
          have := hr.1.1
          rw [hfree.2.1] at this
          cases this
        refine ⟨h1, _, i, k, _, rfl, rfl, hst1, hmeta, hr, g1', g1'', hfree, hki, hun, hk, rfl, rfl, ?_, rfl, rfl, ?_, ho⟩
        · simp only [childContext, b1, if_false]
        · show (st'.at i).state = _; rw [hi]

omit hL ha hb hs hc in
theorem dice_line : InLine internalInputDice := by unfold InLine; decide

omit hL ha hb hs hc in
theorem info_line : InLine internalInputInfo := by unfold InLine; decide

omit hL ha hb hs hc in
theorem wants_dice {st : State cfg} : ¬ AsksUnsupported st internalInputDice ↔ st.supports Feature.internalDice := by
  simp [AsksUnsupported, deriveNeeds, Bit, internalInputDice, DFlag.internalInfo, DFlag.internalDice, DFlag.retainParent,
    DFlag.allowX509, DFlag.exportCdi, DFlag.createCert, DFlag.recursive]

omit hL ha hb hs hc in
theorem wants_info {st : State cfg} : ¬ AsksUnsupported st internalInputInfo ↔ st.supports Feature.internalInfo := by
  simp [AsksUnsupported, deriveNeeds, Bit, internalInputInfo, DFlag.internalInfo, DFlag.internalDice, DFlag.retainParent,
    DFlag.allowX509, DFlag.exportCdi, DFlag.createCert, DFlag.recursive]

/-- C90: where the target is said to support both internal inputs, `TestInternalInputFlags` passes exactly if the device
does support both, the default handle names one context of the locality, which has no child of type 0, two slots are free,
and a handle can be drawn before each of the two derivations.  It leaves behind all other active contexts, but not the
default context. -/
theorem C90_input_flags (hst : InService s.st) (hal : addr % 4 = 0) :
    ((testInputFlags c (simSend ((device L a cfg.profile).env cfg) loc addr) true true (some s)).1 = true ↔
      s.st.supports Feature.internalDice ∧ s.st.supports Feature.internalInfo ∧
      (∃ i, Names s.st Handle.default loc i ∧ (∀ j, Names s.st Handle.default loc j → j = i) ∧
        ∀ j, Lists s.st i j → (s.st.at j).tci.tciType ≠ 0) ∧
      (∃ j k, j ≠ k ∧ j < cfg.maxHandles ∧ k < cfg.maxHandles ∧ ¬ Live s.st j ∧ ¬ Live s.st k) ∧
      CanDraw (L.crypto cfg.profile) s.st s.w.1.rng ∧
      ∀ v s1, c.call (simSend ((device L a cfg.profile).env cfg) loc addr)
        (.derive Handle.default (zeros c.kind.digest) internalInputDice 0 0) (some s) = (.ok v, some s1) →
          CanDraw (L.crypto cfg.profile) s1.st s1.w.1.rng) ∧
    ((testInputFlags c (simSend ((device L a cfg.profile).env cfg) loc addr) true true (some s)).1 = true →
      ∃ s', (testInputFlags c (simSend ((device L a cfg.profile).env cfg) loc addr) true true (some s)).2 = some s' ∧
        InService s'.st ∧
        (∀ j, (s'.st.at j).state = .active ↔ (s.st.at j).state = .active ∧ ¬ Names s.st Handle.default loc j) ∧
        ∀ j, (s'.st.at j).state = .active → ∃ ch, s'.st.at j = { s.st.at j with children := ch }) := by
  obtain ⟨k1, k2⟩ := line_derive (loc := loc) (h := Handle.default) hL ha hb hs hc dice_line hst hal
  rw [testInputFlags, withProfile_eq hL ha hb hs hst hal]
  simp only [if_true]
  rcases hcall : c.call (simSend ((device L a cfg.profile).env cfg) loc addr)
    (.derive Handle.default (zeros c.kind.digest) internalInputDice 0 0) (some s) with ⟨r, x⟩
  cases r with
  | error er =>
    refine ⟨iff_of_false (by simp) ?_, fun h => by simp at h⟩
    rintro ⟨u1, _, ⟨i, q1, q2, q3⟩, ⟨j, _, _, q5, _, q6, _⟩, q7, _⟩
    obtain ⟨i', hi'⟩ := exists_resolves q1
    obtain rfl := q2 i' hi'.1
    obtain ⟨_, _, h1⟩ := k1 ⟨wants_dice.2 u1, ⟨i', hi', q3, fun d hd => q2 d hd.1⟩, ⟨j, q5, q6⟩, q7⟩
    rw [hcall] at h1
    cases h1
  | ok v =>
    obtain ⟨hd0, hdraw, h1, s1, i, k, p, rfl, rfl, hst1, hmeta, hr, hty, hdef, hfree, hki, hun, hk, p1, p2, p3, p4, p5, hi, ho⟩ :=
      k2 _ _ hcall
    subst hk
    have hr1 : Resolves s1.st h1 loc k := by
      refine ⟨⟨p1, p2, p3⟩, fun j hj ⟨n1, n2, _⟩ => ?_⟩
      by_cases hji : j = i
      · rw [hji, hi] at n1
        cases n1
      · rw [ho j (Nat.ne_of_lt hj) hji] at n1 n2
        exact hun.2 j (active_at n1) n2
    have hkl : ¬ Live s.st k := fun g => g hfree.2.1
    have hil : Live s.st i := by unfold Live; rw [hr.1.1]; decide
    have hl1 : ∀ j, ¬ Lists s1.st k j := fun j => by simp [Lists, p4]
    have same : ∀ j, ¬ Live s1.st j ↔ ¬ Live s.st j ∧ j ≠ k := by
      intro j
      by_cases g1 : j = k
      · subst g1
        exact iff_of_false (fun g => g (by unfold Live; rw [p1]; decide)) fun g => g.2 rfl
      · by_cases g2 : j = i
        · subst g2
          exact iff_of_false (fun g => g (by unfold Live; rw [hi]; decide)) fun g => g.1 hil
        · unfold Live
          rw [ho j g1 g2]
          exact ⟨fun g => ⟨g, g1⟩, fun g => g.1⟩
    have sup : s1.st.supports Feature.internalInfo ↔ s.st.supports Feature.internalInfo := by
      unfold State.supports; rw [hmeta.1.2.2.1]
    have sole : (∀ d, Resolves s1.st Handle.default loc d → d = k) ↔ ∀ j, Names s.st Handle.default loc j → j = i := by
      constructor
      · intro g j hj
        refine Classical.byContradiction fun hji => ?_
        have hjk : j ≠ k := by
          rintro rfl
          exact hkl (by unfold Live; rw [hj.1]; decide)
        have hj1 : Names s1.st Handle.default loc j := by unfold Names; rw [ho j hjk hji]; exact hj
        obtain ⟨d, hd⟩ := exists_resolves hj1
        obtain rfl := g d hd
        exact hun.1 (p2.symm.trans hd.1.2.1)
      · intro g d hd
        refine Classical.byContradiction fun hdk => ?_
        have hdi : d ≠ i := by
          rintro rfl
          have := hd.1.1
          rw [hi] at this
          cases this
        refine hdi (g d ?_)
        have := hd.1
        unfold Names at this ⊢
        rw [ho d hdk hdi] at this
        exact this
    obtain ⟨k3, k4⟩ := line_derive (loc := loc) (h := h1) hL ha hb hs hc info_line hst1 hal
    simp only
    rcases hcall2 : c.call (simSend ((device L a cfg.profile).env cfg) loc addr)
      (.derive h1 (zeros c.kind.digest) internalInputInfo 0 0) (some s1) with ⟨r, x⟩
    cases r with
    | error er =>
      refine ⟨iff_of_false (by simp) ?_, fun h => by simp at h⟩
      rintro ⟨_, u2, ⟨i', q1, q2, q3⟩, ⟨j, j', q4, q5, q5', q6, q6'⟩, _, q7⟩
      obtain rfl := q2 i hr.1
      have hf : ∃ j, j < cfg.maxHandles ∧ ¬ Live s1.st j := by
        by_cases g : j = k
        · exact ⟨j', q5', (same j').2 ⟨q6', fun g' => q4 (g.trans g'.symm)⟩⟩
        · exact ⟨j, q5, (same j).2 ⟨q6, g⟩⟩
      obtain ⟨_, _, h1⟩ := k3 ⟨wants_info.2 (sup.2 u2), ⟨k, hr1, fun j hj => absurd hj (hl1 j), sole.2 q2⟩, hf, q7 _ _ rfl⟩
      rw [hcall2] at h1
      cases h1
    | ok v =>
      obtain ⟨hd1, hdraw2, h2, s2, k', n, p', rfl, rfl, hst2, _, hr', _, hdef2, hfree2, hnk, hun2, hn, r1, r2, r3, r4, r5, hk2, ho2⟩ :=
        k4 _ _ hcall2
      obtain rfl := hr'.unique hr1
      subst hn
      have hnl := (same n).1 fun g => g hfree2.2.1
      have hni : n ≠ i := fun g => hnl.1 (g ▸ hil)
      have hr2 : Resolves s2.st h2 loc n := by
        refine ⟨⟨r1, r2, r3⟩, fun j hj ⟨n1, n2, _⟩ => ?_⟩
        by_cases hji : j = k'
        · rw [hji, hk2] at n1
          cases n1
        · rw [ho2 j (Nat.ne_of_lt hj) hji] at n1 n2
          exact hun2.2 j (active_at n1) n2
      obtain ⟨s3, e1, e2, e3, e4⟩ := destroy_leaf hL ha hb hs hc hst2 hal hr2 r4
      simp only [e1, true_iff, true_implies]
      have hsole := sole.1 hdef2
      refine ⟨⟨wants_dice.1 hd0, sup.1 (wants_info.1 hd1), ⟨i, hr.1, hsole, hty⟩, ⟨k', n, hnk.symm, hfree.1, hfree2.1, hkl, hnl.1⟩, hdraw, ?_⟩, s3, rfl, call_inService hL ha hb hs hc hst2 hal e1, ?_, ?_⟩
      · intro v s1' g
        cases g
        exact hdraw2
      · intro j
        rw [e3]
        by_cases g1 : j = n
        · subst g1
          exact iff_of_false (fun g => g.2 rfl) fun g => hnl.1 (by unfold Live; rw [g.1]; decide)
        · by_cases g2 : j = k'
          · subst g2
            rw [hk2, hfree.2.1]
            exact iff_of_false (fun g => by cases g.1) fun g => by cases g.1
          · rw [ho2 j g1 g2]
            by_cases g3 : j = i
            · subst g3
              rw [hi]
              exact iff_of_false (fun g => by cases g.1) fun g => g.2 hr.1
            · rw [ho j g2 g3]
              exact ⟨fun g => ⟨g.1, fun g' => g3 (hsole j g')⟩, fun g => ⟨g.1, g1⟩⟩
      · intro j hj
        obtain ⟨g0, g1⟩ := (e3 j).1 hj
        obtain ⟨ch, e⟩ := e4 j hj
        refine ⟨ch, ?_⟩
        by_cases g2 : j = k'
        · subst g2
          rw [hk2] at g0
          cases g0
        · by_cases g3 : j = i
          · subst g3
            rw [ho2 j g1 g2, hi] at g0
            cases g0
          · rw [e, ho2 j g1 g2, ho j g2 g3]

/-- C90: after the test has passed no context is left that the default handle names, so that neither it nor the tests of
privileges, exports and localities pass. -/
theorem C90_once (hst : InService s.st) (hal : addr % 4 = 0) :
    let t := fun l => simSend ((device L a cfg.profile).env cfg) l addr
    (testInputFlags c (t loc) true true (some s)).1 = true →
    ∀ g ∈ [(testInputFlags c (t loc) true true ·), testPrivileges c (t loc), testDisallowedExport c (t loc),
        testChangeLocality c (t loc) (t (loc + 1)) loc],
      (g (testInputFlags c (t loc) true true (some s)).2).1 = false := by
  intro t h g hg
  obtain ⟨s', h1, h2, h3, h4⟩ := (C90_input_flags hL ha hb hs hc hst hal).2 h
  have none : ∀ j, ¬ Names s'.st Handle.default loc j := by
    intro j hj
    obtain ⟨ch, e⟩ := h4 j hj.1
    refine ((h3 j).1 hj.1).2 ?_
    unfold Names at hj
    rw [e] at hj
    exact hj
  rw [h1]
  simp only [List.mem_cons, List.not_mem_nil, or_false] at hg
  rcases hg with rfl | rfl | rfl | rfl <;> refine Bool.eq_false_iff.2 fun h => ?_
  · obtain ⟨_, _, ⟨i, hi, _⟩, _⟩ := (C90_input_flags hL ha hb hs hc h2 hal).1.1 h
    exact none i hi
  · obtain ⟨_, ⟨i, hi, _⟩, _⟩ := (C88_privileges hL ha hb hs hc h2 hal).1 h
    exact none i hi.1
  · obtain ⟨⟨i, hi, _⟩, _⟩ := (C88_disallowed_export hL ha hb hs hc h2 hal).1 h
    exact none i hi.1
  · obtain ⟨⟨i, hi, _⟩, _⟩ := (C89_change_locality hL ha hb hs hc h2 hal).1.1 h
    exact none i hi

/-- C90: on a simulator that has just been started with automatic initialisation, has room for three contexts and can draw
the two handles, the test passes from locality 0 exactly if the command line asks for both internal inputs; from other
localities, or without automatic initialisation, it fails. -/
theorem C90_fresh (g : SimArgs) (hal : addr % 4 = 0) (hda : ¬ Bit cfg.disabled Feature.autoInit)
    (hdd : ¬ Bit cfg.disabled Feature.internalDice) (hdi : ¬ Bit cfg.disabled Feature.internalInfo) :
    let s : Sys cfg (Soft (L.crypto cfg.profile) × Unit) := (simStart cfg L a g).2
    let t := fun loc => simSend ((device L a cfg.profile).env cfg) loc addr
    (g.autoInit = true → 3 ≤ cfg.maxHandles → CanDraw (L.crypto cfg.profile) s.st s.w.1.rng →
      (∀ v s1, c.call (t 0) (.derive Handle.default (zeros c.kind.digest) internalInputDice 0 0) (some s) = (.ok v, some s1) →
        CanDraw (L.crypto cfg.profile) s1.st s1.w.1.rng) →
      (testInputFlags c (t 0) true true (some s)).1 = (g.internalDice && g.internalInfo)) ∧
    ∀ loc, g.autoInit = false ∨ loc ≠ 0 → (testInputFlags c (t loc) true true (some s)).1 = false := by
  obtain ⟨s, h1, hr, hsup, _, _, hno, hyes⟩ := C59_start (cfg := cfg) (L := L) (a := a) g
  rw [h1]
  intro s' t
  obtain ⟨_, _, _, _, q5, q6, q7⟩ := asks_iff g
  have hst : InService s.st := .reached hr
  have hauto : g.autoInit = true → ∃ i, Names s.st Handle.default 0 i ∧ (∀ j, ¬ Lists s.st i j) ∧
      ∀ j, j ≠ i → (s.st.at j).state = .inactive := fun h =>
    fresh_childless a (hyes ((hsup Feature.autoInit).2 ⟨q7.2 h, hda⟩))
  refine ⟨fun w1 w2 w3 w4 => ?_, fun loc w => ?_⟩
  · obtain ⟨i, v1, v2, v3⟩ := hauto w1
    have hsole : ∀ j, Names s.st Handle.default 0 j → j = i := by
      intro j hj
      refine Classical.byContradiction fun hji => ?_
      have := hj.1
      rw [v3 j hji] at this
      cases this
    have dead : ∀ j, j ≠ i → ¬ Live s.st j := fun j hj h => h (v3 j hj)
    have room : ∃ j k, j ≠ k ∧ j < cfg.maxHandles ∧ k < cfg.maxHandles ∧ ¬ Live s.st j ∧ ¬ Live s.st k := by
      by_cases h0 : i = 0
      · exact ⟨1, 2, by decide, by omega, by omega, dead 1 (by omega), dead 2 (by omega)⟩
      · by_cases h2 : i = 1
        · exact ⟨0, 2, by decide, by omega, by omega, dead 0 (by omega), dead 2 (by omega)⟩
        · exact ⟨0, 1, by decide, by omega, by omega, dead 0 (by omega), dead 1 (by omega)⟩
    rw [Bool.eq_iff_iff, Bool.and_eq_true, ← q5, ← q6]
    refine (C90_input_flags (loc := 0) hL ha hb hs hc hst hal).1.trans ?_
    rw [hsup, hsup]
    exact ⟨fun h => ⟨h.1.1, h.2.1.1⟩, fun h => ⟨⟨h.1, hdd⟩, ⟨h.2, hdi⟩,
      ⟨i, v1, hsole, fun j hj => absurd hj (v2 j)⟩, room, w3, w4⟩⟩
  · refine Bool.eq_false_iff.2 fun h => ?_
    obtain ⟨_, _, ⟨i, hi, _⟩, _⟩ := (C90_input_flags hL ha hb hs hc hst hal).1.1 h
    cases hg : g.autoInit with
    | false =>
      have := hi.1
      rw [hno (fun h => by have := q7.1 ((hsup _).1 h).1; rw [hg] at this; cases this)] at this
      cases this
    | true =>
      have hl := w.resolve_left (by simp [hg])
      obtain ⟨j, v1, _, v3⟩ := hauto hg
      by_cases hij : i = j
      · subst hij
        exact hl (hi.2.2.symm.trans v1.2.2)
      · have := hi.1
        rw [v3 i hij] at this
        cases this

end

namespace Ref

/-- Evaluated: the test on a target that has both internal inputs, from another locality, and on a target without them. -/
example : runs target 0 (testInputFlags · · true true) = true ∧ runs target 1 (testInputFlags · · true true) = false ∧
    runs (bare true) 0 (testInputFlags · · true true) = false := by decide +kernel

/-- Non-vacuity for C90: a client that connected to a simulator; the test fails from another locality. -/
example : ∃ c : Client, Connected lib cert std c ∧
    (testInputFlags c (simSend ((device lib cert std.profile).env std) 5 8) true true
      (some (simStart std lib cert target.args).2)).1 = false := by
  obtain ⟨s0, hs0, hr0, _⟩ := C59_start (cfg := std) (L := lib) (a := cert) features.args
  obtain ⟨c, h1, _⟩ := (C62_connects_partial (loc := 3) (addr := 8) lib_total cert_fit std_built std_standard
    (.reached hr0) (by decide) (wireProfile std.profile)).1 rfl
  have hcon : Connected lib cert std c := ⟨_, _, _, _, _, .reached hr0, by decide, h1⟩
  exact ⟨c, hcon, (C90_fresh (addr := 8) lib_total cert_fit std_built std_standard hcon target.args
    (by decide) (by decide) (by decide) (by decide)).2 5 (.inr (by decide))⟩

end Ref
end Dpe
