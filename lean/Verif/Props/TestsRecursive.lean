import Verif.Model.TestsRecursive
import Verif.Props.TestsUnique
/-
C93: what the conformance suite's test of the right to be extended finds out.
-/
namespace Dpe
open Suite
section
variable {cfg : Cfg} {L : Lib} {a : Artifact} {c : Client} {loc : U32} {addr : Nat}
  {s s1 s2 s3 s4 : Sys cfg (Soft (L.crypto cfg.profile) × Unit)}
variable (hL : L.Total) (ha : a.Fit) (hb : Built cfg a) (hs : cfg.Standard) (hc : Connected L a cfg c)
include hL ha hb hs hc

/-- An extension through a handle other than the default one, served. -/
theorem extend_step {h : Handle} {y : U32} {v : GoValue} {x : Option (Sys cfg (Soft (L.crypto cfg.profile) × Unit))}
    (hst : InService s.st) (hal : addr % 4 = 0) (hnd : h ≠ Handle.default)
    (hcall : c.call (simSend ((device L a cfg.profile).env cfg) loc addr)
        (.derive h (zeros c.kind.digest) recursiveFlag y 0) (some s) = (.ok v, x)) :
    ∃ h1 s1 i tci, v = .derived h1 Handle.default (Vector.replicate 32 0) 0 [] ∧ x = some s1 ∧ InService s1.st ∧
      Resolves s.st h loc i ∧ Unused s.st h1 ∧ ¬ AsksUnsupported s.st recursiveFlag ∧
      SetSlot s.st i { s.st.at i with tci := tci, handle := h1 } s1.st := by
  have b2 : Bit recursiveFlag DFlag.recursive := by decide
  have b3 : ¬ Bit recursiveFlag DFlag.exportCdi := by decide
  obtain ⟨hfit, hser, _⟩ := C58_meets (cfg := cfg) (L := L) hL ha 0
  obtain ⟨z, hm⟩ := means_typed hL ha hb hs hc h recursiveFlag y 0
  obtain ⟨cmd', reply, st', w', hm', hin', hans, rfl, he⟩ := call_ok hL ha hb hs hc hst hal hcall
  obtain rfl := C61_means_one hm' hm hin' trivial
  have hst1 := call_inService hL ha hb hs hc hst hal hcall
  obtain ⟨hno, _⟩ := (C57_exact (s := ⟨s.st, s.w, List.replicate reply.length 0⟩) hst (fun _ => ⟨hfit, hser⟩)).1 he
  have hask : ¬ AsksUnsupported s.st recursiveFlag := hno _ (List.mem_append_left _ (List.mem_cons_self ..))
  obtain ⟨hs', ⟨idx, h1, hp, rfl, hr, heff⟩, hrep⟩ :=
    C52_success_effect (s := ⟨s.st, s.w, List.replicate reply.length 0⟩) hst (digests_true _) he
  have hans' : ∃ h parent, reply = handlesReply cfg.profile [h, parent] ∧
      v = .derived h parent (Vector.replicate 32 0) 0 [] := by
    simpa only [Answer, b3, if_false] using hans
  obtain ⟨hh, hpp, e1, rfl⟩ := hans'
  have h2 : RepliesWith cfg.profile [hh, hpp] reply :=
    ⟨[], by rw [e1]; cases cfg.profile <;> simp [handlesReply, successBytes]⟩
  have q1 := Vector.toList_inj.1 ((hrep.at (k := 0) (x := h1) rfl).symm.trans (h2.at (k := 0) (x := hh) rfl))
  have q2 := Vector.toList_inj.1 ((hrep.at (k := 1) (x := hp) rfl).symm.trans (h2.at (k := 1) (x := hpp) rfl))
  subst q1 q2
  clear hcall hans he hrep h2 e1
  cases heff with
  | recursive _ _ hnx hset =>
    refine ⟨h1, _, idx, _, rfl, rfl, hst1, hr, ?_, hask, hset⟩
    rcases hnx with ⟨g, _⟩ | ⟨_, g⟩
    · exact absurd g hnd
    · exact g
  | child hbit => exact absurd b2 hbit
  | exported hbit => exact absurd b2 hbit
  | exportedLast hbit => exact absurd b2 hbit

/-- An extension that the context does not allow, or that asks for the right it uses, is refused. -/
theorem extend_refused {h : Handle} {f y : U32} {i : Nat} (hst : InService s.st) (hal : addr % 4 = 0)
    (hr : Resolves s.st h loc i) (hask : ¬ AsksUnsupported s.st f) (hf : Bit f DFlag.recursive)
    (hbad : Bit f DFlag.allowRecursive ∨ (s.st.at i).allowRecursive = false) :
    ∃ s', c.call (simSend ((device L a cfg.profile).env cfg) loc addr) (.derive h (zeros c.kind.digest) f y 0) (some s) =
      (.error (.status statusInvalidArgument), some s') ∧ s'.st = s.st := by
  obtain ⟨z, hm⟩ := means_typed hL ha hb hs hc h f y 0
  refine call_refused_early (e := .invalidArgument) hL ha hb hs hc hst hal hm trivial (by simp) ?_
  simp only [earlyRules, lookupRules, FirstRefusal, List.cons_append, List.nil_append]
  exact .inr ⟨hask, .inr ⟨fun q => q ⟨i, hr.1.1, hr.1.2.2⟩, .inr ⟨fun q => q ⟨i, hr.1⟩,
    .inl ⟨⟨i, hr, .inr (.inr ⟨hf, .inr hbad⟩)⟩, trivial⟩⟩⟩⟩

/-- C93: suppose that the calls of `TestDeriveContextAllowRecursive` that are to be served are, and that neither
derivation of a child gives parent and child one handle.  Then the extension of the child that was derived without the
right is refused as the test demands, so is the extension that asks for the right, and the test passes exactly if the
default context was the only active context of its locality.  If so, the default handle names the same context
afterwards, the same contexts are active, and they differ in nothing but their lists of children. -/
theorem C93_allow_recursive {h c1 p1 c2 p2 c3 p3 : Handle} {d1 d2 d3 : Vector UInt8 32} {n1 n2 n3 : U32} {l1 l2 l3 : Bytes}
    (hst : InService s.st) (hal : addr % 4 = 0) :
    let call := c.call (simSend ((device L a cfg.profile).env cfg) loc addr)
    let derive := fun h f y => GoCall.derive h (zeros c.kind.digest) f y 0
    call (.rotate Handle.default 0) (some s) = (.ok (.handle h), some s1) →
    call (derive h 0x20000000 1) (some s1) = (.ok (.derived c1 p1 d1 n1 l1), some s2) →
    call (derive p1 0x20200000 2) (call (derive c1 0x01000000 1) (some s2)).2 =
      (.ok (.derived c2 p2 d2 n2 l2), some s3) →
    call (derive c2 0x01000000 2) (some s3) = (.ok (.derived c3 p3 d3 n3 l3), some s4) →
    c1 ≠ p1 → c2 ≠ p2 →
    (call (derive c1 0x01000000 1) (some s2)).1 = .error (.status statusInvalidArgument) ∧
    (call (derive c3 0x01200000 2) (some s4)).1 = .error (.status statusInvalidArgument) ∧
    ((testAllowRecursive c (simSend ((device L a cfg.profile).env cfg) loc addr) (some s)).1 = true ↔
      ∃ i, Names s.st Handle.default loc i ∧
        ∀ j, (s.st.at j).state = .active → (s.st.at j).locality = loc → j = i) ∧
    ((testAllowRecursive c (simSend ((device L a cfg.profile).env cfg) loc addr) (some s)).1 = true →
      ∃ s', (testAllowRecursive c (simSend ((device L a cfg.profile).env cfg) loc addr) (some s)).2 = some s' ∧
        (∀ j, (s'.st.at j).state = .active ↔ (s.st.at j).state = .active) ∧
        ∀ j, (s'.st.at j).state = .active → ∃ ch, s'.st.at j = { s.st.at j with children := ch }) := by
  intro call derive h1 h2 h3 h4 hd1 hd2
  obtain ⟨_, i, e, hst1, hr, hu, hset, hd, hsup⟩ := rotate_step hL ha hb hs hc hst hal h1
  cases e
  obtain ⟨b0, b1, b2, b3, b4, _⟩ := keep_bits
  obtain ⟨_, _, _, i', k, kids, e1, e2, hst2, hm2, hr1, hf1, hki, huc1, hup1, _, hn1, hch1, _, hright, hi1, _, ho1⟩ :=
    keep_any hL ha hb hs hc hst1 hal hu.1 b0 b1 b2 b3 b4 h2
  cases e1
  cases e2
  have hi0 := hr.1.1
  have hii : i' = i := Classical.byContradiction fun g => by
    have q := hr1.1
    unfold Names at q
    rw [hset.2.1 i' g] at q
    exact hu.2 i' (active_at q.1) q.2.1
  subst hii
  have hrp : Resolves s2.st p1 loc i' := by
    refine ⟨⟨by rw [hi1, hset.1]; exact hi0, by rw [hi1], by rw [hi1, hset.1]; exact hr.1.2.2⟩, fun j hj q => ?_⟩
    by_cases g : j = k
    · subst g
      exact hd1 (hn1.2.1.symm.trans q.2.1)
    · unfold Names at q
      rw [ho1 j g (Nat.ne_of_lt hj)] at q
      exact hup1.2 j (active_at q.1) q.2.1
  have hrc : Resolves s2.st c1 loc k := by
    refine ⟨hn1, fun j hj q => ?_⟩
    by_cases g : j = i'
    · subst g
      have := q.2.1
      rw [hi1] at this
      exact hd1 this.symm
    · unfold Names at q
      rw [ho1 j (Nat.ne_of_lt hj) g] at q
      exact huc1.2 j (active_at q.1) q.2.1
  -- the extension of the first child is refused, for one reason or another
  have q0 : Bit recursiveFlag DFlag.recursive := by decide
  have hright : (s2.st.at k).allowRecursive = false := by
    rw [hright]
    exact decide_eq_false fun g => absurd g.1 (by decide)
  obtain ⟨er, s2', hcall2, hsame, her⟩ : ∃ er s2', c.call (simSend ((device L a cfg.profile).env cfg) loc addr)
      (.derive c1 (zeros c.kind.digest) recursiveFlag 1 0) (some s2) = (.error (.status er), some s2') ∧
      s2'.st = s2.st ∧ (¬ AsksUnsupported s2.st recursiveFlag → er = statusInvalidArgument) := by
    by_cases g : AsksUnsupported s2.st recursiveFlag
    · obtain ⟨z, hm⟩ := means_typed hL ha hb hs hc c1 recursiveFlag 1 0
      obtain ⟨s2', g1, g2⟩ := call_refused_early (loc := loc) (e := .argumentNotSupported) hL ha hb hs hc hst2 hal hm trivial
        (by simp) (.inl ⟨g, rfl⟩)
      exact ⟨_, s2', g1, g2, fun g' => absurd g g'⟩
    · obtain ⟨s2', g1, g2⟩ := extend_refused (y := 1) hL ha hb hs hc hst2 hal hrc g q0 (.inr hright)
      exact ⟨_, s2', g1, g2, fun _ => rfl⟩
  have hcall2' : call (derive c1 0x01000000 1) (some s2) = _ := hcall2
  rw [hcall2'] at h3 ⊢
  have hst2' : InService s2'.st := hsame ▸ hst2
  have h3' : c.call (simSend ((device L a cfg.profile).env cfg) loc addr)
      (.derive p1 (zeros c.kind.digest) (retainParentContext ||| allowRecursiveFlag) 2 0) (some s2') = _ := h3
  obtain ⟨_, _, _, i3, k2, kids2, e1, e2, hst3, hm3, hr3, hf2, hki2, huc2, hup2, _, hn2, hch2, _, _, hi3, _, ho2⟩ :=
    keep_any hL ha hb hs hc hst2' hal hup1.1 (by decide) (by decide) (by decide) (by decide) (by decide) h3'
  cases e1
  cases e2
  rw [hsame] at hm3 hr3 hf2 huc2 hup2 hi3 ho2
  obtain rfl := hr3.unique hrp
  have hkk : k ≠ k2 := by
    rintro rfl
    have := hn1.1
    rw [hf2.2.1] at this
    cases this
  have hrc2 : Resolves s3.st c2 loc k2 := by
    refine ⟨hn2, fun j hj q => ?_⟩
    by_cases g : j = i3
    · subst g
      have := q.2.1
      rw [hi3] at this
      exact hd2 this.symm
    · unfold Names at q
      rw [ho2 j (Nat.ne_of_lt hj) g] at q
      exact huc2.2 j (active_at q.1) q.2.1
  have h4' : c.call (simSend ((device L a cfg.profile).env cfg) loc addr)
      (.derive c2 (zeros c.kind.digest) recursiveFlag 2 0) (some s3) = _ := h4
  obtain ⟨_, _, k3, tci, e1, e2, hst4, hr4, huc3, hask, hset4⟩ := extend_step hL ha hb hs hc hst3 hal huc2.1 h4'
  cases e1
  cases e2
  obtain rfl := hr4.unique hrc2
  have hask2 : ¬ AsksUnsupported s2.st recursiveFlag := fun ⟨p, g1, g2, g3⟩ =>
    hask ⟨p, g1, g2, by unfold State.supports at g3 ⊢; rw [hm3.1.2.2.1]; exact g3⟩
  obtain rfl := her hask2
  refine ⟨rfl, ?_⟩
  -- the extension that asks for the right
  have hask4 : ¬ AsksUnsupported s4.st (allowRecursiveFlag ||| recursiveFlag) := by
    rintro ⟨p, g1, g2, g3⟩
    have closed : ∀ p ∈ deriveNeeds, Bit (allowRecursiveFlag ||| recursiveFlag) p.1 → Bit recursiveFlag p.1 := by decide
    exact hask ⟨p, g1, closed p g1 g2, by unfold State.supports at g3 ⊢; rw [hset4.2.2.1.2.2.1] at g3; exact g3⟩
  have hrc3 : Resolves s4.st c3 loc k3 := by
    refine ⟨⟨by rw [hset4.1]; exact hn2.1, by rw [hset4.1], by rw [hset4.1]; exact hn2.2.2⟩, fun j hj q => ?_⟩
    unfold Names at q
    rw [hset4.2.1 j (Nat.ne_of_lt hj)] at q
    exact huc3.2 j (active_at q.1) q.2.1
  obtain ⟨s4', hcall4, hsame4⟩ := extend_refused (y := 2) hL ha hb hs hc hst4 hal hrc3 hask4 (by decide) (.inl (by decide))
  have hcall4' : call (derive c3 0x01200000 2) (some s4) = _ := hcall4
  rw [hcall4']
  refine ⟨rfl, ?_⟩
  have at3 : s4'.st.at k = s2.st.at k := by rw [hsame4]; exact (hset4.2.1 k hkk).trans (ho2 k hkk hki)
  have at4 : s4'.st.at k3 = { s3.st.at k3 with tci := tci, handle := c3 } := by rw [hsame4]; exact hset4.1
  have hsup4 : s4'.st.supports Feature.rotate := by
    unfold State.supports at hsup ⊢
    rw [hsame4, hset4.2.2.1.2.2.1, hm3.1.2.2.1, hm2.1.2.2.1, hset.2.2.1.2.2.1]
    exact hsup
  have old : ∀ j, j ≠ i3 → j ≠ k → s2.st.at j = s.st.at j := fun j g1 g2 => (ho1 j g2 g1).trans (hset.2.1 j g1)
  have hfree : (s.st.at k).state ≠ .active := by
    rw [← hset.2.1 k hki, hf1.2.1]
    decide
  have hfree2 : (s.st.at k3).state ≠ .active := by
    rw [← old k3 hki2 (Ne.symm hkk), hf2.2.1]
    decide
  have old3 : ∀ j, j ≠ i3 → j ≠ k → j ≠ k3 → s3.st.at j = s.st.at j := fun j g1 g2 g3 => (ho2 j g3 g1).trans (old j g1 g2)
  have hi3' : (s3.st.at i3).handle = p2 := by rw [hi3]
  have hi3a : i3 < cfg.maxHandles := active_at hi0
  have hk3 : s3.st.at k = s2.st.at k := ho2 k hkk hki
  have hend := clean_up (s := s) (s3 := s4') (c1 := c1) (c2 := c3) (p2 := p2) (kids := kids2) hL ha hb hs hc
    (hsame4 ▸ hst4) hal hd hsup4 hr.1 hki hki2 hkk hfree hfree2 (by unfold Names; rw [at3]; exact hn1) (by rw [at3]; exact hch1)
    (by unfold Names; rw [at4]; exact ⟨hn2.1, rfl, hn2.2.2⟩) (by rw [at4]; exact hch2)
    (by rw [hsame4, hset4.2.1 i3 (Ne.symm hki2), hi3, hi1, hset.1])
    (fun j g1 g2 g3 => by rw [hsame4, hset4.2.1 j g3]; exact old3 j g1 g2 g3) hup2.1
    (fun g => hup2.2 k (active_at hn1.1) (hn1.2.1.trans g)) (fun g => huc3.2 i3 hi3a (hi3'.trans g.symm))
    (fun g => huc3.2 k (active_at hn1.1) (by rw [hk3]; exact hn1.2.1.trans g))
    (fun j g1 g2 => by
      have g3 : j ≠ k := fun g => hfree (g ▸ g1)
      have g5 : j ≠ k3 := fun g => hfree2 (g ▸ g1)
      have g4 := active_at g1
      have g6 := huc3.2 j g4
      rw [old3 j g2 g3 g5] at g6
      refine ⟨?_, g6, ?_⟩
      · rw [← old j g2 g3, ho1 j g3 g2]
        exact huc1.2 j g4
      · rw [← old j g2 g3]
        exact hup2.2 j g4)
  have h2' : c.call (simSend ((device L a cfg.profile).env cfg) loc addr)
      (.derive h (zeros c.kind.digest) retainParentContext 1 0) (some s1) = _ := h2
  have hx := expects_eq (c := c) (w := statusInvalidArgument)
    (k := .derive c1 (zeros c.kind.digest) recursiveFlag 1 0)
    (simSend ((device L a cfg.profile).env cfg) loc addr) (some s2)
  have hxt : (expects c (simSend ((device L a cfg.profile).env cfg) loc addr) statusInvalidArgument
      (.derive c1 (zeros c.kind.digest) recursiveFlag 1 0) (some s2)) = (true, some s2') :=
    Prod.ext (hx.1.2 (by rw [hcall2])) (by rw [hx.2, hcall2])
  have hy := expects_eq (c := c) (w := statusInvalidArgument)
    (k := .derive c3 (zeros c.kind.digest) (allowRecursiveFlag ||| recursiveFlag) 2 0)
    (simSend ((device L a cfg.profile).env cfg) loc addr) (some s4)
  have hyt : (expects c (simSend ((device L a cfg.profile).env cfg) loc addr) statusInvalidArgument
      (.derive c3 (zeros c.kind.digest) (allowRecursiveFlag ||| recursiveFlag) 2 0) (some s4)) = (true, some s4') :=
    Prod.ext (hy.1.2 (by rw [hcall4])) (by rw [hy.2, hcall4])
  have h1' : c.call (simSend ((device L a cfg.profile).env cfg) loc addr) (.rotate Handle.default 0) (some s) = _ := h1
  rcases hend with ⟨hsole, h6, s6, e, q⟩ | ⟨hsole, er, s6, e⟩
  · have : testAllowRecursive c (simSend ((device L a cfg.profile).env cfg) loc addr) (some s) = (true, some s6) := by
      simp only [testAllowRecursive, withProfile_eq hL ha hb hs hst hal, h1', h2', hxt, h3', h4', hyt, e, Bool.and_self]
    rw [this]
    exact ⟨iff_of_true rfl hsole, fun _ => ⟨s6, rfl, q⟩⟩
  · have : (testAllowRecursive c (simSend ((device L a cfg.profile).env cfg) loc addr) (some s)).1 = false := by
      simp only [testAllowRecursive, withProfile_eq hL ha hb hs hst hal, h1', h2', hxt, h3', h4', hyt, e, Bool.and_false]
    rw [this]
    exact ⟨iff_of_false (by simp) hsole, fun g => by simp at g⟩

/-- C93: the test passes only if the calls of `C93_allow_recursive` are served, or refused, as supposed there. -/
theorem C93_needs (hst : InService s.st) (hal : addr % 4 = 0)
    (hpass : (testAllowRecursive c (simSend ((device L a cfg.profile).env cfg) loc addr) (some s)).1 = true) :
    let call := c.call (simSend ((device L a cfg.profile).env cfg) loc addr)
    let derive := fun h f y => GoCall.derive h (zeros c.kind.digest) f y 0
    ∃ h c1 p1 c2 p2 c3 p3 d1 d2 d3 n1 n2 n3 l1 l2 l3 s1 s2 x3 x4,
      call (.rotate Handle.default 0) (some s) = (.ok (.handle h), some s1) ∧
      call (derive h 0x20000000 1) (some s1) = (.ok (.derived c1 p1 d1 n1 l1), some s2) ∧
      (call (derive c1 0x01000000 1) (some s2)).1 = .error (.status statusInvalidArgument) ∧
      call (derive p1 0x20200000 2) (call (derive c1 0x01000000 1) (some s2)).2 = (.ok (.derived c2 p2 d2 n2 l2), x3) ∧
      call (derive c2 0x01000000 2) x3 = (.ok (.derived c3 p3 d3 n3 l3), x4) ∧
      (call (derive c3 0x01200000 2) x4).1 = .error (.status statusInvalidArgument) := by
  intro call derive
  simp only [testAllowRecursive, withProfile_eq hL ha hb hs hst hal] at hpass
  rcases hcall : c.call (simSend ((device L a cfg.profile).env cfg) loc addr) (.rotate Handle.default 0) (some s) with
    ⟨r, x⟩
  rw [hcall] at hpass
  rcases r with er | v
  · simp at hpass
  cases v with
  | handle h =>
    obtain ⟨s1, i, rfl, hst1, _, hu, _⟩ := rotate_step hL ha hb hs hc hst hal hcall
    simp only at hpass
    rcases hcall1 : c.call (simSend ((device L a cfg.profile).env cfg) loc addr)
      (.derive h (zeros c.kind.digest) retainParentContext 1 0) (some s1) with ⟨r, x⟩
    rw [hcall1] at hpass
    rcases r with er | v
    · simp at hpass
    obtain ⟨c1, p1, s2, _, _, _, rfl, rfl, _⟩ := keep_step hL ha hb hs hc hst1 hal hu.1 hcall1
    simp only at hpass
    have hx := expects_eq (c := c) (w := statusInvalidArgument)
      (k := .derive c1 (zeros c.kind.digest) recursiveFlag 1 0)
      (simSend ((device L a cfg.profile).env cfg) loc addr) (some s2)
    rw [hx.2] at hpass
    rcases hcall2 : c.call (simSend ((device L a cfg.profile).env cfg) loc addr)
      (.derive p1 (zeros c.kind.digest) (retainParentContext ||| allowRecursiveFlag) 2 0)
      (c.call (simSend ((device L a cfg.profile).env cfg) loc addr)
        (.derive c1 (zeros c.kind.digest) recursiveFlag 1 0) (some s2)).2 with ⟨r, x3⟩
    rw [hcall2] at hpass
    rcases r with er | v
    · simp at hpass
    cases v with
    | derived c2 p2 d2 n2 l2 =>
      simp only at hpass
      rcases hcall3 : c.call (simSend ((device L a cfg.profile).env cfg) loc addr)
        (.derive c2 (zeros c.kind.digest) recursiveFlag 2 0) x3 with ⟨r, x4⟩
      rw [hcall3] at hpass
      rcases r with er | v
      · simp at hpass
      cases v with
      | derived c3 p3 d3 n3 l3 =>
        simp only [Bool.and_true, Bool.and_eq_true] at hpass
        have hy := expects_eq (c := c) (w := statusInvalidArgument)
          (k := .derive c3 (zeros c.kind.digest) (allowRecursiveFlag ||| recursiveFlag) 2 0)
          (simSend ((device L a cfg.profile).env cfg) loc addr) x4
        exact ⟨h, c1, p1, c2, p2, c3, p3, _, d2, d3, _, n2, n3, _, l2, l3, s1, s2, x3, x4, hcall, hcall1,
          hx.1.1 hpass.1.1, hcall2, hcall3, hy.1.1 hpass.1.2⟩
      | _ => simp at hpass
    | _ => simp at hpass
  | _ => simp at hpass

/-- C93: without the feature of extending contexts, without that of keeping the parent, or without RotateContextHandle the
test fails, in every state in service. -/
theorem C93_unsupported (hst : InService s.st) (hal : addr % 4 = 0)
    (hno : ¬ s.st.supports Feature.recursive ∨ ¬ s.st.supports Feature.retainParent ∨ ¬ s.st.supports Feature.rotate) :
    (testAllowRecursive c (simSend ((device L a cfg.profile).env cfg) loc addr) (some s)).1 = false := by
  refine Bool.eq_false_iff.2 fun hpass => ?_
  obtain ⟨h, c1, p1, c2, p2, c3, p3, d1, d2, d3, n1, n2, n3, l1, l2, l3, s1, s2, x3, x4, h1, h2, h3, _⟩ :=
    C93_needs hL ha hb hs hc hst hal hpass
  obtain ⟨_, i, e, hst1, hr, hu, hset, hd, hsup⟩ := rotate_step hL ha hb hs hc hst hal h1
  cases e
  obtain ⟨_, _, _, i', k, kids, e1, e2, hst2, hm2, hr1, hf1, hki, huc1, hup1, hask, _⟩ :=
    keep_step hL ha hb hs hc hst1 hal hu.1 h2
  cases e1
  cases e2
  have key : ∀ n, s2.st.supports n ↔ s.st.supports n := fun n => by
    unfold State.supports
    rw [hm2.1.2.2.1, hset.2.2.1.2.2.1]
  have key1 : ∀ n, s1.st.supports n ↔ s.st.supports n := fun n => by
    unfold State.supports
    rw [hset.2.2.1.2.2.1]
  have q0 : Bit recursiveFlag DFlag.recursive := by decide
  rcases hno with g | g | g
  · obtain ⟨z, hm⟩ := means_typed hL ha hb hs hc c1 recursiveFlag 1 0
    obtain ⟨s2', g1, g2⟩ := call_refused_early (loc := loc) (e := .argumentNotSupported) hL ha hb hs hc hst2 hal hm trivial
      (by simp) (.inl ⟨⟨(DFlag.recursive, Feature.recursive), by simp [deriveNeeds], q0, fun q => g ((key _).1 q)⟩, rfl⟩)
    have h3' : (c.call (simSend ((device L a cfg.profile).env cfg) loc addr)
      (.derive c1 (zeros c.kind.digest) recursiveFlag 1 0) (some s2)).1 = _ := h3
    rw [g1] at h3'
    have ne : statusWord .argumentNotSupported ≠ statusInvalidArgument := by decide
    injection h3' with h3'
    injection h3' with h3'
    exact ne h3'
  · exact hask ⟨(DFlag.retainParent, Feature.retainParent), by simp [deriveNeeds], keep_bits.1, fun q => g ((key1 _).1 q)⟩
  · exact g hsup

end

namespace Ref

/-- Evaluated: the test on the suite's default target, from another locality, twice in a row, and after the test of input
types. -/
example : runs target 0 testAllowRecursive = true ∧ runs target 1 testAllowRecursive = false ∧
    runs target 0 (fun c t x => testAllowRecursive c t (testAllowRecursive c t x).2) = true ∧
    runs target 0 (fun c t x => testAllowRecursive c t (testTypeUnique c t x).2) = true := by decide +kernel

end Ref
end Dpe
