import Verif.Model.TestsMax
import Verif.Props.TestsFlags
import Verif.Props.Life
/-
C91: what the conformance suite's test of the number of contexts finds out.
-/
namespace Dpe
open Suite
section
variable {cfg : Cfg} {σ : Type} {ops : Ops σ}

/-- No other error has the status word of "maximum number of TCIs". -/
theorem word_max {e : Err} (hw : statusWord e = statusMaxTcis) : e = .maxTcis := by
  have hp : ∀ x : PlatErr, ∀ n : Nat, n < 256 → statusWord (.platform x) ≠ BitVec.ofNat 32 n := by
    intro x n hn h
    have := congrArg BitVec.toNat h
    cases x <;> simp only [statusWord, platformNumber, BitVec.toNat_ofNat] at this <;> omega
  have hq : ∀ x : CryptoErr, ∀ n : Nat, n < 256 → statusWord (.crypto x) ≠ BitVec.ofNat 32 n := by
    intro x n hn h
    have := congrArg BitVec.toNat h
    cases x <;> simp only [statusWord, cryptoNumber, BitVec.toNat_ofNat] at this <;> omega
  cases e with
  | platform x => exact absurd hw (hp x 0x91 (by decide))
  | crypto x => exact absurd hw (hq x 0x91 (by decide))
  | _ =>
    first
      | rfl
      | (simp only [statusWord] at hw; exact absurd hw (by decide))
      | (rename_i x; cases x <;> simp only [statusWord] at hw <;> exact absurd hw (by decide))

/-- Nothing but a rule makes a command fail with "maximum number of TCIs". -/
theorem fault_max {s : Sys cfg σ} {c : Cmd cfg} {e : Err} (h : Fault ops s c e) : e ≠ .maxTcis := by
  have ov : (e = .internal .certSizeOverflow ∨ e = .x509InvalidWidth) → e ≠ .maxTcis := by
    rintro (rfl | rfl) <;> simp
  cases h with
  | cert h =>
    obtain ⟨kind, _, h | ⟨a, w, D, w1, _, h⟩⟩ := h
    · cases h <;> simp
    · cases h with
      | tbs _ _ h => exact ov (overflows_error (h (Classical.choice ⟨.mldsa (Vector.replicate _ 0)⟩)))
      | certificate _ _ _ h => exact ov (overflows_error h)
      | info h => exact ov (overflows_error (h (.mldsa (Vector.replicate _ 0)) (.mldsa (Vector.replicate _ 0))))
      | request _ _ _ h => exact ov (overflows_error (h (.mldsa (Vector.replicate _ 0))))
      | message _ _ _ _ h => exact ov (overflows_error h)
      | _ => simp
  | _ => simp

/-- All slots are taken exactly if as many contexts are live as there are slots. -/
theorem full_iff {st : State cfg} : (∀ i, i < cfg.maxHandles → Live st i) ↔ liveCount st = cfg.maxHandles := by
  have h := List.length_filter_eq_length_iff (l := List.range cfg.maxHandles)
    (p := fun i => decide ((st.at i).state ≠ .inactive))
  rw [List.length_range] at h
  unfold liveCount Live
  rw [h]
  simp

end
section
variable {cfg : Cfg} {L : Lib} {a : Artifact} {c : Client} {loc : U32} {addr : Nat}
  {s s1 : Sys cfg (Soft (L.crypto cfg.profile) × Unit)}
variable (hL : L.Total) (ha : a.Fit) (hb : Built cfg a) (hs : cfg.Standard) (hc : Connected L a cfg c)
include hL ha hb hs hc

/-- A derivation of the loop that is served makes one more context, without children. -/
theorem line_step {h : Handle} {v : GoValue} {x : Option (Sys cfg (Soft (L.crypto cfg.profile) × Unit))}
    (hst : InService s.st) (hal : addr % 4 = 0)
    (hcall : c.call (simSend ((device L a cfg.profile).env cfg) loc addr)
        (.derive h (zeros c.kind.digest) inputAllowX509 0 0) (some s) = (.ok v, x)) :
    ∃ h1 s1 k, v = .derived h1 Handle.invalid (Vector.replicate 32 0) 0 [] ∧ x = some s1 ∧ InService s1.st ∧
      Resolves s1.st h1 loc k ∧ (s1.st.at k).children = 0 ∧ liveCount s1.st = liveCount s.st + 1 := by
  have b1 : ¬ Bit inputAllowX509 DFlag.changeLocality := by decide
  have b2 : ¬ Bit inputAllowX509 DFlag.recursive := by decide
  have b3 : ¬ Bit inputAllowX509 DFlag.exportCdi := by decide
  have b4 : ¬ Bit inputAllowX509 DFlag.retainParent := by decide
  have b5 : ¬ Bit inputAllowX509 DFlag.makeDefault := by decide
  obtain ⟨z, hm⟩ := means_zeros hL ha hb hs hc h inputAllowX509 0
  obtain ⟨cmd', reply, st', w', hm', hin', hans, rfl, he⟩ := call_ok hL ha hb hs hc hst hal hcall
  obtain rfl := C61_means_one hm' hm hin' trivial
  have hst1 := call_inService hL ha hb hs hc hst hal hcall
  have hacc := (C18_accounting (s := ⟨s.st, s.w, List.replicate reply.length 0⟩) hst he).1
  simp only [Accounts, b2, b3, if_false] at hacc
  obtain ⟨hs', ⟨idx, h1, hp, rfl, hr, heff⟩, hrep⟩ :=
    C52_success_effect (s := ⟨s.st, s.w, List.replicate reply.length 0⟩) hst (digests_true _) he
  have hans' : ∃ h parent, reply = handlesReply cfg.profile [h, parent] ∧
      v = .derived h parent (Vector.replicate 32 0) 0 [] := by
    simpa only [Answer, b3, if_false] using hans
  obtain ⟨hh, hpp, e1, rfl⟩ := hans'
  have h2 : RepliesWith cfg.profile [hh, hpp] reply :=
    ⟨[], by rw [e1]; cases cfg.profile <;> simp [handlesReply, successBytes]⟩
  have q1 := Vector.toList_inj.1 ((hrep.at (k := 0) (x := h1) rfl).symm.trans (h2.at (k := 0) (x := hh) rfl))
  have q2 := Vector.toList_inj.1 ((hrep.at (k := 1) (x := hp) rfl).symm.trans (h2.at (k := 1) (x := hpp) rfl))
  subst q1 q2
  clear hcall hans he hrep h2 e1
  cases heff with
  | recursive hbit => exact absurd hbit b2
  | exported _ hbit => exact absurd hbit b3
  | exportedLast _ hbit => exact absurd hbit b3
  | @child h' hp v sx k kids st' _ _ hfree _ hun hpn _ hk hi ho hmeta =>
    obtain ⟨_, rfl, rfl⟩ := hpn.resolve_left fun h => b4 h.1
    refine ⟨h1, _, k, rfl, rfl, hst1, ?_, ?_, hacc⟩
    · have hun := (hun.resolve_left fun h => b5 h.1).2
      have nm : Names st' h1 loc k := by
        unfold Names
        rw [hk]
        exact ⟨rfl, rfl, by simp only [childContext, b1, if_false]⟩
      refine ⟨nm, fun j hj ⟨n1, n2, _⟩ => ?_⟩
      by_cases hji : j = idx
      · have n1 : (st'.at j).state = _ := n1
        rw [hji, hi] at n1
        cases n1
      · have n1 : (st'.at j).state = _ := n1
        have n2 : (st'.at j).handle = _ := n2
        rw [ho j (Nat.ne_of_lt hj) hji] at n1 n2
        exact hun.2 j (active_at n1) n2
    · show (st'.at k).children = 0
      rw [hk]; rfl

/-- The loop that is served to its end makes as many contexts as it has turns; the last has no children. -/
theorem line_all {n : Nat} : ∀ {s : Sys cfg (Soft (L.crypto cfg.profile) × Unit)} {h h' : Handle}
    {x : Option (Sys cfg (Soft (L.crypto cfg.profile) × Unit))}, InService s.st → addr % 4 = 0 →
    deriveLine c (simSend ((device L a cfg.profile).env cfg) loc addr) (n + 1) h (some s) = (some h', x) →
    ∃ s1 k, x = some s1 ∧ InService s1.st ∧ Resolves s1.st h' loc k ∧ (s1.st.at k).children = 0 ∧
      liveCount s1.st = liveCount s.st + (n + 1) := by
  induction n with
  | zero =>
    intro s h h' x hst hal hline
    rw [deriveLine] at hline
    rcases hcall : c.call (simSend ((device L a cfg.profile).env cfg) loc addr)
      (.derive h (zeros c.kind.digest) inputAllowX509 0 0) (some s) with ⟨r, y⟩
    rw [hcall] at hline
    cases r with
    | error er => simp at hline
    | ok v =>
      obtain ⟨h1, s1, k, rfl, rfl, g1, g2, g3, g4⟩ := line_step hL ha hb hs hc hst hal hcall
      simp only [deriveLine, Prod.mk.injEq, Option.some.injEq] at hline
      obtain ⟨rfl, rfl⟩ := hline
      exact ⟨s1, k, rfl, g1, g2, g3, g4⟩
  | succ n ih =>
    intro s h h' x hst hal hline
    rw [deriveLine] at hline
    rcases hcall : c.call (simSend ((device L a cfg.profile).env cfg) loc addr)
      (.derive h (zeros c.kind.digest) inputAllowX509 0 0) (some s) with ⟨r, y⟩
    rw [hcall] at hline
    cases r with
    | error er => simp at hline
    | ok v =>
      obtain ⟨h1, s1, k, rfl, rfl, g1, _, _, g4⟩ := line_step hL ha hb hs hc hst hal hcall
      obtain ⟨s2, k2, e1, e2, e3, e4, e5⟩ := ih g1 hal hline
      exact ⟨s2, k2, e1, e2, e3, e4, by rw [e5, g4]; omega⟩

/-- CertifyKey keeps the number of contexts, and the new handle names a context whose children are as before. -/
theorem certify_step {h h' : Handle} {kx ky cert : Bytes}
    {x : Option (Sys cfg (Soft (L.crypto cfg.profile) × Unit))} (hst : InService s.st) (hal : addr % 4 = 0)
    (hcall : c.call (simSend ((device L a cfg.profile).env cfg) loc addr)
        (.certifyKey h (zeros c.kind.digest) 0 0) (some s) = (.ok (.key h' kx ky cert), x))
    (hz : ∀ k, Resolves s.st h loc k → (s.st.at k).children = 0) :
    ∃ s1 k, x = some s1 ∧ InService s1.st ∧ Resolves s1.st h' loc k ∧ (s1.st.at k).children = 0 ∧
      liveCount s1.st = liveCount s.st := by
  obtain ⟨d, m1, m2, m3, _⟩ := means_certify hL ha hb hs hc h
  obtain ⟨cmd', reply, st', w', hm', hin', hans, rfl, he⟩ := call_ok hL ha hb hs hc hst hal hcall
  obtain rfl := C61_means_one hm' m1 hin' m2
  have hst1 := call_inService hL ha hb hs hc hst hal hcall
  have hacc := (C18_accounting (s := ⟨s.st, s.w, List.replicate reply.length 0⟩) hst he).1
  obtain ⟨hs', ⟨h1, rfl, i, hr, hnext, hset⟩, hrep⟩ :=
    C52_success_effect (s := ⟨s.st, s.w, List.replicate reply.length 0⟩) hst (digests_true _) he
  rw [m3] at hr hnext
  obtain ⟨hh, key, cert', _, g1, g2⟩ := hans
  have e : hh = h' := by cases key <;> (injection g2 with g2; exact g2.symm)
  subst e
  have hw : ∃ rest, reply = successBytes cfg.profile ++ hh.toList ++ rest :=
    ⟨_, by rw [g1, certifyReply, List.append_assoc, List.append_assoc]⟩
  obtain ⟨rest, hw⟩ := hw
  have h2 : RepliesWith cfg.profile [hh] reply := ⟨rest, by rw [hw]; cases cfg.profile <;> simp [successBytes]⟩
  have q1 := Vector.toList_inj.1 ((hrep.at (k := 0) (x := h1) rfl).symm.trans (h2.at (k := 0) (x := hh) rfl))
  subst q1
  obtain ⟨f1, f2, _⟩ := hset
  have nm : Names st' h1 loc i := by
    unfold Names
    rw [f1]
    exact ⟨hr.1.1, rfl, hr.1.2.2⟩
  refine ⟨_, i, rfl, hst1, ⟨nm, fun j hj hn => ?_⟩, ?_, hacc⟩
  · have hn : Names st' h1 loc j := hn
    unfold Names at hn
    rw [f2 j (Nat.ne_of_lt hj)] at hn
    rcases hnext with ⟨q1, q2⟩ | ⟨_, q2⟩
    · refine hr.2 j hj ?_
      rw [q1, ← q2]
      exact hn
    · exact q2.2 j (active_at hn.1) hn.2.1
  · show (st'.at i).children = 0
    rw [f1]
    exact hz i hr

/-- A derivation through a handle whose context has no children is answered with "maximum number of TCIs" exactly if all
slots are taken. -/
theorem derive_full {h : Handle} {k : Nat} (hst : InService s.st) (hal : addr % 4 = 0) (hr : Resolves s.st h loc k)
    (hz : (s.st.at k).children = 0) :
    (c.call (simSend ((device L a cfg.profile).env cfg) loc addr) (.derive h (zeros c.kind.digest) 0 0 0) (some s)).1 =
      .error (.status statusMaxTcis) ↔ liveCount s.st = cfg.maxHandles := by
  have h0 : ∀ n, ¬ Bit (0 : U32) n := fun n => by simp [Bit]
  obtain ⟨z, hm⟩ := means_zeros hL ha hb hs hc h 0 0
  rw [← full_iff]
  constructor
  · intro hcall
    by_cases hx : ∃ reply st' w', Succeeds (device L a cfg.profile) s.st loc s.w
        (.derive (cfg := cfg) ⟨h, z, 0, 0, 0, 0⟩) reply st' w'
    · obtain ⟨reply, st', w', hx⟩ := hx
      obtain ⟨v, h1, _⟩ := C61_served hL ha hb hs hc hst hal hm trivial hx
      rw [h1] at hcall
      cases hcall
    · obtain ⟨e', s', h1, _, h3, h4⟩ := C61_failed hL ha hb hs hc hst hal hm trivial hx
      rw [h1] at hcall
      injection hcall with hcall
      injection hcall with hcall
      obtain rfl := word_max hcall
      rcases h3 with h3 | ⟨d, hd, h3, _⟩ | ⟨_, h3⟩
      · refine Classical.byContradiction fun hfull => ?_
        simp [rules, earlyRules, lateRules, lookupRules, FirstRefusal, h0, hfull] at h3
      · cases hd
        exact absurd h3 (h0 _)
      · exact absurd rfl (fault_max h3)
  · intro hfull
    have hl : ∀ j, ¬ Lists s.st k j := fun j => by simp [Lists, hz]
    have hask : ¬ AsksUnsupported s.st (0 : U32) := asks_none
    have hbad : ∀ p : Context cfg, ¬ BadDerive p (0 : U32) := by
      rintro p (h | h | h) <;> exact h0 _ h.1
    have hno : ¬ Named s.st h loc fun i => ∃ j, Lists s.st i j ∧ (s.st.at j).tci.tciType = (0 : U32) := by
      rintro ⟨i, hi, j, hj, _⟩
      obtain rfl := hi.unique hr
      exact hl j hj
    have huse : LocalityInUse s.st loc := ⟨k, hr.1.1, hr.1.2.2⟩
    have hnm : ∃ i, Names s.st h loc i := ⟨k, hr.1⟩
    have hnb : ¬ Named s.st h loc fun i => BadDerive (s.st.at i) (0 : U32) := fun ⟨i, _, hi⟩ => hbad _ hi
    obtain ⟨s2, e1, _⟩ := call_refused (e := .maxTcis) (loc := loc) hL ha hb hs hc hst hal hm trivial (by simp)
      (fun d hd => by cases hd; exact h0 _) (by
        simp only [rules, earlyRules, lateRules, lookupRules, List.cons_append, List.nil_append, FirstRefusal, hask, huse,
          hnm, hnb, hno, h0, hfull, not_true, not_false_eq_true, false_and, false_or, true_and, and_false, implies_true]
        exact .inl ⟨fun i hi => hfull i hi, trivial⟩)
    rw [e1]
    exact congrArg (fun w => Except.error (ClErr.status w)) (by decide)

/-- C91: where the derivations and CertifyKey are served and the certificate can be parsed, `TestMaxTCIs` passes exactly
if the target's number is right: the contexts at its beginning and those it derives fill all slots.  Where they are not,
it fails. -/
theorem C91_max_tcis (hst : InService s.st) (hal : addr % 4 = 0) {n : Nat} (hn : 0 < n) (parses : Bytes → Bool) :
    testMaxTcis c (simSend ((device L a cfg.profile).env cfg) loc addr) (n + 1) parses (some s) = true ↔
      (∃ h x1 h' kx ky cert x2,
        deriveLine c (simSend ((device L a cfg.profile).env cfg) loc addr) n Handle.default (some s) = (some h, x1) ∧
        c.call (simSend ((device L a cfg.profile).env cfg) loc addr) (.certifyKey h (zeros c.kind.digest) 0 0) x1 =
          (.ok (.key h' kx ky cert), x2) ∧ parses cert = true) ∧
      liveCount s.st + n = cfg.maxHandles := by
  obtain ⟨m, rfl⟩ : ∃ m, n = m + 1 := ⟨n - 1, by omega⟩
  rw [testMaxTcis, getProfile_sim hL ha hb hs.rounded hst hal]
  simp only [Nat.add_sub_cancel]
  rcases hline : deriveLine c (simSend ((device L a cfg.profile).env cfg) loc addr) (m + 1) Handle.default (some s) with ⟨o, x1⟩
  cases o with
  | none => refine iff_of_false (by simp) ?_; rintro ⟨⟨_, _, _, _, _, _, _, h, _⟩, _⟩; cases h
  | some h =>
    obtain ⟨s1, k, rfl, g1, g2, g3, g4⟩ := line_all hL ha hb hs hc hst hal hline
    simp only
    rcases hcall : c.call (simSend ((device L a cfg.profile).env cfg) loc addr) (.certifyKey h (zeros c.kind.digest) 0 0)
      (some s1) with ⟨r, x2⟩
    have bad : (∀ h' kx ky cert, r ≠ .ok (.key h' kx ky cert)) → ¬ ((∃ h_1 x1 h' kx ky cert x2_1,
        ((some h, some s1) : Option Handle × Option (Sys cfg _)) = (some h_1, x1) ∧
        c.call (simSend ((device L a cfg.profile).env cfg) loc addr) (.certifyKey h_1 (zeros c.kind.digest) 0 0) x1 =
          (.ok (.key h' kx ky cert), x2_1) ∧ parses cert = true) ∧ liveCount s.st + (m + 1) = cfg.maxHandles) := by
      rintro hb ⟨⟨_, _, _, _, _, _, _, e1, e2, _⟩, _⟩
      cases e1
      rw [hcall] at e2
      cases e2
      exact hb _ _ _ _ rfl
    cases r with
    | error er => exact iff_of_false (by simp) (bad (by simp))
    | ok v =>
      cases v with
      | key h' kx ky cert =>
        obtain ⟨s2, k2, rfl, f1, f2, f3, f4⟩ := certify_step hL ha hb hs hc g1 hal hcall fun k' hk' => by
          obtain rfl := hk'.unique g2
          exact g3
        have hx := expects_eq (c := c) (w := statusMaxTcis) (k := .derive h' (zeros c.kind.digest) 0 0 0)
          (simSend ((device L a cfg.profile).env cfg) loc addr) (some s2)
        have hfull := (hx.1.trans (derive_full hL ha hb hs hc f1 hal f2 f3)).trans (by rw [f4, g4])
        simp only [Bool.and_eq_true]
        rw [hfull]
        refine and_congr_left fun _ => ⟨fun hp => ⟨_, _, h', kx, ky, cert, _, rfl, hcall, hp⟩, ?_⟩
        rintro ⟨_, _, _, _, _, _, _, e1, e2, e3⟩
        cases e1
        rw [hcall] at e2
        cases e2
        exact e3
      | _ => exact iff_of_false (by simp) (bad (by simp))

/-- C91: on a simulator that has just been started with automatic initialisation, the test passes only if the target's
number is the number of slots, so that it cannot pass for two numbers; without automatic initialisation, or from another
locality, it fails. -/
theorem C91_fresh (g : SimArgs) (hal : addr % 4 = 0) {n : Nat} (hn : 0 < n) (parses : Bytes → Bool)
    (h : testMaxTcis c (simSend ((device L a cfg.profile).env cfg) loc addr) (n + 1) parses
      (some (simStart cfg L a g).2) = true) :
    n + 1 = cfg.maxHandles ∧ g.autoInit = true ∧ loc = 0 := by
  obtain ⟨s, h1, hr, hsup, _, _, hno, hyes⟩ := C59_start (cfg := cfg) (L := L) (a := a) g
  rw [h1] at h
  have hst : InService s.st := .reached hr
  obtain ⟨_, _, _, _, _, _, q7⟩ := asks_iff g
  obtain ⟨⟨hd, x1, _, _, _, _, _, hline, _⟩, hcount⟩ := (C91_max_tcis hL ha hb hs hc hst hal hn parses).1 h
  obtain ⟨m, rfl⟩ : ∃ m, n = m + 1 := ⟨n - 1, by omega⟩
  have hnm : ∃ i, Names s.st Handle.default loc i := by
    rw [deriveLine] at hline
    rcases hcall : c.call (simSend ((device L a cfg.profile).env cfg) loc addr)
      (.derive Handle.default (zeros c.kind.digest) inputAllowX509 0 0) (some s) with ⟨r, y⟩
    rw [hcall] at hline
    cases r with
    | error er => simp at hline
    | ok v =>
      obtain ⟨z, hm⟩ := means_zeros hL ha hb hs hc Handle.default inputAllowX509 0
      obtain ⟨cmd', reply, st', w', hm', hin', hans, rfl, he⟩ := call_ok hL ha hb hs hc hst hal hcall
      obtain rfl := C61_means_one hm' hm hin' trivial
      obtain ⟨hs', ⟨idx, h1, hp, rfl, hr, heff⟩, hrep⟩ :=
        C52_success_effect (s := ⟨s.st, s.w, List.replicate reply.length 0⟩) hst (digests_true _) he
      exact ⟨idx, hr.1⟩
  obtain ⟨i, hi⟩ := hnm
  have hg : s.st.supports Feature.autoInit := Classical.byContradiction fun hg => by
    have := hi.1
    rw [hno hg] at this
    cases this
  have hga := q7.1 ((hsup _).1 hg).1
  obtain ⟨j, v1, _, v3⟩ := fresh_childless a (hyes hg)
  have hij : i = j := Classical.byContradiction fun hij => by
    have := hi.1
    rw [v3 i hij] at this
    cases this
  subst hij
  refine ⟨?_, hga, hi.2.2.symm.trans v1.2.2⟩
  have one : liveCount s.st = 1 := by
    have e := count_filter_succ (n := cfg.maxHandles) (p := fun _ => false)
      (q := fun i => decide ((s.st.at i).state ≠ .inactive)) (active_at hi.1) rfl (by simp [hi.1])
      fun j _ hj => by simp [v3 j hj]
    have e0 : ((List.range cfg.maxHandles).filter fun _ => false) = [] := List.filter_eq_nil_iff.2 (by simp)
    rw [e0] at e
    exact e
  omega

end

namespace Ref

/-- Non-vacuity for C91: a client that connected to a simulator; the test fails for a wrong number of contexts. -/
example : ∃ c : Client, Connected lib cert std c ∧
    ∀ loc parses, testMaxTcis c (simSend ((device lib cert std.profile).env std) loc 8) (std.maxHandles + 1 + 1) parses
      (some (simStart std lib cert target.args).2) = false := by
  obtain ⟨s0, hs0, hr0, _⟩ := C59_start (cfg := std) (L := lib) (a := cert) features.args
  obtain ⟨c, h1, _⟩ := (C62_connects_partial (loc := 3) (addr := 8) lib_total cert_fit std_built std_standard
    (.reached hr0) (by decide) (wireProfile std.profile)).1 rfl
  have hcon : Connected lib cert std c := ⟨_, _, _, _, _, .reached hr0, by decide, h1⟩
  refine ⟨c, hcon, fun loc parses => Bool.eq_false_iff.2 fun h => ?_⟩
  have := (C91_fresh lib_total cert_fit std_built std_standard hcon target.args (by decide) (Nat.succ_pos _) parses h).1
  omega

end Ref
end Dpe
