import Verif.Model.TestsDerive
import Verif.Props.Tests
/-
C88: when the conformance suite's tests of what derived contexts may do pass.
-/
namespace Dpe
open Suite
section
variable {cfg : Cfg} {σ : Type} {ops : Ops σ}

/-- Nothing but a rule makes a command fail with "invalid argument", except for a key of the wrong kind. -/
theorem fault_invalid {s : Sys cfg σ} {c : Cmd cfg} {e : Err} (h : Fault ops s c e) (hc : ∀ k, c ≠ .certify k) :
    e ≠ .invalidArgument := by
  have ov : (e = .internal .certSizeOverflow ∨ e = .x509InvalidWidth) → e ≠ .invalidArgument := by
    rintro (rfl | rfl) <;> simp
  cases h with
  | cert h =>
    obtain ⟨kind, _, h | ⟨a, w, D, w1, _, h⟩⟩ := h
    · cases h <;> simp
    · cases h with
      | tbs _ _ h => exact ov (overflows_error (h (Classical.choice ⟨.mldsa (Vector.replicate _ 0)⟩)))
      | certificate _ _ _ h => exact ov (overflows_error h)
      | info h => exact ov (overflows_error (h (.mldsa (Vector.replicate _ 0)) (.mldsa (Vector.replicate _ 0))))
      | request _ _ _ h => exact ov (overflows_error (h (.mldsa (Vector.replicate _ 0))))
      | message _ _ _ _ h => exact ov (overflows_error h)
      | _ => simp
  | wrongKey h => exact absurd h (hc _)
  | _ => simp

end
section
variable {cfg : Cfg} {L : Lib} {a : Artifact} {c : Client} {loc : U32} {addr : Nat}
  {s s1 : Sys cfg (Soft (L.crypto cfg.profile) × Unit)} {k : GoCall} {cmd : Cmd cfg}
variable (hL : L.Total) (ha : a.Fit) (hb : Built cfg a) (hs : cfg.Standard) (hc : Connected L a cfg c)
include hL ha hb hs hc

/-- A derivation that returns "invalid argument" was refused, changed nothing, and is refused again. -/
theorem invalid_twice {d : DeriveCmd cfg} (hst : InService s.st) (hal : addr % 4 = 0) (hm : Means k (.derive d))
    (h : (c.call (simSend ((device L a cfg.profile).env cfg) loc addr) k (some s)).1 = .error (.status statusInvalidArgument)) :
    FirstRefusal (rules s.st loc (.derive d)) .invalidArgument ∧
    ∃ s', (c.call (simSend ((device L a cfg.profile).env cfg) loc addr) k (some s)).2 = some s' ∧ s'.st = s.st ∧
      ∀ v, (c.call (simSend ((device L a cfg.profile).env cfg) loc addr) k (some s')).1 ≠ .ok v := by
  have hin : InProfile cfg (.derive d) := trivial
  have key : ∀ s1 : Sys cfg (Soft (L.crypto cfg.profile) × Unit), s1.st = s.st →
      FirstRefusal (rules s.st loc (.derive d)) .invalidArgument →
      ¬ ∃ reply st' w', Succeeds (device L a cfg.profile) s1.st loc s1.w (.derive d) reply st' w' := by
    rintro s1 h1 hr ⟨_, _, _, h, _⟩
    rw [h1] at h
    exact hr.not_none h
  by_cases hx : ∃ reply st' w', Succeeds (device L a cfg.profile) s.st loc s.w (.derive d) reply st' w'
  · obtain ⟨reply, st', w', hx⟩ := hx
    obtain ⟨v, h1, _⟩ := C61_served hL ha hb hs hc hst hal hm hin hx
    rw [h1] at h
    cases h
  · obtain ⟨e', s', h1, _, h3, h4⟩ := C61_failed hL ha hb hs hc hst hal hm hin hx
    have h4 := h4.resolve_right fun ⟨_, g, _⟩ => by cases g
    have hr : FirstRefusal (rules s.st loc (.derive d)) .invalidArgument := by
      rw [h1] at h
      injection h with h
      injection h with h
      obtain rfl := word_inj (e' := .invalidArgument) (.inr rfl) h
      rcases h3 with h3 | ⟨_, _, _, _, _, h3⟩ | ⟨_, h3⟩
      · exact h3
      · rcases h3 with ⟨h3, _⟩ | ⟨_, _, h3, _⟩ <;> cases h3
      · exact absurd rfl (fault_invalid h3 (by simp))
    refine ⟨hr, s', by rw [h1], h4, fun v hv => ?_⟩
    obtain ⟨e2, s2, g1, _⟩ := C61_failed (s := s') (loc := loc) (addr := addr) hL ha hb hs hc (by rw [h4]; exact hst) hal hm hin (key s' h4 hr)
    rw [g1] at hv
    cases hv

/-- The zeroes that the tests measure are a measurement of the profile. -/
theorem means_zeros (h : Handle) (f l : U32) :
    ∃ z : BArr cfg.tciSize, Means (.derive h (zeros c.kind.digest) f 0 l) (.derive (cfg := cfg) ⟨h, z, f, 0, l, 0⟩) := by
  have hz := zeros_sizes hL ha hb hs hc
  rcases C61_means hs (.derive h (zeros c.kind.digest) f 0 l) with h' | h' | ⟨cmd, h1, h2⟩
  · exact absurd hz.1 h'
  · exact h'.elim
  · generalize hk : zeros c.kind.digest = z at h1
    cases h1
    exact ⟨_, .derive ..⟩

/-- The first certificate that the tests ask for is a certificate of the profile. -/
theorem means_certify (h : Handle) :
    ∃ d : CertifyCmd, Means (.certifyKey h (zeros c.kind.digest) 0 0) (.certify (cfg := cfg) d) ∧
      InProfile cfg (.certify d) ∧ d.handle = h ∧ d.format = 0 := by
  have hz := zeros_sizes hL ha hb hs hc
  rcases C61_means hs (.certifyKey h (zeros c.kind.digest) 0 0) with h' | h' | ⟨cmd, h1, h2⟩
  · exact absurd hz.2.1 h'
  · exact h'.elim
  · generalize hk : zeros c.kind.digest = z at h1
    cases h1 with
    | certify256 => exact ⟨_, .certify256 .., h2, rfl, rfl⟩
    | certify384 => exact ⟨_, .certify384 .., h2, rfl, rfl⟩
    | certifyMl => exact ⟨_, .certifyMl .., h2, rfl, rfl⟩

omit hL ha hb hs hc in
theorem asks_x509 {st : State cfg} : AsksUnsupported st inputAllowX509 ↔ ¬ st.supports Feature.x509 :=
  asks_one inputAllowX509 Feature.x509 (by simp)

/-- The default handle names a context of the locality that has no child of type 0, a slot is free and a new handle can
be drawn. -/
def Roomy (P : Prims) (st : State cfg) (loc : U32) (r : P.Rng) : Prop :=
  (∃ i, Resolves st Handle.default loc i ∧ ∀ j, Lists st i j → (st.at j).tci.tciType ≠ 0) ∧
  (∃ j, j < cfg.maxHandles ∧ ¬ Live st j) ∧ CanDraw P st r

omit hL ha hb hs hc in
theorem plain_allowed {st : State cfg} {z : BArr cfg.tciSize} :
    NoRefusal (rules st loc (.derive (cfg := cfg) ⟨Handle.default, z, 0, 0, 0, 0⟩)) ↔
      (∃ i, Resolves st Handle.default loc i ∧ ∀ j, Lists st i j → (st.at j).tci.tciType ≠ 0) ∧
      ∃ j, j < cfg.maxHandles ∧ ¬ Live st j := by
  have h0 : ∀ n, ¬ Bit (0 : U32) n := fun n => by simp [Bit]
  have hask : ¬ AsksUnsupported st (0 : U32) := asks_none
  have hbad : ∀ p : Context cfg, ¬ BadDerive p (0 : U32) := by
    rintro p (h | h | h) <;> exact h0 _ h.1
  have hcl : ∀ i tl, Resolves st Handle.default loc i → tl = loc →
      ¬ DefaultClash st (cfg := cfg) ⟨Handle.default, z, 0, 0, 0, 0⟩ i tl := by
    rintro i tl hi rfl (h | ⟨_, d, h1, h2⟩)
    · exact h0 _ h.1
    · exact h2.elim (fun h => h (h1.unique hi)) (h0 _)
  simp only [NoRefusal, rules, earlyRules, lateRules, lookupRules, List.cons_append, List.nil_append, List.mem_cons,
    List.not_mem_nil, or_false, forall_eq_or_imp, forall_eq, hask, Named, hbad, h0, false_and, not_false_eq_true,
    and_false, exists_false, true_and, not_not, targetOf, if_false]
  constructor
  · rintro ⟨_, ⟨i, hi⟩, h3, h4, _⟩
    obtain ⟨i, hi⟩ := exists_resolves hi
    refine ⟨⟨i, hi, fun j hj ht => h3 ⟨i, hi, j, hj, ht⟩⟩, ?_⟩
    exact Classical.byContradiction fun g => h4 fun j hj => Classical.byContradiction fun g' => g ⟨j, hj, g'⟩
  · rintro ⟨⟨i, hi, h3⟩, j, hj, hl⟩
    refine ⟨⟨i, hi.1.1, hi.1.2.2⟩, ⟨i, hi.1⟩, ?_, fun h => hl (h j hj), ?_⟩
    · rintro ⟨i', hi', j, hj, ht⟩
      obtain rfl := hi'.unique hi
      exact h3 j hj ht
    · rintro ⟨i', hi', h⟩
      exact hcl i' loc hi' rfl h

/-- The derivation of an ordinary child from the default context. -/
theorem plain_derive (hst : InService s.st) (hal : addr % 4 = 0) :
    (Roomy (L.crypto cfg.profile) s.st loc s.w.1.rng →
      ∃ h s1, c.call (simSend ((device L a cfg.profile).env cfg) loc addr)
        (.derive Handle.default (zeros c.kind.digest) 0 0 0) (some s) =
          (.ok (.derived h Handle.invalid (Vector.replicate 32 0) 0 []), some s1)) ∧
    ∀ v x, c.call (simSend ((device L a cfg.profile).env cfg) loc addr)
        (.derive Handle.default (zeros c.kind.digest) 0 0 0) (some s) = (.ok v, x) →
      Roomy (L.crypto cfg.profile) s.st loc s.w.1.rng ∧
      ∃ h s1 k, v = .derived h Handle.invalid (Vector.replicate 32 0) 0 [] ∧ x = some s1 ∧ InService s1.st ∧
        SameMeta s.st s1.st ∧ Resolves s1.st h loc k ∧ (s1.st.at k).allowX509 = false ∧
        (s1.st.at k).allowExport = false ∧
        ∀ j, Names s1.st Handle.default loc j → Names s.st Handle.default loc j ∧ ¬ Resolves s.st Handle.default loc j := by
  obtain ⟨hfit, hser, _⟩ := C58_meets (cfg := cfg) (L := L) hL ha 0
  obtain ⟨z, hm⟩ := means_zeros hL ha hb hs hc Handle.default 0 0
  have h0 : ∀ n, ¬ Bit (0 : U32) n := fun n => by simp [Bit]
  have han : ∀ {reply v}, Answer cfg (.derive Handle.default (zeros c.kind.digest) 0 0 0) reply v →
      ∃ h parent, reply = handlesReply cfg.profile [h, parent] ∧ v = .derived h parent (Vector.replicate 32 0) 0 [] := by
    intro reply v h
    simpa only [Answer, h0, if_false] using h
  have back : ∀ v x, c.call (simSend ((device L a cfg.profile).env cfg) loc addr)
        (.derive Handle.default (zeros c.kind.digest) 0 0 0) (some s) = (.ok v, x) →
      Roomy (L.crypto cfg.profile) s.st loc s.w.1.rng ∧
      ∃ h s1 k, v = .derived h Handle.invalid (Vector.replicate 32 0) 0 [] ∧ x = some s1 ∧ InService s1.st ∧
        SameMeta s.st s1.st ∧ Resolves s1.st h loc k ∧ (s1.st.at k).allowX509 = false ∧
        (s1.st.at k).allowExport = false ∧
        ∀ j, Names s1.st Handle.default loc j → Names s.st Handle.default loc j ∧ ¬ Resolves s.st Handle.default loc j := by
    intro v x h
    obtain ⟨cmd', reply, st', w', hm', hin', hans, rfl, he⟩ := call_ok hL ha hb hs hc hst hal h
    obtain rfl := C61_means_one hm' hm hin' trivial
    have hst1 := call_inService hL ha hb hs hc hst hal h
    obtain ⟨hno, reply', st'', w'', hsv, _⟩ := (C57_exact (s := ⟨s.st, s.w, List.replicate reply.length 0⟩) hst
      (fun _ => ⟨hfit, hser⟩)).1 he
    obtain ⟨hs', ⟨idx, h1, hp, rfl, hr, heff⟩, hrep⟩ :=
      C52_success_effect (s := ⟨s.st, s.w, List.replicate reply.length 0⟩) hst (digests_true _) he
    have hab := (C58_able hL ha hb (s := ⟨s.st, s.w, s.out⟩) hst hno).1 ⟨reply', st'', w'', hsv⟩
    obtain ⟨g1, g2⟩ := plain_allowed.1 hno
    refine ⟨⟨g1, g2, ?_⟩, ?_⟩
    · obtain ⟨_, _, hab⟩ := hab
      simp only [h0, if_false, false_and, false_or] at hab
      obtain ⟨_, rfl, hab⟩ := hab
      exact hab
    · obtain ⟨hh, hpp, e1, rfl⟩ := han hans
      have h2 : RepliesWith cfg.profile [hh, hpp] reply :=
        ⟨[], by rw [e1]; cases cfg.profile <;> simp [handlesReply, successBytes]⟩
      have q1 := Vector.toList_inj.1 ((hrep.at (k := 0) (x := h1) rfl).symm.trans (h2.at (k := 0) (x := hh) rfl))
      have q2 := Vector.toList_inj.1 ((hrep.at (k := 1) (x := hp) rfl).symm.trans (h2.at (k := 1) (x := hpp) rfl))
      subst q1 q2
      cases heff with
      | recursive hbit => exact absurd hbit (h0 _)
      | exported _ hbit => exact absurd hbit (h0 _)
      | exportedLast _ hbit => exact absurd hbit (h0 _)
      | @child h hp v sx k kids st' _ _ hfree _ hun hpn _ hk hi ho hmeta =>
        have hun := (hun.resolve_left fun h => h0 _ h.1).2
        obtain ⟨_, rfl, rfl⟩ := hpn.resolve_left fun h => h0 _ h.1
        refine ⟨h1, _, k, rfl, rfl, hst1, hmeta, ⟨⟨?_, ?_, ?_⟩, fun j hj hn => ?_⟩, ?_, ?_, fun j hn => ?_⟩
        · show (st'.at k).state = _; rw [hk]; rfl
        · show (st'.at k).handle = _; rw [hk]; rfl
        · show (st'.at k).locality = _; rw [hk]; simp only [childContext, h0, if_false, false_and, decide_false]
        · have hn : Names st' h1 loc j := hn
          obtain ⟨n1, n2, _⟩ := hn
          by_cases hji : j = idx
          · subst hji
            rw [hi] at n1
            cases n1
          · rw [ho j (Nat.ne_of_lt hj) hji] at n1 n2
            exact hun.2 j (active_at n1) n2
        · show (st'.at k).allowX509 = _; rw [hk]; simp only [childContext, h0, if_false, false_and, decide_false]
        · show (st'.at k).allowExport = _; rw [hk]; simp only [childContext, h0, if_false, false_and, decide_false]
        · have hn : Names st' Handle.default loc j := hn
          obtain ⟨n1, n2, n3⟩ := hn
          have hji : j ≠ idx := by
            rintro rfl
            rw [hi] at n1
            cases n1
          have hjk : j ≠ k := by
            rintro rfl
            rw [hk] at n2
            exact hun.1 n2
          rw [ho j hjk hji] at n1 n2 n3
          exact ⟨⟨n1, n2, n3⟩, fun g => hji (g.unique hr)⟩
  refine ⟨?_, back⟩
  rintro ⟨g1, g2, g3⟩
  have hno := plain_allowed (loc := loc) (z := z).2 ⟨g1, g2⟩
  obtain ⟨i, hi, _⟩ := g1
  obtain ⟨reply, st', w', hx⟩ := (C58_able hL ha hb (loc := loc) hst hno).2 ⟨i, hi, by
    simp only [h0, if_false, false_and, false_or]
    exact ⟨_, rfl, g3⟩⟩
  have hlen : reply.length ≤ (Cmd.derive (cfg := cfg) ⟨Handle.default, z, 0, 0, 0, 0⟩).respKind.size cfg := by
    obtain ⟨_, _, hx⟩ := hx
    simp only [h0, if_false] at hx
    obtain ⟨_, _, _, _, _, _, _, _, _, _, _, _, _, _, _, _, _, rfl⟩ := hx
    rw [handlesReply_length]
    have hx : (DeriveCmd.exportCdi (cfg := cfg) ⟨Handle.default, z, 0, 0, 0, 0⟩) = false := by
      simp [DeriveCmd.exportCdi]
    simp only [Cmd.respKind, hx]
    exact Nat.le_refl 44
  obtain ⟨v, e1, _⟩ := C61_served hL ha hb hs hc hst hal hm trivial ⟨hno, hx, hlen⟩
  obtain ⟨_, h, s1, _, rfl, _⟩ := back _ _ e1
  exact ⟨h, _, e1⟩

/-- C88: `TestPrivilegesEscalation` passes exactly if the device has X.509 and an ordinary child can be derived from the
default context: the child never gets what its parent had and it did not ask for. -/
theorem C88_privileges (hst : InService s.st) (hal : addr % 4 = 0) :
    (testPrivileges c (simSend ((device L a cfg.profile).env cfg) loc addr) (some s)).1 = true ↔
      s.st.supports Feature.x509 ∧ Roomy (L.crypto cfg.profile) s.st loc s.w.1.rng := by
  obtain ⟨k1, k2⟩ := plain_derive (loc := loc) hL ha hb hs hc hst hal
  rw [testPrivileges, withProfile_eq hL ha hb hs hst hal]
  rcases hcall : c.call (simSend ((device L a cfg.profile).env cfg) loc addr)
    (.derive Handle.default (zeros c.kind.digest) 0 0 0) (some s) with ⟨r, x⟩
  cases r with
  | error er =>
    refine iff_of_false (by simp) fun h => ?_
    obtain ⟨_, _, h1⟩ := k1 h.2
    rw [hcall] at h1
    cases h1
  | ok v =>
    obtain ⟨q, h, s1, k, rfl, rfl, hst1, hmeta, hr, hx509, _⟩ := k2 _ _ hcall
    have hsup : ∀ n, s1.st.supports n ↔ s.st.supports n := fun n => by unfold State.supports; rw [hmeta.1.2.2.1]
    obtain ⟨z, hm⟩ := means_zeros hL ha hb hs hc h inputAllowX509 0
    have hre : ¬ Bit inputAllowX509 DFlag.retainParent := by decide
    have huse : LocalityInUse s1.st loc := ⟨k, hr.1.1, hr.1.2.2⟩
    have hnm : ∃ i, Names s1.st h loc i := ⟨k, hr.1⟩
    have hask : AsksUnsupported s1.st inputAllowX509 ↔ ¬ s.st.supports Feature.x509 := by
      rw [← hsup]; exact asks_x509
    have hx := expects_eq (c := c) (w := statusInvalidArgument) (k := .derive h (zeros c.kind.digest) inputAllowX509 0 0)
      (simSend ((device L a cfg.profile).env cfg) loc addr) (some s1)
    simp only [expectsAll, Bool.and_true, Bool.and_eq_true]
    by_cases hs5 : s.st.supports Feature.x509
    · refine iff_of_true ?_ ⟨hs5, q⟩
      obtain ⟨s2, e1, e2⟩ := call_refused (e := .invalidArgument) (loc := loc) hL ha hb hs hc hst1 hal hm trivial (by simp)
        (fun d hd => by cases hd; exact hre) (by
          simp only [rules, earlyRules, lookupRules, List.cons_append, FirstRefusal, hask, hs5, huse, hnm, not_true,
            not_false_eq_true, false_and, false_or, true_and]
          exact .inl ⟨⟨k, hr, .inl ⟨by decide, hx509⟩⟩, rfl⟩)
      have hw : statusWord .invalidArgument = statusInvalidArgument := by decide
      rw [hw] at e1
      refine ⟨hx.1.2 (by rw [e1]), ?_⟩
      rw [hx.2, e1]
      have hst2 : InService s2.st := by rw [e2]; exact hst1
      have hy := expects_eq (c := c) (w := statusInvalidArgument) (k := .certifyKey h (zeros c.kind.digest) 0 0)
        (simSend ((device L a cfg.profile).env cfg) loc addr) (some s2)
      refine hy.1.2 ?_
      obtain ⟨d, m1, m2, m3, m4⟩ := means_certify hL ha hb hs hc h
      obtain ⟨s3, e3, _⟩ := call_refused (e := .invalidArgument) (loc := loc) hL ha hb hs hc hst2 hal m1 m2 (by simp) (by simp) (by
          rw [e2]
          simp only [rules, earlyRules, lookupRules, List.cons_append, List.nil_append, FirstRefusal, m3, m4, hsup, hs5,
            huse, hnm, not_true, false_and, and_false, false_or, not_false_eq_true, true_and]
          exact .inl ⟨⟨k, hr, hx509⟩, trivial⟩)
      rw [e3, hw]
    · refine iff_of_false (fun h => ?_) fun h => hs5 h.1
      obtain ⟨s2, e1, e2⟩ := call_refused (e := .argumentNotSupported) (loc := loc) hL ha hb hs hc hst1 hal hm trivial (by simp)
        (fun d hd => by cases hd; exact hre) (.inl ⟨hask.2 hs5, rfl⟩)
      have h1 := hx.1.1 h.1
      rw [e1] at h1
      injection h1 with h1
      injection h1 with h1
      exact absurd h1 (by decide)

/-- C88: `TestDeriveContextDisallowedChildCdiExport` passes exactly if an ordinary child can be derived from the default
context: it never exports anything. -/
theorem C88_disallowed_export (hst : InService s.st) (hal : addr % 4 = 0) :
    (testDisallowedExport c (simSend ((device L a cfg.profile).env cfg) loc addr) (some s)).1 = true ↔
      Roomy (L.crypto cfg.profile) s.st loc s.w.1.rng := by
  obtain ⟨k1, k2⟩ := plain_derive (loc := loc) hL ha hb hs hc hst hal
  rw [testDisallowedExport, withProfile_eq hL ha hb hs hst hal]
  rcases hcall : c.call (simSend ((device L a cfg.profile).env cfg) loc addr)
    (.derive Handle.default (zeros c.kind.digest) 0 0 0) (some s) with ⟨r, x⟩
  cases r with
  | error er =>
    refine iff_of_false (by simp) fun h => ?_
    obtain ⟨_, _, h1⟩ := k1 h
    rw [hcall] at h1
    cases h1
  | ok v =>
    obtain ⟨q, h, s1, k, rfl, rfl, hst1, hmeta, hr, _, hexp, _⟩ := k2 _ _ hcall
    refine iff_of_true ?_ q
    simp only
    rcases hcall2 : c.call (simSend ((device L a cfg.profile).env cfg) loc addr)
      (.derive h (zeros c.kind.digest) (cdiExport ||| createCertificate) 0 0) (some s1) with ⟨r, x⟩
    cases r with
    | error er => rfl
    | ok v =>
      obtain ⟨z, hm⟩ := means_zeros hL ha hb hs hc h (cdiExport ||| createCertificate) 0
      obtain ⟨hfit, hser, _⟩ := C58_meets (cfg := cfg) (L := L) hL ha 0
      obtain ⟨cmd', reply, st', w', hm', hin', _, _, he⟩ := call_ok hL ha hb hs hc hst1 hal hcall2
      obtain rfl := C61_means_one hm' hm hin' trivial
      obtain ⟨hno, _⟩ := (C57_exact (s := ⟨s1.st, s1.w, List.replicate reply.length 0⟩) hst1
        (fun _ => ⟨hfit, hser⟩)).1 he
      refine absurd (hno (Named s1.st h loc fun i => BadDerive (s1.st.at i) (cdiExport ||| createCertificate), .invalidArgument)
        (by simp [rules, earlyRules, lookupRules])) fun g => g ⟨k, hr, .inr (.inl ⟨by decide, ?_⟩)⟩
      exact .inr (.inr (.inr (.inr hexp)))

/-- C88: `TestDeriveContextSimulation` fails on every device: it makes the same call twice and wants it refused the
first time and granted the second. -/
theorem C88_simulation {sim : Bool} (hst : InService s.st) (hal : addr % 4 = 0) :
    testDeriveSimulation c (simSend ((device L a cfg.profile).env cfg) loc addr)
      (simSend ((device L a cfg.profile).env cfg) (loc + 1) addr) loc sim (some s) = false := by
  refine Bool.eq_false_iff.2 fun h => ?_
  unfold testDeriveSimulation at h
  split at h
  rotate_left
  · cases h
  split at h
  rotate_left
  · cases h
  rename_i hh x1 hcall
  obtain ⟨_, s1, i, e1, rfl, hst1, _⟩ := init_simulation hL ha hb hs hc hst hal hcall
  split at h
  · cases h
  split at h
  rotate_left
  · cases h
  rename_i x2 hprof
  rw [getProfile_sim hL ha hb hs.rounded hst1 hal] at hprof
  obtain rfl : some s1 = x2 := by cases hprof; rfl
  obtain ⟨z0, m0⟩ := means_zeros hL ha hb hs hc hh makeDefault 0
  have hx := expects_eq (c := c) (w := statusInvalidArgument) (k := .derive hh (zeros c.kind.digest) makeDefault 0 0)
    (simSend ((device L a cfg.profile).env cfg) loc addr) (some s1)
  split at h
  rotate_left
  · cases h
  rename_i h1 _ _ _ _ x3 hcall2
  split at h
  rotate_left
  · cases h
  rename_i hcall3
  simp only [Bool.and_eq_true] at h
  obtain ⟨hp0, hp1⟩ := h
  obtain ⟨_, s2, q1, q2, _⟩ := invalid_twice hL ha hb hs hc hst1 hal m0 (hx.1.1 hp0)
  rw [hx.2, q1] at hcall2
  have hst2 : InService s2.st := by rw [q2]; exact hst1
  obtain ⟨s3, rfl⟩ : ∃ s3, x3 = some s3 := by
    obtain ⟨_, _, _, _, _, _, _, rfl, _⟩ := call_ok hL ha hb hs hc hst2 hal hcall2
    exact ⟨_, rfl⟩
  have hst3 := call_inService hL ha hb hs hc hst2 hal hcall2
  obtain ⟨z1, m1⟩ := means_zeros hL ha hb hs hc h1 retainParentContext 0
  have hy := expects_eq (c := c) (w := statusInvalidArgument) (k := .derive h1 (zeros c.kind.digest) retainParentContext 0 0)
    (simSend ((device L a cfg.profile).env cfg) (loc + 1) addr) (some s3)
  obtain ⟨_, s4, q3, _, q4⟩ := invalid_twice hL ha hb hs hc hst3 hal m1 (hy.1.1 hp1)
  rw [hy.2, q3] at hcall3
  exact q4 _ (by rw [hcall3])

omit hL ha hb hs hc in
/-- The only context of a simulator that has just been started has no children. -/
theorem fresh_childless (a : Artifact) {args : SimArgs}
    (h : AfterDefaultInit args.support args.flags 0 s.st) :
    ∃ i, Names s.st Handle.default 0 i ∧ (∀ j, ¬ Lists s.st i j) ∧ ∀ j, j ≠ i → (s.st.at j).state = .inactive := by
  obtain ⟨n, s', h1, h2⟩ := h _ ((device L a cfg.profile).env cfg) s.w (List.replicate 28 0) (by simp)
  obtain ⟨_, ⟨h', _, i, f1, f2, f3, f4, f5, f6⟩, _⟩ := C52_success_effect
    (s := ⟨State.new cfg args.support args.flags, s.w, List.replicate 28 0⟩) (.reached (.new _ _)) (digests_true _) h1
  rw [← h2]
  have b1 : Bit (0x40000000 : U32) IFlag.default := by decide
  refine ⟨i, ?_, fun j => ?_, fun j hj => ?_⟩
  · have hd0 : h' = Handle.default := (f6.resolve_right fun g => g.2.1 b1).2.2.2
    unfold Names
    rw [f2, hd0]
    exact ⟨rfl, rfl, rfl⟩
  · unfold Lists
    rw [f2]
    simp [rootContext]
  · rw [f3 j hj, at_new]
    rfl

/-- C88: on a simulator that has just been started with automatic initialisation, has room for two contexts and can draw
a handle, both tests pass from locality 0, the first if the command line asks for X.509; from other localities, or
without automatic initialisation, they fail. -/
theorem C88_fresh (g : SimArgs) (hal : addr % 4 = 0) (hda : ¬ Bit cfg.disabled Feature.autoInit)
    (hdx : ¬ Bit cfg.disabled Feature.x509) :
    let s : Sys cfg (Soft (L.crypto cfg.profile) × Unit) := (simStart cfg L a g).2
    let t := fun loc => simSend ((device L a cfg.profile).env cfg) loc addr
    (g.autoInit = true → 2 ≤ cfg.maxHandles → CanDraw (L.crypto cfg.profile) s.st s.w.1.rng →
      (testPrivileges c (t 0) (some s)).1 = g.x509 ∧ (testDisallowedExport c (t 0) (some s)).1 = true) ∧
    ∀ loc, g.autoInit = false ∨ loc ≠ 0 →
      (testPrivileges c (t loc) (some s)).1 = false ∧ (testDisallowedExport c (t loc) (some s)).1 = false := by
  obtain ⟨s, h1, hr, hsup, _, _, hno, hyes⟩ := C59_start (cfg := cfg) (L := L) (a := a) g
  rw [h1]
  intro s' t
  obtain ⟨_, _, q3, _, _, _, q7⟩ := asks_iff g
  have hst : InService s.st := .reached hr
  have hauto : g.autoInit = true → ∃ i, Names s.st Handle.default 0 i ∧ (∀ j, ¬ Lists s.st i j) ∧
      ∀ j, j ≠ i → (s.st.at j).state = .inactive := fun h =>
    fresh_childless a (hyes ((hsup Feature.autoInit).2 ⟨q7.2 h, hda⟩))
  have hx : s.st.supports Feature.x509 ↔ g.x509 = true := by
    rw [hsup, ← q3]
    exact ⟨fun h => h.1, fun h => ⟨h, hdx⟩⟩
  refine ⟨fun w1 w2 w3 => ?_, fun loc w => ?_⟩
  · obtain ⟨i, v1, v2, v3⟩ := hauto w1
    have room : Roomy (L.crypto cfg.profile) s.st 0 s.w.1.rng := by
      refine ⟨⟨i, ⟨v1, fun j hj hn => ?_⟩, fun j hj => absurd hj (v2 j)⟩, ?_, w3⟩
      · have := hn.1
        rw [v3 j (Nat.ne_of_lt hj)] at this
        cases this
      · by_cases hi : i = 0
        · exact ⟨1, w2, fun h => h (v3 1 (by omega))⟩
        · exact ⟨0, cfg.pos, fun h => h (v3 0 (Ne.symm hi))⟩
    refine ⟨?_, (C88_disallowed_export hL ha hb hs hc hst hal).2 room⟩
    rw [Bool.eq_iff_iff, ← hx]
    exact (C88_privileges hL ha hb hs hc hst hal).trans (and_iff_left room)
  · have none : ¬ Roomy (L.crypto cfg.profile) s.st loc s.w.1.rng := by
      rintro ⟨⟨i, hi, _⟩, _⟩
      cases hg : g.autoInit with
      | true =>
        have hl := w.resolve_left (by simp [hg])
        obtain ⟨j, v1, _, v3⟩ := hauto hg
        by_cases hij : i = j
        · subst hij
          exact hl (hi.1.2.2.symm.trans v1.2.2)
        · have := hi.1.1
          rw [v3 i hij] at this
          cases this
      | false =>
        have := hi.1.1
        rw [hno (fun h' => by have := q7.1 ((hsup _).1 h').1; rw [hg] at this; cases this) i] at this
        cases this
    exact ⟨Bool.eq_false_iff.2 fun h => none ((C88_privileges hL ha hb hs hc hst hal).1 h).2,
      Bool.eq_false_iff.2 fun h => none ((C88_disallowed_export hL ha hb hs hc hst hal).1 h)⟩

end

/-! ### Concrete cases -/
namespace Ref

/-- Evaluated: the tests on the suite's default target and, from another locality or without X.509, where they fail. -/
example : runs target 0 testPrivileges = true ∧ runs target 0 testDisallowedExport = true ∧
    runs target 1 testDisallowedExport = false ∧ runs (bare true) 0 testPrivileges = false ∧
    runs (bare true) 0 testDisallowedExport = true := by decide +kernel

/-- Evaluated: the test of derivations from simulation contexts, on the default target, which has all the features it
needs. -/
example :
    (match newClient wires 3 (some (simStart std lib cert target.args).2) with
      | (.ok c, x) => testDeriveSimulation c (simSend ((device lib cert std.profile).env std) 0 8)
          (simSend ((device lib cert std.profile).env std) 1 8) 0 true x
      | _ => true) = false := by decide +kernel

/-- Non-vacuity for C88: a client that connected to a simulator, and the tests. -/
example : ∃ c : Client, Connected lib cert std c ∧
    (∀ sim, testDeriveSimulation c (simSend ((device lib cert std.profile).env std) 4 8)
      (simSend ((device lib cert std.profile).env std) (4 + 1) 8) 4 sim (some (simStart std lib cert target.args).2) = false) ∧
    (testPrivileges c (simSend ((device lib cert std.profile).env std) 1 8) (some (simStart std lib cert target.args).2)).1 = false := by
  obtain ⟨s0, hs0, hr0, _⟩ := C59_start (cfg := std) (L := lib) (a := cert) features.args
  obtain ⟨s1, hs1, hr1, _⟩ := C59_start (cfg := std) (L := lib) (a := cert) target.args
  obtain ⟨c, h1, _⟩ := (C62_connects_partial (loc := 3) (addr := 8) lib_total cert_fit std_built std_standard
    (.reached hr0) (by decide) (wireProfile std.profile)).1 rfl
  have hcon : Connected lib cert std c := ⟨_, _, _, _, _, .reached hr0, by decide, h1⟩
  refine ⟨c, hcon, fun sim => ?_, ((C88_fresh (addr := 8) lib_total cert_fit std_built std_standard hcon target.args
    (by decide) (by decide) (by decide)).2 1 (.inr (by decide))).1⟩
  rw [hs1]
  exact C88_simulation lib_total cert_fit std_built std_standard hcon (.reached hr1) (by decide)

end Ref
end Dpe
