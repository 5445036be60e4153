import Verif.Model.Tests
import Verif.Props.Attest
/-
C87: when the conformance suite's tests of refusals pass.
-/
namespace Dpe
open Suite
section
variable {cfg : Cfg} {σ : Type} {ops : Ops σ}

/-- The errors that only rules lead to. -/
def RuleError (e : Err) : Prop :=
  e = .invalidCommand ∨ e = .invalidHandle ∨ e = .invalidLocality ∨ e = .argumentNotSupported

theorem word_inj {e e' : Err} (h : RuleError e' ∨ e' = .invalidArgument) (hw : statusWord e = statusWord e') : e = e' := by
  have hp : ∀ x : PlatErr, ∀ n : Nat, n < 256 → statusWord (.platform x) ≠ BitVec.ofNat 32 n := by
    intro x n hn h
    have := congrArg BitVec.toNat h
    cases x <;> simp only [statusWord, platformNumber, BitVec.toNat_ofNat] at this <;> omega
  have hq : ∀ x : CryptoErr, ∀ n : Nat, n < 256 → statusWord (.crypto x) ≠ BitVec.ofNat 32 n := by
    intro x n hn h
    have := congrArg BitVec.toNat h
    cases x <;> simp only [statusWord, cryptoNumber, BitVec.toNat_ofNat] at this <;> omega
  cases e with
  | platform x =>
    rcases h with (rfl | rfl | rfl | rfl) | rfl <;> exact absurd hw (hp x _ (by decide))
  | crypto x =>
    rcases h with (rfl | rfl | rfl | rfl) | rfl <;> exact absurd hw (hq x _ (by decide))
  | _ =>
    rcases h with (rfl | rfl | rfl | rfl) | rfl <;> first
      | rfl
      | (simp only [statusWord] at hw; exact absurd hw (by decide))
      | (rename_i x; cases x <;> simp only [statusWord] at hw <;> exact absurd hw (by decide))

theorem overflows_error {room : Nat} {t : Asn} {e : Err} (h : Overflows room t e) :
    e = .internal .certSizeOverflow ∨ e = .x509InvalidWidth := by
  rcases h with ⟨h, _⟩ | ⟨h, _⟩
  · exact .inl h
  · exact .inr h

theorem fault_not {s : Sys cfg σ} {c : Cmd cfg} {e : Err} (h : Fault ops s c e) : ¬ RuleError e := by
  have ov : (e = .internal .certSizeOverflow ∨ e = .x509InvalidWidth) → ¬ RuleError e := by
    rintro (rfl | rfl) <;> simp [RuleError]
  cases h with
  | cert h =>
    obtain ⟨kind, _, h | ⟨a, w, D, w1, _, h⟩⟩ := h
    · cases h <;> simp [RuleError]
    · cases h with
      | tbs _ _ h => exact ov (overflows_error (h (Classical.choice ⟨.mldsa (Vector.replicate _ 0)⟩)))
      | certificate _ _ _ h => exact ov (overflows_error h)
      | info h => exact ov (overflows_error (h (.mldsa (Vector.replicate _ 0)) (.mldsa (Vector.replicate _ 0))))
      | request _ _ _ h => exact ov (overflows_error (h (.mldsa (Vector.replicate _ 0))))
      | message _ _ _ _ h => exact ov (overflows_error h)
      | _ => simp [RuleError]
  | _ => simp [RuleError]

end
section
variable {cfg : Cfg} {L : Lib} {a : Artifact} {c : Client} {loc : U32} {addr : Nat}
  {s s1 : Sys cfg (Soft (L.crypto cfg.profile) × Unit)} {st : State cfg} {P Q : Prop} {w : U32} {k : GoCall}
  {l : List (U32 × GoCall)} {cmd : Cmd cfg} {e : Err}

theorem expects_eq {τ : Type} (t : Transport τ) (x : τ) :
    ((expects c t w k x).1 = true ↔ (c.call t k x).1 = .error (.status w)) ∧ (expects c t w k x).2 = (c.call t k x).2 := by
  unfold expects
  rcases h : c.call t k x with ⟨r, x'⟩
  cases r with
  | ok v => simp
  | error er => cases er <;> simp

/-- In a device with the contexts `st`, the call returns the status exactly if `P`, and then leaves them alone. -/
def Single (L : Lib) (a : Artifact) (c : Client) (loc : U32) (addr : Nat) (st : State cfg) (w : U32) (k : GoCall)
    (P : Prop) : Prop :=
  ∀ s : Sys cfg (Soft (L.crypto cfg.profile) × Unit), s.st = st →
    ((c.call (simSend ((device L a cfg.profile).env cfg) loc addr) k (some s)).1 = .error (.status w) ↔ P) ∧
    (P → ∃ s', (c.call (simSend ((device L a cfg.profile).env cfg) loc addr) k (some s)).2 = some s' ∧ s'.st = st)

/-- The same for a list of checks. -/
def Passes (L : Lib) (a : Artifact) (c : Client) (loc : U32) (addr : Nat) (st : State cfg) (l : List (U32 × GoCall))
    (P : Prop) : Prop :=
  ∀ s : Sys cfg (Soft (L.crypto cfg.profile) × Unit), s.st = st →
    ((expectsAll c (simSend ((device L a cfg.profile).env cfg) loc addr) l (some s)).1 = true ↔ P) ∧
    (P → ∃ s', (expectsAll c (simSend ((device L a cfg.profile).env cfg) loc addr) l (some s)).2 = some s' ∧ s'.st = st)

theorem Passes.nil : Passes L a c loc addr st [] True := fun s hs => ⟨by simp [expectsAll], fun _ => ⟨s, rfl, hs⟩⟩

theorem Passes.cons (h : Single L a c loc addr st w k P) (hl : Passes L a c loc addr st l Q) :
    Passes L a c loc addr st ((w, k) :: l) (P ∧ Q) := by
  intro s hs
  obtain ⟨h1, h2⟩ := h s hs
  obtain ⟨g1, g2⟩ := expects_eq (c := c) (w := w) (k := k) (simSend ((device L a cfg.profile).env cfg) loc addr) (some s)
  simp only [expectsAll, Bool.and_eq_true, g1, g2, h1]
  by_cases hP : P
  · obtain ⟨s', e1, e2⟩ := h2 hP
    obtain ⟨f1, f2⟩ := hl s' e2
    rw [e1]
    exact ⟨and_congr Iff.rfl f1, fun h => f2 h.2⟩
  · exact ⟨⟨fun h => absurd h.1 hP, fun h => absurd h.1 hP⟩, fun h => absurd h.1 hP⟩

theorem Single.congr (h : Single L a c loc addr st w k P) (hpq : P ↔ Q) : Single L a c loc addr st w k Q := by
  rw [← propext hpq]; exact h

theorem Passes.congr (h : Passes L a c loc addr st l P) (hpq : P ↔ Q) : Passes L a c loc addr st l Q := by
  rw [← propext hpq]; exact h

variable (hL : L.Total) (ha : a.Fit) (hb : Built cfg a) (hs : cfg.Standard) (hc : Connected L a cfg c)
include hL ha hb hs hc

/-- A refused call returns the status of the refusal. -/
theorem call_refused (hst : InService s.st) (hal : addr % 4 = 0) (hm : Means k cmd) (hin : InProfile cfg cmd)
    (hu : ∀ u, cmd ≠ .update u) (hd : ∀ d, cmd = .derive d → ¬ Bit d.flags DFlag.retainParent)
    (hr : FirstRefusal (rules s.st loc cmd) e) :
    ∃ s', c.call (simSend ((device L a cfg.profile).env cfg) loc addr) k (some s) =
      (.error (.status (statusWord e)), some s') ∧ s'.st = s.st := by
  have hx : ¬ ∃ reply st' w', Succeeds (device L a cfg.profile) s.st loc s.w cmd reply st' w' := by
    rintro ⟨_, _, _, h, _⟩
    exact hr.not_none h
  obtain ⟨e', s', h1, _, h3, h4⟩ := C61_failed hL ha hb hs hc hst hal hm hin hx
  refine ⟨s', ?_, h4.resolve_right fun ⟨u, h, _⟩ => hu u h⟩
  rcases h3 with h3 | ⟨d, h3, h5, _⟩ | ⟨h3, _⟩
  · rw [h1, h3.unique hr]
  · exact absurd h5 (hd d h3)
  · exact absurd h3 hr.not_none

theorem single_rules (hst : InService st) (hal : addr % 4 = 0) (hm : Means k cmd) (hin : InProfile cfg cmd)
    (hu : ∀ u, cmd ≠ .update u) (hd : ∀ d, cmd = .derive d → ¬ Bit d.flags DFlag.retainParent) (he : RuleError e) :
    Single L a c loc addr st (statusWord e) k (FirstRefusal (rules st loc cmd) e) := by
  rintro s rfl
  refine ⟨⟨fun h => ?_, fun h => ?_⟩, fun h => ?_⟩
  · by_cases hx : ∃ reply st' w', Succeeds (device L a cfg.profile) s.st loc s.w cmd reply st' w'
    · obtain ⟨reply, st', w', hx⟩ := hx
      obtain ⟨v, h1, _⟩ := C61_served hL ha hb hs hc hst hal hm hin hx
      rw [h1] at h
      cases h
    · obtain ⟨e', s', h1, _, h3, _⟩ := C61_failed hL ha hb hs hc hst hal hm hin hx
      rw [h1] at h
      injection h with h
      injection h with h
      obtain rfl := word_inj (.inl he) h
      rcases h3 with h3 | ⟨d, h3, h5, _⟩ | ⟨_, h3⟩
      · exact h3
      · exact absurd h5 (hd d h3)
      · exact absurd he (fault_not h3)
  · obtain ⟨s', h1, _⟩ := call_refused hL ha hb hs hc hst hal hm hin hu hd h
    rw [h1]
  · obtain ⟨s', h1, h2⟩ := call_refused hL ha hb hs hc hst hal hm hin hu hd h
    exact ⟨s', by rw [h1], h2⟩

theorem zeros_sizes : (zeros c.kind.digest).length = digestLength cfg.profile ∧
    (zeros c.kind.digest).length = labelSize cfg.profile ∧ (zeros c.kind.signData).length = signDataSize cfg.profile := by
  have hf := (hc.fits hL ha hb hs).1
  rw [zeros, zeros, hf.kind]
  cases cfg.profile <;> simp [clientKind, ClKind.digest, ClKind.signData, digestLength, labelSize, signDataSize]

theorem single_derive {h : Handle} {f : U32} (hst : InService st) (hal : addr % 4 = 0) (he : RuleError e)
    (hf : ¬ Bit f DFlag.retainParent) :
    ∃ d : DeriveCmd cfg, d.handle = h ∧ d.flags = f ∧
      Single L a c loc addr st (statusWord e) (.derive h (zeros c.kind.digest) f 0 0)
        (FirstRefusal (rules st loc (.derive d)) e) := by
  have hz := zeros_sizes hL ha hb hs hc
  rcases C61_means hs (.derive h (zeros c.kind.digest) f 0 0) with h' | h' | ⟨cmd, h1, h2⟩
  · exact absurd hz.1 h'
  · exact h'.elim
  · generalize hk : zeros c.kind.digest = z at h1
    cases h1
    exact ⟨⟨h, _, f, 0, 0, 0⟩, rfl, rfl, single_rules hL ha hb hs hc hst hal (.derive ..) trivial (by simp)
      (fun d hd => by cases hd; exact hf) he⟩

theorem single_certify {h : Handle} {f : U32} (hst : InService st) (hal : addr % 4 = 0) (he : RuleError e) :
    ∃ d : CertifyCmd, d.handle = h ∧ d.format = f ∧
      Single L a c loc addr st (statusWord e) (.certifyKey h (zeros c.kind.digest) f 0)
        (FirstRefusal (rules st loc (.certify d)) e) := by
  have hz := zeros_sizes hL ha hb hs hc
  rcases C61_means hs (.certifyKey h (zeros c.kind.digest) f 0) with h' | h' | ⟨cmd, h1, h2⟩
  · exact absurd hz.2.1 h'
  · exact h'.elim
  · generalize hk : zeros c.kind.digest = z at h1
    cases h1 with
    | certify256 => exact ⟨_, rfl, rfl, single_rules hL ha hb hs hc hst hal (.certify256 ..) h2 (by simp) (by simp) he⟩
    | certify384 => exact ⟨_, rfl, rfl, single_rules hL ha hb hs hc hst hal (.certify384 ..) h2 (by simp) (by simp) he⟩
    | certifyMl => exact ⟨_, rfl, rfl, single_rules hL ha hb hs hc hst hal (.certifyMl ..) h2 (by simp) (by simp) he⟩

theorem single_sign {h : Handle} (hst : InService st) (hal : addr % 4 = 0) (he : RuleError e) :
    ∃ d : SignCmd, d.handle = h ∧ ¬ d.TooLong ∧
      Single L a c loc addr st (statusWord e) (.sign h (zeros c.kind.digest) 0 (zeros c.kind.signData))
        (FirstRefusal (rules st loc (.sign d)) e) := by
  have hz := zeros_sizes hL ha hb hs hc
  rcases C61_means hs (.sign h (zeros c.kind.digest) 0 (zeros c.kind.signData)) with h' | h' | ⟨cmd, h1, h2⟩
  · exact (h'.elim (fun h => h hz.2.1) fun h => h hz.2.2).elim
  · exact absurd h'.2 (by decide)
  · generalize hk : zeros c.kind.digest = z at h1
    generalize hk' : zeros c.kind.signData = z' at h1
    cases h1 with
    | sign256 => exact ⟨_, rfl, id, single_rules hL ha hb hs hc hst hal (.sign256 ..) h2 (by simp) (by simp) he⟩
    | sign384 => exact ⟨_, rfl, id, single_rules hL ha hb hs hc hst hal (.sign384 ..) h2 (by simp) (by simp) he⟩
    | signMl => exact ⟨_, rfl, id, single_rules hL ha hb hs hc hst hal (.signMl ..) h2 (by simp) (by simp) he⟩

theorem single_rotate {h : Handle} {f : U32} (hst : InService st) (hal : addr % 4 = 0) (he : RuleError e) :
    Single L a c loc addr st (statusWord e) (.rotate h f)
      (¬ Bit cfg.disabled Feature.rotate ∧ FirstRefusal (rules st loc (.rotate ⟨h, f⟩)) e) := by
  by_cases hd : Bit cfg.disabled Feature.rotate
  · rintro s rfl
    have := C61_deadly (addr := addr) (loc := loc) (k := .rotate h f) hL ha hb hs hc hst id hd
    rw [this]
    exact ⟨⟨fun h => by simp at h, fun h => absurd hd h.1⟩, fun h => absurd hd h.1⟩
  · exact (single_rules hL ha hb hs hc hst hal (.rotate ..) hd (by simp) (by simp) he).congr
      ⟨fun h => ⟨hd, h⟩, fun h => h.2⟩

omit hL ha hb hs hc in
/-- Without flags, a derivation is not about features. -/
theorem asks_none : ¬ AsksUnsupported st 0#32 := by
  rintro ⟨p, _, h, _⟩
  simp [Bit] at h

/-- The five calls with a handle all return "no such locality" exactly if the locality has no context at all and the
device has RotateContextHandle. -/
theorem five_locality {h : Handle} (hst : InService st) (hal : addr % 4 = 0) :
    Passes L a c loc addr st (fiveCalls c statusInvalidLocality h)
      (¬ LocalityInUse st loc ∧ st.supports Feature.rotate ∧ ¬ Bit cfg.disabled Feature.rotate) := by
  have he : RuleError .invalidLocality := by simp [RuleError]
  obtain ⟨d1, a1, b1, s1⟩ := single_derive (e := .invalidLocality) (loc := loc) (h := h) (f := 0) hL ha hb hs hc hst hal he (by decide)
  obtain ⟨d2, a2, b2, s2⟩ := single_certify (e := .invalidLocality) (loc := loc) (h := h) (f := 0) hL ha hb hs hc hst hal he
  obtain ⟨d3, a3, b3, s3⟩ := single_sign (e := .invalidLocality) (loc := loc) (h := h) hL ha hb hs hc hst hal he
  have s4 := single_rotate (e := .invalidLocality) (loc := loc) (h := h) (f := targetIsDefault) hL ha hb hs hc hst hal he
  have s5 := single_rules (e := .invalidLocality) (loc := loc) hL ha hb hs hc hst hal (Means.destroy h) trivial (by simp) (by simp) he
  have h0 : ∀ n, ¬ Bit 0#32 n := fun n => by simp [Bit]
  have s1 := s1.congr (Q := ¬ LocalityInUse st loc) (by
    simp [rules, earlyRules, lateRules, lookupRules, FirstRefusal, b1, asks_none, h0])
  have s2 := s2.congr (Q := ¬ LocalityInUse st loc) (by
    simp [rules, earlyRules, lateRules, lookupRules, FirstRefusal])
  have s3 := s3.congr (Q := ¬ LocalityInUse st loc) (by
    simp [rules, earlyRules, lateRules, lookupRules, FirstRefusal, b3])
  have s4 := s4.congr (Q := ¬ Bit cfg.disabled Feature.rotate ∧ st.supports Feature.rotate ∧ ¬ LocalityInUse st loc) (by
    simp [rules, earlyRules, lateRules, lookupRules, FirstRefusal])
  have s5 := s5.congr (Q := ¬ LocalityInUse st loc) (by
    simp [rules, earlyRules, lateRules, lookupRules, FirstRefusal])
  exact (Passes.cons s1 (Passes.cons s2 (Passes.cons s3 (Passes.cons s4 (Passes.cons s5 Passes.nil))))).congr (by tauto)

/-- They all return "no such handle" exactly if the locality has contexts, but none of that name. -/
theorem five_handle {h : Handle} (hst : InService st) (hal : addr % 4 = 0) :
    Passes L a c loc addr st (fiveCalls c statusInvalidHandle h)
      (LocalityInUse st loc ∧ (¬ ∃ i, Names st h loc i) ∧ st.supports Feature.rotate ∧
        ¬ Bit cfg.disabled Feature.rotate) := by
  have he : RuleError .invalidHandle := by simp [RuleError]
  obtain ⟨d1, a1, b1, s1⟩ := single_derive (e := .invalidHandle) (loc := loc) (h := h) (f := 0) hL ha hb hs hc hst hal he (by decide)
  obtain ⟨d2, a2, b2, s2⟩ := single_certify (e := .invalidHandle) (loc := loc) (h := h) (f := 0) hL ha hb hs hc hst hal he
  obtain ⟨d3, a3, b3, s3⟩ := single_sign (e := .invalidHandle) (loc := loc) (h := h) hL ha hb hs hc hst hal he
  have s4 := single_rotate (e := .invalidHandle) (loc := loc) (h := h) (f := targetIsDefault) hL ha hb hs hc hst hal he
  have s5 := single_rules (e := .invalidHandle) (loc := loc) hL ha hb hs hc hst hal (Means.destroy h) trivial (by simp) (by simp) he
  have s1 := s1.congr (Q := LocalityInUse st loc ∧ ¬ ∃ i, Names st h loc i) (by
    simp [rules, earlyRules, lateRules, lookupRules, FirstRefusal, a1, b1, asks_none])
  have s2 := s2.congr (Q := LocalityInUse st loc ∧ ¬ ∃ i, Names st h loc i) (by
    simp [rules, earlyRules, lateRules, lookupRules, FirstRefusal, a2])
  have s3 := s3.congr (Q := LocalityInUse st loc ∧ ¬ ∃ i, Names st h loc i) (by
    simp [rules, earlyRules, lateRules, lookupRules, FirstRefusal, a3, b3])
  have s4 := s4.congr (Q := ¬ Bit cfg.disabled Feature.rotate ∧ st.supports Feature.rotate ∧ LocalityInUse st loc ∧
      ¬ ∃ i, Names st h loc i) (by
    simp [rules, earlyRules, lateRules, lookupRules, FirstRefusal])
  have s5 := s5.congr (Q := LocalityInUse st loc ∧ ¬ ∃ i, Names st h loc i) (by
    simp [rules, earlyRules, lateRules, lookupRules, FirstRefusal])
  exact (Passes.cons s1 (Passes.cons s2 (Passes.cons s3 (Passes.cons s4 (Passes.cons s5 Passes.nil))))).congr (by tauto)

/-- Calls that return one handle: exactly when they succeed, and what they do. -/
theorem call_handle (hst : InService s.st) (hal : addr % 4 = 0) (hk : (∃ f, k = .initialize f) ∨ ∃ h f, k = .rotate h f)
    (hm : Means k cmd) (hin : InProfile cfg cmd) :
    (NoRefusal (rules s.st loc cmd) ∧ Able (L.crypto cfg.profile) a s.st loc s.w.1 cmd →
      ∃ h s1, c.call (simSend ((device L a cfg.profile).env cfg) loc addr) k (some s) = (.ok (.handle h), some s1)) ∧
    ∀ v x, c.call (simSend ((device L a cfg.profile).env cfg) loc addr) k (some s) = (.ok v, x) →
      NoRefusal (rules s.st loc cmd) ∧ Able (L.crypto cfg.profile) a s.st loc s.w.1 cmd ∧
      ∃ h s1, v = .handle h ∧ x = some s1 ∧ InService s1.st ∧
        Effect (fun _ _ => True) s.st loc cmd [h] s1.st := by
  obtain ⟨hfit, hser, _⟩ := C58_meets (cfg := cfg) (L := L) hL ha 0
  have han : ∀ {reply v}, Answer cfg k reply v → ∃ h, reply = handlesReply cfg.profile [h] ∧ v = .handle h := by
    intro reply v h
    rcases hk with ⟨f, rfl⟩ | ⟨h', f, rfl⟩ <;> exact h
  constructor
  · rintro ⟨hno, hab⟩
    obtain ⟨reply, st', w', hx⟩ := (C58_able hL ha hb hst hno).2 hab
    have hlen : reply.length ≤ cmd.respKind.size cfg := by
      rcases hk with ⟨f, rfl⟩ | ⟨h', f, rfl⟩ <;> cases hm
      · obtain ⟨_, _, _, _, _, _, _, _, rfl⟩ := hx; rw [handlesReply_length]; exact Nat.le_refl 28
      · obtain ⟨_, _, _, _, _, rfl⟩ := hx; rw [handlesReply_length]; exact Nat.le_refl 28
    obtain ⟨v, h1, h2⟩ := C61_served hL ha hb hs hc hst hal hm hin ⟨hno, hx, hlen⟩
    obtain ⟨h, _, rfl⟩ := han h2
    exact ⟨h, _, h1⟩
  · intro v x h
    obtain ⟨cmd', reply, st', w', hm', hin', hans, rfl, he⟩ := call_ok hL ha hb hs hc hst hal h
    obtain rfl := C61_means_one hm' hm hin' hin
    have hst1 := call_inService hL ha hb hs hc hst hal h
    obtain ⟨hno, reply', st'', w'', hsv, _⟩ := (C57_exact (s := ⟨s.st, s.w, List.replicate reply.length 0⟩) hst
      (fun _ => ⟨hfit, hser⟩)).1 he
    obtain ⟨hs', heff, hrep⟩ :=
      C52_success_effect (s := ⟨s.st, s.w, List.replicate reply.length 0⟩) hst (digests_true _) he
    refine ⟨hno, (C58_able hL ha hb (s := ⟨s.st, s.w, s.out⟩) hst hno).1 ⟨reply', st'', w'', hsv⟩, ?_⟩
    obtain ⟨hh, g1, rfl⟩ := han hans
    refine ⟨hh, _, rfl, rfl, hst1, ?_⟩
    have hone : ∃ y, hs' = [y] := by
      rcases hk with ⟨f, rfl⟩ | ⟨h', f, rfl⟩ <;> cases hm <;> (obtain ⟨y, rfl, _⟩ := heff; exact ⟨y, rfl⟩)
    obtain ⟨y, rfl⟩ := hone
    have e1 := hrep.at (k := 0) (x := y) rfl
    have h2 : RepliesWith cfg.profile [hh] reply := ⟨[], by rw [g1]; cases cfg.profile <;> simp [handlesReply, successBytes]⟩
    have := Vector.toList_inj.1 (e1.symm.trans (h2.at (k := 0) (x := hh) rfl))
    rw [← this]
    exact heff

omit hL ha hb hs hc in
/-- After a context got a new random handle: another one (default or not) is in its locality exactly if there was
one. -/
theorem rename_clash {h h1 : Handle} {st' : State cfg} {f : U32} (hf : ¬ Bit f RFlag.targetIsDefault)
    (heff : RotateEffect st ⟨h, f⟩ loc h1 st') :
    ∃ i, Resolves st h loc i ∧ SetSlot st i { st.at i with handle := h1 } st' ∧ Unused st h1 ∧ Resolves st' h1 loc i ∧
      (((∃ j, Names st' Handle.default loc j) ∨ Named st' h1 loc fun i => ∃ j, j ≠ i ∧ (st'.at j).state = .active ∧
          (st'.at j).locality = loc) ↔
        ∃ j, j ≠ i ∧ (st.at j).state = .active ∧ (st.at j).locality = loc) := by
  obtain ⟨i, h1', h2, h3⟩ := heff
  have hun : Unused st h1 := (h3.resolve_left fun h => hf h.1).2
  have hne : ∀ j, j ≠ i → ¬ Names st' h1 loc j := by
    intro j hj ⟨g1, g2, _⟩
    rw [h2.2.1 j hj] at g1 g2
    exact hun.2 j (active_at g1) g2
  have hat : Names st' h1 loc i := by
    unfold Names
    rw [h2.1]
    exact ⟨h1'.1.1, rfl, h1'.1.2.2⟩
  have hr : Resolves st' h1 loc i := ⟨hat, fun j hj => hne j (Nat.ne_of_lt hj)⟩
  refine ⟨i, h1', h2, hun, hr, ?_⟩
  constructor
  · rintro (⟨j, g1, g2, g3⟩ | ⟨i', g, j, g1, g2, g3⟩)
    · have hj : j ≠ i := by
        rintro rfl
        rw [h2.1] at g2
        exact hun.1 g2
      rw [h2.2.1 j hj] at g1 g3
      exact ⟨j, hj, g1, g3⟩
    · obtain rfl := g.unique hr
      rw [h2.2.1 j g1] at g2 g3
      exact ⟨j, g1, g2, g3⟩
  · rintro ⟨j, g1, g2, g3⟩
    refine .inr ⟨i, hr, j, g1, ?_⟩
    rw [h2.2.1 j g1]
    exact ⟨g2, g3⟩

/-- A context can be given the default handle exactly if it is alone in its locality (and has another handle). -/
theorem rotate_back {h : Handle} {i : Nat} (hst : InService s.st) (hal : addr % 4 = 0)
    (hd : ¬ Bit cfg.disabled Feature.rotate) (hsup : s.st.supports Feature.rotate) (hr : Resolves s.st h loc i) :
    let clash := (∃ j, Names s.st Handle.default loc j) ∨ Named s.st h loc fun i => ∃ j, j ≠ i ∧
      (s.st.at j).state = .active ∧ (s.st.at j).locality = loc
    (clash → ∃ s', c.call (simSend ((device L a cfg.profile).env cfg) loc addr) (.rotate h targetIsDefault) (some s) =
      (.error (.status statusInvalidArgument), some s') ∧ s'.st = s.st) ∧
    (¬ clash → ∃ h' s', c.call (simSend ((device L a cfg.profile).env cfg) loc addr) (.rotate h targetIsDefault) (some s) =
      (.ok (.handle h'), some s')) := by
  intro clash
  have hu : LocalityInUse s.st loc := ⟨i, hr.1.1, hr.1.2.2⟩
  have hbit : Bit targetIsDefault RFlag.targetIsDefault := by decide
  constructor
  · intro hcl
    refine call_refused (e := .invalidArgument) hL ha hb hs hc hst hal (.rotate h targetIsDefault) hd (by simp) (by simp) ?_
    simp only [rules, earlyRules, lateRules, lookupRules, FirstRefusal, List.cons_append, List.nil_append, List.append_nil]
    exact .inr ⟨fun g => g hsup, .inr ⟨fun g => g hu, .inr ⟨fun g => g ⟨i, hr.1⟩, .inl ⟨⟨hbit, hcl⟩, trivial⟩⟩⟩⟩
  · intro hcl
    refine (call_handle (cmd := .rotate ⟨h, targetIsDefault⟩) hL ha hb hs hc hst hal (.inr ⟨_, _, rfl⟩) (.rotate ..) hd).1 ⟨?_, .inl hbit⟩
    intro x hx
    simp only [rules, earlyRules, lateRules, lookupRules, List.cons_append, List.nil_append, List.append_nil, List.mem_cons,
      List.not_mem_nil, or_false] at hx
    rcases hx with rfl | rfl | rfl | rfl
    · exact fun g => g hsup
    · exact fun g => g hu
    · exact fun g => g ⟨i, hr.1⟩
    · exact fun g => hcl g.2

omit hc in
theorem withProfile_eq (hst : InService s.st) (hal : addr % 4 = 0)
    (f : Option (Sys cfg (Soft (L.crypto cfg.profile) × Unit)) → Bool × Option (Sys cfg _)) :
    withProfile (simSend ((device L a cfg.profile).env cfg) loc addr) (some s) f = f (some s) := by
  rw [withProfile, getProfile_sim hL ha hb hs.rounded hst hal]

omit hL ha hb hs hc in
theorem asks_one (f : U32) (n : Nat) (h : (f, n) ∈ [(internalInputInfo, Feature.internalInfo),
    (internalInputDice, Feature.internalDice), (inputAllowX509, Feature.x509)]) :
    AsksUnsupported st f ↔ ¬ st.supports n := by
  simp only [List.mem_cons, List.not_mem_nil, or_false, Prod.mk.injEq] at h
  rcases h with ⟨rfl, rfl⟩ | ⟨rfl, rfl⟩ | ⟨rfl, rfl⟩ <;>
    simp [AsksUnsupported, deriveNeeds, Bit, internalInputInfo, internalInputDice, inputAllowX509,
      DFlag.internalInfo, DFlag.internalDice, DFlag.retainParent, DFlag.allowX509, DFlag.exportCdi, DFlag.createCert,
      DFlag.recursive]

omit hL ha hb hs hc in
theorem certify_unsupported {d : CertifyCmd} {h : Handle} (hh : d.handle = h) (hf : d.format = 1 ∨ d.format = 0) :
    FirstRefusal (rules st loc (.certify d)) .argumentNotSupported ↔
      (∃ i, Names st h loc i) ∧ ¬ st.supports (if d.format = 0 then Feature.x509 else Feature.csr) := by
  have use : (∃ i, Names st h loc i) → LocalityInUse st loc := fun ⟨i, h⟩ => ⟨i, h.1, h.2.2⟩
  have key : FirstRefusal (rules st loc (.certify d)) .argumentNotSupported ↔ LocalityInUse st loc ∧
      (∃ i, Names st h loc i) ∧ ¬ st.supports (if d.format = 0 then Feature.x509 else Feature.csr) := by
    rcases hf with hf | hf <;>
      simp [rules, earlyRules, lateRules, lookupRules, FirstRefusal, hh, hf]
  rw [key]
  exact ⟨fun g => g.2, fun g => ⟨use g.1, g⟩⟩

/-! ### C87 -/

/-- C87: `TestWrongLocality`, speaking for some locality, passes exactly if that locality has no context and the
device has RotateContextHandle; it changes no context. -/
theorem C87_wrong_locality (hst : InService s.st) (hal : addr % 4 = 0) :
    ((testWrongLocality c (simSend ((device L a cfg.profile).env cfg) loc addr) (some s)).1 = true ↔
      ¬ LocalityInUse s.st loc ∧ s.st.supports Feature.rotate ∧ ¬ Bit cfg.disabled Feature.rotate) ∧
    ((testWrongLocality c (simSend ((device L a cfg.profile).env cfg) loc addr) (some s)).1 = true →
      ∃ s', (testWrongLocality c (simSend ((device L a cfg.profile).env cfg) loc addr) (some s)).2 = some s' ∧
        s'.st = s.st) := by
  unfold testWrongLocality
  rw [withProfile_eq hL ha hb hs hst hal]
  obtain ⟨h1, h2⟩ := five_locality (loc := loc) (h := Handle.default) hL ha hb hs hc hst hal s rfl
  exact ⟨h1, fun h => h2 (h1.1 h)⟩

/-- C87: `TestUnsupportedCommand` passes exactly if the device is built with RotateContextHandle and configured
without; it changes no context. -/
theorem C87_unsupported_command (hst : InService s.st) (hal : addr % 4 = 0) :
    ((testUnsupportedCommand c (simSend ((device L a cfg.profile).env cfg) loc addr) (some s)).1 = true ↔
      ¬ s.st.supports Feature.rotate ∧ ¬ Bit cfg.disabled Feature.rotate) ∧
    ((testUnsupportedCommand c (simSend ((device L a cfg.profile).env cfg) loc addr) (some s)).1 = true →
      ∃ s', (testUnsupportedCommand c (simSend ((device L a cfg.profile).env cfg) loc addr) (some s)).2 = some s' ∧
        s'.st = s.st) := by
  have s4 := single_rotate (e := .invalidCommand) (loc := loc) (h := Handle.default) (f := targetIsDefault)
    hL ha hb hs hc hst hal (.inl rfl)
  have s4 := s4.congr (Q := ¬ Bit cfg.disabled Feature.rotate ∧ ¬ s.st.supports Feature.rotate) (by
    simp [rules, earlyRules, lateRules, lookupRules, FirstRefusal])
  obtain ⟨h1, h2⟩ := ((Passes.cons s4 Passes.nil).congr (Q := ¬ s.st.supports Feature.rotate ∧
    ¬ Bit cfg.disabled Feature.rotate) (by tauto)) s rfl
  exact ⟨h1, fun h => h2 (h1.1 h)⟩

/-- C87: `TestUnsupportedCommandFlag` passes exactly if the default handle names a context and the device lacks
all of simulation contexts, requests, X.509, and the two internal inputs; it changes no context. -/
theorem C87_unsupported_flag (hst : InService s.st) (hal : addr % 4 = 0) :
    ((testUnsupportedCommandFlag c (simSend ((device L a cfg.profile).env cfg) loc addr) (some s)).1 = true ↔
      (∃ i, Names s.st Handle.default loc i) ∧ ¬ s.st.supports Feature.simulation ∧ ¬ s.st.supports Feature.csr ∧
      ¬ s.st.supports Feature.x509 ∧ ¬ s.st.supports Feature.internalInfo ∧ ¬ s.st.supports Feature.internalDice) ∧
    ((testUnsupportedCommandFlag c (simSend ((device L a cfg.profile).env cfg) loc addr) (some s)).1 = true →
      ∃ s', (testUnsupportedCommandFlag c (simSend ((device L a cfg.profile).env cfg) loc addr) (some s)).2 = some s' ∧
        s'.st = s.st) := by
  have he : RuleError .argumentNotSupported := by simp [RuleError]
  unfold testUnsupportedCommandFlag
  rw [withProfile_eq hL ha hb hs hst hal]
  have s1 := single_rules (e := .argumentNotSupported) (loc := loc) hL ha hb hs hc hst hal
    (Means.initialize initIsSimulation) trivial (by simp) (by simp) he
  obtain ⟨d2, a2, b2, s2⟩ := single_certify (e := .argumentNotSupported) (loc := loc) (h := Handle.default) (f := 1) hL ha hb hs hc hst hal he
  obtain ⟨d3, a3, b3, s3⟩ := single_certify (e := .argumentNotSupported) (loc := loc) (h := Handle.default) (f := 0) hL ha hb hs hc hst hal he
  obtain ⟨d4, a4, b4, s4⟩ := single_derive (e := .argumentNotSupported) (loc := loc) (h := Handle.default) (f := internalInputInfo) hL ha hb hs hc hst hal he (by decide)
  obtain ⟨d5, a5, b5, s5⟩ := single_derive (e := .argumentNotSupported) (loc := loc) (h := Handle.default) (f := internalInputDice) hL ha hb hs hc hst hal he (by decide)
  obtain ⟨d6, a6, b6, s6⟩ := single_derive (e := .argumentNotSupported) (loc := loc) (h := Handle.default) (f := inputAllowX509) hL ha hb hs hc hst hal he (by decide)
  have s1 := s1.congr (Q := ¬ s.st.supports Feature.simulation) (by
    have b1 : Bit initIsSimulation IFlag.simulation := by decide
    have b2 : ¬ Bit initIsSimulation IFlag.default := by decide
    simp [rules, earlyRules, lateRules, FirstRefusal, b1, b2])
  have s2 := s2.congr (certify_unsupported a2 (.inl b2))
  have s3 := s3.congr (certify_unsupported a3 (.inr b3))
  have s4 := s4.congr (Q := ¬ s.st.supports Feature.internalInfo) (by
    simp [rules, earlyRules, lateRules, lookupRules, FirstRefusal, b4, asks_one internalInputInfo Feature.internalInfo (by simp)])
  have s5 := s5.congr (Q := ¬ s.st.supports Feature.internalDice) (by
    simp [rules, earlyRules, lateRules, lookupRules, FirstRefusal, b5, asks_one internalInputDice Feature.internalDice (by simp)])
  have s6 := s6.congr (Q := ¬ s.st.supports Feature.x509) (by
    simp [rules, earlyRules, lateRules, lookupRules, FirstRefusal, b6, asks_one inputAllowX509 Feature.x509 (by simp)])
  obtain ⟨h1, h2⟩ := (Passes.cons s1 (Passes.cons s2 (Passes.cons s3 (Passes.cons s4 (Passes.cons s5 (Passes.cons s6
    Passes.nil)))))) s rfl
  simp only [b2, b3] at h1
  refine ⟨h1.trans ⟨fun ⟨g1, g2, g3, g4, g5, _⟩ => ⟨g2.1, g1, ?_, ?_, g4, g5⟩,
    fun ⟨g1, g2, g3, g4, g5, g6⟩ => ⟨g2, ⟨g1, ?_⟩, ⟨g1, ?_⟩, g5, g6, g4, trivial⟩⟩, fun h => h2 (by simpa only [b2, b3] using h1.1 h)⟩
  · simpa using g2.2
  · simpa using g3.2
  · simpa using g3
  · simpa using g4

/-- A simulation context is created in a free slot, with a handle that nobody else has. -/
theorem init_simulation {v : GoValue} {x : Option (Sys cfg (Soft (L.crypto cfg.profile) × Unit))} (hst : InService s.st)
    (hal : addr % 4 = 0)
    (h : c.call (simSend ((device L a cfg.profile).env cfg) loc addr) (.initialize initIsSimulation) (some s) = (.ok v, x)) :
    ∃ hd s1 i, v = .handle hd ∧ x = some s1 ∧ InService s1.st ∧ s.st.supports Feature.simulation ∧ Unused s.st hd ∧
      ¬ Live s.st i ∧ Resolves s1.st hd loc i ∧ (∀ j, j ≠ i → s1.st.at j = s.st.at j) ∧
      (∀ n, s1.st.supports n ↔ s.st.supports n) ∧ (s1.st.at i).parentIdx = ROOT ∧ (s1.st.at i).children = 0 := by
  obtain ⟨_, _, hd, s1, rfl, rfl, hst1, h', e1, i, f1, f2, f3, f4, _, f6⟩ :=
    (call_handle hL ha hb hs hc hst hal (.inl ⟨_, rfl⟩) (Means.initialize initIsSimulation) trivial).2 _ _ h
  cases e1
  obtain ⟨_, _, g1, g2⟩ := f6.resolve_left fun g => absurd g.1 (by decide)
  have hn : Names s1.st hd loc i := by unfold Names; rw [f2]; exact ⟨rfl, rfl, rfl⟩
  refine ⟨hd, s1, i, rfl, rfl, hst1, g1, g2, ?_, ⟨hn, fun j hj hj' => ?_⟩, f3, fun n => ?_, by rw [f2]; rfl, by rw [f2]; rfl⟩
  · exact fun h => h f1.2.1
  · obtain ⟨q1, q2, _⟩ := hj'
    rw [f3 j (Nat.ne_of_lt hj)] at q1 q2
    exact g2.2 j (active_at q1) q2
  · unfold State.supports; rw [f4.2.2.1]

/-- A context without parent and children is destroyed alone. -/
theorem destroy_root {h : Handle} {i : Nat} (hst : InService s.st) (hal : addr % 4 = 0) (hr : Resolves s.st h loc i)
    (hp : (s.st.at i).parentIdx = ROOT) (hch : (s.st.at i).children = 0) :
    ∃ s', c.call (simSend ((device L a cfg.profile).env cfg) loc addr) (.destroy h) (some s) = (.ok .nothing, some s') ∧
      ¬ Live s'.st i ∧ ∀ j, j ≠ i → s'.st.at j = s.st.at j := by
  have hno : NoRefusal (rules s.st loc (.destroy h)) := by
    intro x hx
    simp only [rules, earlyRules, lateRules, lookupRules, List.cons_append, List.nil_append, List.append_nil, List.mem_cons,
      List.not_mem_nil, or_false] at hx
    rcases hx with rfl | rfl
    · exact fun g => g ⟨i, hr.1.1, hr.1.2.2⟩
    · exact fun g => g ⟨i, hr.1⟩
  obtain ⟨reply, st', w', hx⟩ := (C58_able hL ha hb (s := s) hst hno).2 trivial
  have hx' := hx
  obtain ⟨i', q1, q2, _, q3⟩ := hx'
  obtain rfl := q1.unique hr
  obtain ⟨v, h1, h2⟩ := C61_served hL ha hb hs hc hst hal (Means.destroy h) trivial
    ⟨hno, hx, by rw [q3, handlesReply_length]; exact Nat.le_refl 12⟩
  obtain ⟨_, rfl⟩ := h2
  have hl : ∀ j, ¬ Lists s.st i' j := fun j => by simp [Lists, hch]
  have hd : ∀ j, DestroyedWith s.st i' j → j = i' := by
    rintro j (rfl | hj | hj)
    · rfl
    · exfalso
      induction hj with
      | child g => exact hl _ g
      | step _ _ ih => exact ih
    · exfalso
      induction hj with
      | parent g => exact g hp
      | step _ _ _ _ ih => exact ih
  refine ⟨_, h1, ?_, fun j hj => q2.untouched ?_⟩
  · unfold Live
    rw [q2.1 i' (.inl rfl)]
    exact fun g => g rfl
  · rintro (g | ⟨k, g1, g2⟩)
    · exact hj (hd j g)
    · obtain rfl := hd k g2
      have hf := C01_forest hst
      have g3 := hf.child_live j k g1
      rw [hp] at g3
      have := lt_of_live g3.1
      have := cfg.le64
      have : ROOT = j := g3.2.2
      unfold ROOT at this
      omega

/-- The bytes 0 to 15. -/
def counting : Handle := #v[0, 1, 2, 3, 4, 5, 6, 7, 8, 9, 10, 11, 12, 13, 14, 15]

/-- C87: `TestInvalidHandle` passes exactly if a simulation context can be created, the bytes 0 to 15 are the handle
neither of the new context nor of another one in the locality, and the device has RotateContextHandle; then it leaves
the contexts as they were. -/
theorem C87_invalid_handle {sim : Bool} (hsim : sim = true ↔ s.st.supports Feature.simulation) (hst : InService s.st)
    (hal : addr % 4 = 0) :
    ((testInvalidHandle c (simSend ((device L a cfg.profile).env cfg) loc addr) sim (some s)).1 = true ↔
      (∃ h s1, c.call (simSend ((device L a cfg.profile).env cfg) loc addr) (.initialize 0x80000000) (some s) =
        (.ok (.handle h), some s1) ∧ h ≠ counting) ∧
      (¬ ∃ i, Names s.st counting loc i) ∧ s.st.supports Feature.rotate ∧ ¬ Bit cfg.disabled Feature.rotate) ∧
    ((testInvalidHandle c (simSend ((device L a cfg.profile).env cfg) loc addr) sim (some s)).1 = true →
      ∃ s', (testInvalidHandle c (simSend ((device L a cfg.profile).env cfg) loc addr) sim (some s)).2 = some s' ∧
        ∀ j, Live s.st j ∨ Live s'.st j → s'.st.at j = s.st.at j) := by
  have hinv : invalidHandle = counting := by decide
  rw [← hinv]
  change (_ ↔ (∃ h s1, c.call (simSend ((device L a cfg.profile).env cfg) loc addr) (.initialize initIsSimulation) (some s) =
    (.ok (.handle h), some s1) ∧ _) ∧ _) ∧ _
  unfold testInvalidHandle withSimulation
  rcases hcall : c.call (simSend ((device L a cfg.profile).env cfg) loc addr) (.initialize initIsSimulation) (some s) with
    ⟨r, x⟩
  cases r with
  | error er =>
    refine ⟨iff_of_false ?_ ?_, fun h => ?_⟩
    · split <;> simp
    · rintro ⟨⟨h, s1, h1, _⟩, _⟩
      cases h1
    · split at h <;> simp at h
  | ok v =>
    obtain ⟨hd, s1, i, rfl, rfl, hst1, g1, g2, g3, g4, g5, g6, g7, g8⟩ := init_simulation hL ha hb hs hc hst hal hcall
    rw [if_pos (hsim.2 g1)]
    simp only [if_neg g2.1]
    obtain ⟨p1, p2⟩ := five_handle (loc := loc) (h := invalidHandle) hL ha hb hs hc hst1 hal s1 rfl
    rw [withProfile_eq hL ha hb hs hst1 hal]
    refine ⟨?_, fun hp => ?_⟩
    rotate_left
    · obtain ⟨s2, e2, e3⟩ := p2 (p1.1 hp)
      rw [e2]
      obtain ⟨s3, q1, q2, q3⟩ := destroy_root (s := s2) (loc := loc) (h := hd) (i := i) hL ha hb hs hc (e3 ▸ hst1) hal
        (by rw [e3]; exact g4) (by rw [e3]; exact g7) (by rw [e3]; exact g8)
      refine ⟨s3, by rw [q1], fun j hj => ?_⟩
      by_cases hji : j = i
      · subst hji
        exact (hj.elim g3 q2).elim
      · rw [q3 j hji, e3, g5 j hji]
    rw [p1, g6]
    have hnames : (∃ j, Names s1.st invalidHandle loc j) ↔ hd = invalidHandle ∨ ∃ j, Names s.st invalidHandle loc j := by
      constructor
      · rintro ⟨j, hj⟩
        by_cases hji : j = i
        · subst hji
          exact .inl (g4.1.2.1.symm.trans hj.2.1)
        · unfold Names at hj
          rw [g5 j hji] at hj
          exact .inr ⟨j, hj⟩
      · rintro (rfl | ⟨j, hj⟩)
        · exact ⟨i, g4.1⟩
        · have hji : j ≠ i := by
            rintro rfl
            exact g3 (by unfold Live; rw [hj.1]; simp)
          refine ⟨j, ?_⟩
          unfold Names
          rw [g5 j hji]
          exact hj
    rw [hnames]
    constructor
    · rintro ⟨_, q1, q2, q3⟩
      exact ⟨⟨hd, s1, rfl, fun h => q1 (.inl h)⟩, fun h => q1 (.inr h), q2, q3⟩
    · rintro ⟨⟨h, s1', q1, q2⟩, q3, q4, q5⟩
      cases q1
      exact ⟨⟨i, g4.1.1, g4.1.2.2⟩, fun h => h.elim q2 q3, q4, q5⟩

theorem init_again (hst : InService s.st) (hal : addr % 4 = 0) (hi : s.st.hasInitialized = true) :
    (testInitAgain c (simSend ((device L a cfg.profile).env cfg) loc addr) (some s)).1 = true ∧
      ∃ s', (testInitAgain c (simSend ((device L a cfg.profile).env cfg) loc addr) (some s)).2 = some s' ∧
        s'.st = s.st := by
  have b1 : Bit initIsDefault IFlag.default := by decide
  obtain ⟨s1, h1, e1⟩ := call_refused (e := .argumentNotSupported) (loc := loc) hL ha hb hs hc hst hal
    (Means.initialize initIsDefault) trivial (by simp) (by simp)
    (by simp [rules, earlyRules, lateRules, FirstRefusal, b1, hi])
  have hst1 : InService s1.st := by rw [e1]; exact hst
  have h0 : ∀ n, ¬ Bit 0#32 n := fun n => by simp [Bit]
  obtain ⟨s2, h2, e2⟩ := call_refused (e := .invalidArgument) (loc := loc) hL ha hb hs hc hst1 hal
    (Means.initialize 0) trivial (by simp) (by simp)
    (by simp [rules, earlyRules, lateRules, FirstRefusal, h0])
  have hx := expects_eq (c := c) (w := statusInvalidArgument) (k := .initialize 0)
    (simSend ((device L a cfg.profile).env cfg) loc addr) (some s1)
  rw [h2] at hx
  unfold testInitAgain
  rw [h1]
  refine ⟨?_, s2, hx.2, e2.trans e1⟩
  simp only [Bool.and_eq_true]
  exact ⟨by decide, hx.1.2 rfl⟩

/-- C87: `testInitContext` passes exactly if there has been a default context or a slot is free for one; then
it does nothing in the first case, and creates the default context in the second. -/
theorem C87_init {isInit : Bool} (hini : isInit = s.st.hasInitialized) (hst : InService s.st) (hal : addr % 4 = 0) :
    ((testInitContext c (simSend ((device L a cfg.profile).env cfg) loc addr) isInit (some s)).1 = true ↔
      s.st.hasInitialized = true ∨ ∃ i, i < cfg.maxHandles ∧ ¬ Live s.st i) ∧
    ((testInitContext c (simSend ((device L a cfg.profile).env cfg) loc addr) isInit (some s)).1 = true →
      ∃ s', (testInitContext c (simSend ((device L a cfg.profile).env cfg) loc addr) isInit (some s)).2 = some s' ∧
        (s.st.hasInitialized = true ∧ s'.st = s.st ∨
         s.st.hasInitialized = false ∧ InitEffect s.st 0x40000000 loc Handle.default s'.st)) := by
  have b1 : Bit initIsDefault IFlag.default := by decide
  have b2 : ¬ Bit initIsDefault IFlag.simulation := by decide
  unfold testInitContext
  cases hi : s.st.hasInitialized with
  | true =>
    rw [hini, hi, if_pos rfl]
    obtain ⟨q1, s', q2, q3⟩ := init_again (loc := loc) hL ha hb hs hc hst hal hi
    exact ⟨iff_of_true q1 (.inl rfl), fun _ => ⟨s', q2, .inl ⟨rfl, q3⟩⟩⟩
  | false =>
    rw [hini, hi, if_neg (by simp)]
    have hno : NoRefusal (rules s.st loc (.init initIsDefault)) ↔ ∃ i, i < cfg.maxHandles ∧ ¬ Live s.st i := by
      simp [NoRefusal, rules, earlyRules, lateRules, b1, b2, hi]
    obtain ⟨k1, k2⟩ := call_handle (loc := loc) hL ha hb hs hc hst hal (.inl ⟨_, rfl⟩) (Means.initialize initIsDefault) trivial
    simp only [Bool.false_eq_true, false_or, ← hno]
    rcases hcall : c.call (simSend ((device L a cfg.profile).env cfg) loc addr) (.initialize initIsDefault) (some s) with
      ⟨r, x⟩
    cases r with
    | error er =>
      refine ⟨iff_of_false (by simp) fun hn => ?_, fun h => by simp at h⟩
      obtain ⟨_, _, h1⟩ := k1 ⟨hn, .inl b1⟩
      rw [hcall] at h1
      cases h1
    | ok v =>
      obtain ⟨q1, _, hd, s1, rfl, rfl, hst1, h', e1, heff⟩ := k2 _ _ hcall
      cases e1
      have heff' : InitEffect s.st initIsDefault loc hd s1.st := heff
      obtain ⟨i, f1, f2, f3, f4, f5, f6⟩ := heff
      have hd0 : hd = Handle.default := (f6.resolve_right fun g => b2 g.1).2.2.2
      simp only [if_pos hd0]
      obtain ⟨y1, s', y2, y3⟩ := init_again (loc := loc) hL ha hb hs hc hst1 hal (f5.2 (.inr b1))
      exact ⟨iff_of_true y1 q1, fun _ => ⟨s', y2, .inr ⟨trivial, by rw [y3, ← hd0]; exact heff'⟩⟩⟩

omit hL ha hb hs hc in
theorem rotate_allowed {h : Handle} {f : U32} (hf : ¬ Bit f RFlag.targetIsDefault) :
    NoRefusal (rules st loc (.rotate ⟨h, f⟩)) ↔ st.supports Feature.rotate ∧ ∃ i, Names st h loc i := by
  have use : (∃ i, Names st h loc i) → LocalityInUse st loc := fun ⟨i, h⟩ => ⟨i, h.1, h.2.2⟩
  constructor
  · intro hn
    refine ⟨Classical.byContradiction fun g => hn (¬ st.supports Feature.rotate, .invalidCommand) (by
      simp [rules, earlyRules]) g, ?_⟩
    exact Classical.byContradiction fun g => hn (¬ ∃ i, Names st h loc i, .invalidHandle) (by
      simp [rules, earlyRules, lookupRules]) g
  · rintro ⟨h1, h2⟩ x hx
    simp only [rules, earlyRules, lateRules, lookupRules, List.cons_append, List.nil_append, List.append_nil, List.mem_cons,
      List.not_mem_nil, or_false] at hx
    rcases hx with rfl | rfl | rfl | rfl
    · exact fun g => g h1
    · exact fun g => g (use h2)
    · exact fun g => g h2
    · exact fun g => hf g.1

/-- C87: `TestRotateContextHandle` passes exactly if the device has RotateContextHandle, the default handle names a
context, which is the only one in the locality, and a new handle can be drawn; it leaves the contexts as they were. -/
theorem C87_rotate (hst : InService s.st) (hal : addr % 4 = 0) :
    ((testRotate c (simSend ((device L a cfg.profile).env cfg) loc addr) (some s)).1 = true ↔
      s.st.supports Feature.rotate ∧ ¬ Bit cfg.disabled Feature.rotate ∧
      (∃ i, Names s.st Handle.default loc i ∧
        ∀ j, (s.st.at j).state = .active → (s.st.at j).locality = loc → j = i) ∧
      CanDraw (L.crypto cfg.profile) s.st s.w.1.rng) ∧
    ((testRotate c (simSend ((device L a cfg.profile).env cfg) loc addr) (some s)).1 = true →
      ∃ s', (testRotate c (simSend ((device L a cfg.profile).env cfg) loc addr) (some s)).2 = some s' ∧
        ∀ j, s'.st.at j = s.st.at j) := by
  have h0 : ¬ Bit (0 : U32) RFlag.targetIsDefault := by decide
  have hb1 : Bit targetIsDefault RFlag.targetIsDefault := by decide
  by_cases hd : Bit cfg.disabled Feature.rotate
  · have := C61_deadly (addr := addr) (loc := loc) (k := .rotate Handle.default 0) hL ha hb hs hc hst id hd
    unfold testRotate
    rw [this]
    exact ⟨⟨fun h => by simp at h, fun h => absurd hd h.2.1⟩, fun h => by simp at h⟩
  obtain ⟨k1, k2⟩ := call_handle (loc := loc) (cmd := .rotate ⟨Handle.default, 0⟩) hL ha hb hs hc hst hal
    (.inr ⟨_, _, rfl⟩) (.rotate ..) hd
  unfold testRotate
  rcases hcall : c.call (simSend ((device L a cfg.profile).env cfg) loc addr) (.rotate Handle.default 0) (some s) with
    ⟨r, x⟩
  cases r with
  | error er =>
    refine ⟨iff_of_false (by simp) ?_, fun h => by simp at h⟩
    rintro ⟨q1, _, ⟨i, q2, _⟩, q3⟩
    obtain ⟨_, _, h1⟩ := k1 ⟨(rotate_allowed h0).2 ⟨q1, i, q2⟩, .inr q3⟩
    rw [hcall] at h1
    cases h1
  | ok v =>
    obtain ⟨n1, n2, h1, s1, rfl, rfl, hst1, h', e1, heff⟩ := k2 _ _ hcall
    cases e1
    obtain ⟨hsup, _⟩ := (rotate_allowed h0).1 n1
    obtain ⟨i, r1, r2, r3, r4, r5⟩ := rename_clash h0 heff
    have hsup1 : s1.st.supports Feature.rotate := by unfold State.supports; rw [r2.2.2.1.2.2.1]; exact hsup
    obtain ⟨z1, z2⟩ := rotate_back hL ha hb hs hc hst1 hal hd hsup1 r4
    dsimp only
    by_cases hcl : ∃ j, j ≠ i ∧ (s.st.at j).state = .active ∧ (s.st.at j).locality = loc
    · obtain ⟨s2, z3, _⟩ := z1 (r5.2 hcl)
      rw [z3]
      refine ⟨iff_of_false (by simp) ?_, fun h => by simp at h⟩
      rintro ⟨_, _, ⟨i', q1, q2⟩, _⟩
      obtain ⟨j, y1, y2, y3⟩ := hcl
      exact y1 ((q2 j y2 y3).trans (q2 i r1.1.1 r1.1.2.2).symm)
    · obtain ⟨h2, s2, z3⟩ := z2 fun g => hcl (r5.1 g)
      rw [z3]
      obtain ⟨_, _, h2', s2', y1, y2, hst2, _, e2, i', t1, t2, t3⟩ :=
        (call_handle (loc := loc) (cmd := .rotate ⟨h1, targetIsDefault⟩) hL ha hb hs hc hst1 hal
          (.inr ⟨_, _, rfl⟩) (.rotate ..) hd).2 _ _ z3
      cases e2
      cases y1
      cases y2
      obtain rfl := t1.unique r4
      obtain ⟨_, rfl, _⟩ := t3.resolve_right fun g => g.1 hb1
      have hn2 : Names s2.st Handle.default loc i' := by
        unfold Names
        rw [t2.1]
        exact ⟨r4.1.1, rfl, r4.1.2.2⟩
      have hr2 : Resolves s2.st Handle.default loc i' := by
        refine ⟨hn2, fun j hj ⟨w1, w2, w3⟩ => ?_⟩
        rw [t2.2.1 j (Nat.ne_of_lt hj), r2.2.1 j (Nat.ne_of_lt hj)] at w1 w3
        exact hcl ⟨j, Nat.ne_of_lt hj, w1, w3⟩
      have hsup2 : s2.st.supports Feature.rotate := by unfold State.supports; rw [t2.2.2.1.2.2.1]; exact hsup1
      obtain ⟨s3, z4, e4⟩ := (rotate_back hL ha hb hs hc hst2 hal hd hsup2 hr2).1 (.inl ⟨i', hn2⟩)
      have hx := expects_eq (c := c) (w := statusInvalidArgument) (k := .rotate Handle.default targetIsDefault)
        (simSend ((device L a cfg.profile).env cfg) loc addr) (some s2)
      rw [z4] at hx
      refine ⟨iff_of_true ?_ ⟨hsup, hd, ⟨i', r1.1, fun j w1 w2 => ?_⟩, n2.resolve_left h0⟩, fun _ => ⟨s3, hx.2, fun j => ?_⟩⟩
      · simp only [Bool.and_eq_true]
        exact ⟨⟨by simpa using r3.1, by simp⟩, hx.1.2 rfl⟩
      · exact Classical.byContradiction fun hne => hcl ⟨j, hne, w1, w2⟩
      · rw [e4]
        by_cases hj : j = i'
        · subst hj
          rw [t2.1, r2.1]
          have := r1.1.2.1
          rcases hat : s.st.at j with ⟨⟩
          rw [hat] at this
          simp only at this
          subst this
          rfl
        · rw [t2.2.1 j hj, r2.2.1 j hj]

/-- C87: `TestRotateContextHandleSimulation` passes exactly if a simulation context can be created and its handle
rotated, and there was another context in the locality before: a device without one fails the test.  If it passes
it leaves the contexts as they were. -/
theorem C87_rotate_simulation {sim : Bool} (hsim : sim = true ↔ s.st.supports Feature.simulation) (hst : InService s.st)
    (hal : addr % 4 = 0) :
    ((testRotateSimulation c (simSend ((device L a cfg.profile).env cfg) loc addr) sim (some s)).1 = true ↔
      (∃ h s1 h1 s2, c.call (simSend ((device L a cfg.profile).env cfg) loc addr) (.initialize 0x80000000) (some s) =
          (.ok (.handle h), some s1) ∧
        c.call (simSend ((device L a cfg.profile).env cfg) loc addr) (.rotate h 0) (some s1) = (.ok (.handle h1), some s2)) ∧
      LocalityInUse s.st loc) ∧
    ((testRotateSimulation c (simSend ((device L a cfg.profile).env cfg) loc addr) sim (some s)).1 = true →
      ∃ s', (testRotateSimulation c (simSend ((device L a cfg.profile).env cfg) loc addr) sim (some s)).2 = some s' ∧
        ∀ j, Live s.st j ∨ Live s'.st j → s'.st.at j = s.st.at j) := by
  change (_ ↔ (∃ h s1 h1 s2, c.call (simSend ((device L a cfg.profile).env cfg) loc addr) (.initialize initIsSimulation)
    (some s) = (.ok (.handle h), some s1) ∧ _) ∧ _) ∧ _
  have h0 : ¬ Bit (0 : U32) RFlag.targetIsDefault := by decide
  unfold testRotateSimulation withSimulation
  rcases hcall : c.call (simSend ((device L a cfg.profile).env cfg) loc addr) (.initialize initIsSimulation) (some s) with
    ⟨r, x⟩
  cases r with
  | error er =>
    refine ⟨iff_of_false ?_ ?_, fun h => ?_⟩
    · split <;> simp
    · rintro ⟨⟨h, s1, _, _, h1, _⟩, _⟩
      cases h1
    · split at h <;> simp at h
  | ok v =>
    obtain ⟨hh, s1, i, rfl, rfl, hst1, g1, g2, g3, g4, g5, g6, g7, g8⟩ := init_simulation hL ha hb hs hc hst hal hcall
    rw [if_pos (hsim.2 g1)]
    simp only [if_neg g2.1]
    by_cases hd : Bit cfg.disabled Feature.rotate
    · have hdead := C61_deadly (addr := addr) (loc := loc) (k := .rotate hh 0) hL ha hb hs hc hst1 id hd
      rw [hdead]
      refine ⟨iff_of_false (by simp) ?_, fun h => by simp at h⟩
      rintro ⟨⟨_, _, _, _, q1, q2⟩, _⟩
      cases q1
      rw [hdead] at q2
      cases q2
    rcases hcall1 : c.call (simSend ((device L a cfg.profile).env cfg) loc addr) (.rotate hh 0) (some s1) with ⟨r, x⟩
    cases r with
    | error er =>
      refine ⟨iff_of_false (by simp) ?_, fun h => by simp at h⟩
      rintro ⟨⟨_, _, _, _, q1, q2⟩, _⟩
      cases q1
      rw [hcall1] at q2
      cases q2
    | ok v =>
      obtain ⟨n1, n2, h1, s2, rfl, rfl, hst2, h', e1, heff⟩ :=
        (call_handle (loc := loc) (cmd := .rotate ⟨hh, 0⟩) hL ha hb hs hc hst1 hal
          (.inr ⟨_, _, rfl⟩) (.rotate ..) hd).2 _ _ hcall1
      cases e1
      obtain ⟨hsup, _⟩ := (rotate_allowed h0).1 n1
      obtain ⟨i', r1, r2, r3, r4, r5⟩ := rename_clash h0 heff
      obtain rfl := r1.unique g4
      have hsup2 : s2.st.supports Feature.rotate := by unfold State.supports; rw [r2.2.2.1.2.2.1]; exact hsup
      obtain ⟨z1, z2⟩ := rotate_back hL ha hb hs hc hst2 hal hd hsup2 r4
      have hcl : (∃ j, j ≠ i' ∧ (s1.st.at j).state = .active ∧ (s1.st.at j).locality = loc) ↔ LocalityInUse s.st loc := by
        constructor
        · rintro ⟨j, q1, q2, q3⟩
          rw [g5 j q1] at q2 q3
          exact ⟨j, q2, q3⟩
        · rintro ⟨j, q2, q3⟩
          have hji : j ≠ i' := by
            rintro rfl
            exact g3 (by unfold Live; rw [q2]; simp)
          exact ⟨j, hji, by rw [g5 j hji]; exact ⟨q2, q3⟩⟩
      have hx := expects_eq (c := c) (w := statusInvalidArgument) (k := .rotate h1 targetIsDefault)
        (simSend ((device L a cfg.profile).env cfg) loc addr) (some s2)
      simp only [Bool.and_eq_true]
      rw [hx.1]
      refine ⟨?_, fun ⟨_, q⟩ => ?_⟩
      rotate_left
      · have hcl' : LocalityInUse s.st loc := Classical.byContradiction fun hn => by
          obtain ⟨_, _, z3⟩ := z2 fun g => hn (hcl.1 (r5.1 g))
          rw [z3] at q
          cases q
        obtain ⟨s3, z3, e3⟩ := z1 (r5.2 (hcl.2 hcl'))
        have z4 := hx.2
        rw [z3] at z4
        obtain ⟨s4, q1, q2, q3⟩ := destroy_root (s := s3) (loc := loc) (h := h1) (i := i') hL ha hb hs hc (e3 ▸ hst2) hal
          (by rw [e3]; exact r4) (by rw [e3, r2.1]; exact g7) (by rw [e3, r2.1]; exact g8)
        refine ⟨s4, by rw [z4, q1], fun j hj => ?_⟩
        by_cases hji : j = i'
        · subst hji
          exact (hj.elim g3 q2).elim
        · rw [q3 j hji, e3, r2.2.1 j hji, g5 j hji]
      constructor
      · rintro ⟨_, q⟩
        refine ⟨⟨hh, s1, h1, s2, rfl, hcall1⟩, Classical.byContradiction fun hn => ?_⟩
        obtain ⟨_, _, z3⟩ := z2 fun g => hn (hcl.1 (r5.1 g))
        rw [z3] at q
        cases q
      · rintro ⟨_, q⟩
        obtain ⟨_, z3, _⟩ := z1 (r5.2 (hcl.2 q))
        exact ⟨by simpa using r3.1, by rw [z3]⟩

omit hL ha hb hs hc in
/-- The contexts of a simulator that has just been started. -/
theorem fresh_contexts (a : Artifact) {args : SimArgs}
    (h : AfterDefaultInit args.support args.flags 0 s.st) :
    s.st.hasInitialized = true ∧ ∃ i, Names s.st Handle.default 0 i ∧ ∀ j, j ≠ i → (s.st.at j).state = .inactive := by
  obtain ⟨n, s', h1, h2⟩ := h _ ((device L a cfg.profile).env cfg) s.w (List.replicate 28 0) (by simp)
  obtain ⟨_, ⟨h', _, i, f1, f2, f3, f4, f5, f6⟩, _⟩ := C52_success_effect
    (s := ⟨State.new cfg args.support args.flags, s.w, List.replicate 28 0⟩) (.reached (.new _ _)) (digests_true _) h1
  rw [← h2]
  have b1 : Bit (0x40000000 : U32) IFlag.default := by decide
  refine ⟨f5.2 (.inr b1), i, ?_, fun j hj => ?_⟩
  · have hd0 : h' = Handle.default := (f6.resolve_right fun g => g.2.1 b1).2.2.2
    unfold Names
    rw [f2, hd0]
    exact ⟨rfl, rfl, rfl⟩
  · rw [f3 j hj, at_new]
    rfl

omit hL ha hb hs hc in
theorem asks_iff (g : SimArgs) : (g.asks Feature.simulation ↔ g.simulation = true) ∧ (g.asks Feature.rotate ↔ g.rotate = true) ∧
    (g.asks Feature.x509 ↔ g.x509 = true) ∧ (g.asks Feature.csr ↔ g.csr = true) ∧
    (g.asks Feature.internalInfo ↔ g.internalInfo = true) ∧ (g.asks Feature.internalDice ↔ g.internalDice = true) ∧
    (g.asks Feature.autoInit ↔ g.autoInit = true) := by
  simp [SimArgs.asks, Feature.simulation, Feature.rotate, Feature.x509, Feature.csr, Feature.internalInfo,
    Feature.internalDice, Feature.autoInit, Feature.recursive, Feature.retainParent, Feature.cdiExport, eq_comm (a := true)]

/-- C87: on a simulator that has just been started, with RotateContextHandle and automatic initialisation left in the
build, the tests pass for every command line that asks for the features which the suite says they need; only
`TestRotateContextHandleSimulation` needs one more, automatic initialisation, and fails without it. -/
theorem C87_fresh (g : SimArgs) (hal : addr % 4 = 0) (hd : ¬ Bit cfg.disabled Feature.rotate)
    (hda : ¬ Bit cfg.disabled Feature.autoInit) :
    let s : Sys cfg (Soft (L.crypto cfg.profile) × Unit) := (simStart cfg L a g).2
    let t := fun loc => simSend ((device L a cfg.profile).env cfg) loc addr
    (g.rotate = true → ∀ loc, loc ≠ 0 → (testWrongLocality c (t loc) (some s)).1 = true) ∧
    (g.rotate = false → ∀ loc, (testUnsupportedCommand c (t loc) (some s)).1 = true) ∧
    (g.autoInit = true → g.simulation = false → g.csr = false → g.x509 = false → g.internalInfo = false →
      g.internalDice = false → (testUnsupportedCommandFlag c (t 0) (some s)).1 = true) ∧
    (∀ loc, (testInitContext c (t loc) s.st.hasInitialized (some s)).1 = true) ∧
    (g.autoInit = true → g.rotate = true → CanDraw (L.crypto cfg.profile) s.st s.w.1.rng →
      (testRotate c (t 0) (some s)).1 = true) ∧
    (g.autoInit = false → ∀ loc, (testRotateSimulation c (t loc) (decide (s.st.supports Feature.simulation)) (some s)).1 =
      false) := by
  obtain ⟨s, h1, hr, hsup, _, _, hno, hyes⟩ := C59_start (cfg := cfg) (L := L) (a := a) g
  rw [h1]
  intro s' t
  obtain ⟨q1, q2, q3, q4, q5, q6, q7⟩ := asks_iff g
  have hst : InService s.st := .reached hr
  have hauto : g.autoInit = true → s.st.hasInitialized = true ∧ ∃ i, Names s.st Handle.default 0 i ∧
      ∀ j, j ≠ i → (s.st.at j).state = .inactive := fun h => by
    have := (hsup Feature.autoInit).2 ⟨q7.2 h, hda⟩
    exact fresh_contexts a (hyes this)
  have hnone : g.autoInit = false → ∀ i, (s.st.at i).state = .inactive := fun h =>
    hno fun h' => by have := q7.1 ((hsup _).1 h').1; rw [h] at this; cases this
  have huse : ∀ loc, loc ≠ 0 → ¬ LocalityInUse s.st loc := by
    rintro loc hl ⟨i, u1, u2⟩
    cases hg : g.autoInit with
    | true =>
      obtain ⟨_, j, v1, v2⟩ := hauto hg
      by_cases hij : i = j
      · subst hij
        exact hl (u2.symm.trans v1.2.2)
      · rw [v2 i hij] at u1; cases u1
    | false => rw [hnone hg i] at u1; cases u1
  have off : ∀ {n} {b : Bool}, (g.asks n ↔ b = true) → b = false → ¬ s.st.supports n := by
    rintro n b w1 rfl w2
    cases w1.1 ((hsup n).1 w2).1
  refine ⟨fun w loc hl => ?_, fun w loc => ?_, fun w1 w2 w3 w4 w5 w6 => ?_, fun loc => ?_, fun w1 w2 w3 => ?_, fun w loc => ?_⟩
  · exact (C87_wrong_locality hL ha hb hs hc hst hal).1.2 ⟨huse loc hl, (hsup _).2 ⟨q2.2 w, hd⟩, hd⟩
  · exact (C87_unsupported_command hL ha hb hs hc hst hal).1.2 ⟨off q2 w, hd⟩
  · obtain ⟨_, i, v1, _⟩ := hauto w1
    exact (C87_unsupported_flag hL ha hb hs hc hst hal).1.2 ⟨⟨i, v1⟩, off q1 w2, off q4 w3, off q3 w4, off q5 w5, off q6 w6⟩
  · refine (C87_init hL ha hb hs hc rfl hst hal).1.2 ?_
    cases hg : g.autoInit with
    | true => exact .inl (hauto hg).1
    | false => exact .inr ⟨0, cfg.pos, fun h => h (hnone hg 0)⟩
  · obtain ⟨_, i, v1, v2⟩ := hauto w1
    refine (C87_rotate hL ha hb hs hc hst hal).1.2 ⟨(hsup _).2 ⟨q2.2 w2, hd⟩, hd, ⟨i, v1, fun j u1 _ => ?_⟩, w3⟩
    refine Classical.byContradiction fun hne => ?_
    rw [v2 j hne] at u1
    cases u1
  · refine Bool.eq_false_iff.2 fun h => ?_
    obtain ⟨_, i, u1, _⟩ := (C87_rotate_simulation hL ha hb hs hc (by simp [s']) hst hal).1.1 h
    rw [hnone w i] at u1
    cases u1

end

/-! ### Concrete cases -/
namespace Ref

/-- A client connects to a simulator that has just been started with these features and runs a test from the
locality. -/
def runs (g : GoSupport) (loc : U32) (test : Client → Transport (Option (Sys std (Soft (lib.crypto std.profile) × Unit))) →
    Option (Sys std (Soft (lib.crypto std.profile) × Unit)) →
    Bool × Option (Sys std (Soft (lib.crypto std.profile) × Unit))) : Bool :=
  match newClient wires 3 (some (simStart std lib cert g.args).2) with
  | (.ok c, x) => (test c (simSend ((device lib cert std.profile).env std) loc 8) x).1
  | _ => false

/-- The suite's default target: all features that its tests need. -/
def target : GoSupport := { features with autoInit := true }

/-- A target with automatic initialisation, and perhaps RotateContextHandle, only. -/
def bare (rotate : Bool) : GoSupport :=
  ⟨false, false, true, rotate, false, false, false, false, false, false, false, false⟩

/-- Evaluated: each test passes on the target that the suite chose for it, -/
example : runs target 1 testWrongLocality = true ∧ runs target 0 (testInvalidHandle · · true) = true ∧
    runs target 0 testRotate = true ∧ runs target 0 (testRotateSimulation · · true) = true ∧
    runs target 0 (testInitContext · · true) = true ∧ runs features 5 (testInitContext · · false) = true ∧
    runs (bare false) 0 testUnsupportedCommand = true ∧ runs (bare true) 0 testUnsupportedCommandFlag = true := by
  decide +kernel

/-- and fails where the theorems say so: with the feature, from a locality without context, and (`features` has no
automatic initialisation) with no other context than the one to rotate. -/
example : runs target 0 testUnsupportedCommand = false ∧ runs (bare true) 1 testUnsupportedCommandFlag = false ∧
    runs target 1 testRotate = false ∧ runs features 0 (testRotateSimulation · · true) = false ∧
    runs features 0 (testInvalidHandle · · true) = true := by decide +kernel

/-- Non-vacuity for C87: a client that connected to a simulator, the tests on the targets that the suite chose for
them, and two cases where a test fails. -/
example : ∃ c : Client, Connected lib cert std c ∧
    (∀ loc, loc ≠ 0 → (testWrongLocality c (simSend ((device lib cert std.profile).env std) loc 8)
      (some (simStart std lib cert target.args).2)).1 = true) ∧
    (testUnsupportedCommand c (simSend ((device lib cert std.profile).env std) 0 8)
      (some (simStart std lib cert (bare false).args).2)).1 = true ∧
    (testUnsupportedCommandFlag c (simSend ((device lib cert std.profile).env std) 0 8)
      (some (simStart std lib cert (bare true).args).2)).1 = true ∧
    (testInitContext c (simSend ((device lib cert std.profile).env std) 5 8) (simStart std lib cert features.args).2.st.hasInitialized
      (some (simStart std lib cert features.args).2)).1 = true ∧
    (testRotateSimulation c (simSend ((device lib cert std.profile).env std) 7 8)
      (decide ((simStart std lib cert features.args).2.st.supports Feature.simulation))
      (some (simStart std lib cert features.args).2)).1 = false := by
  obtain ⟨s0, hs0, hr0, _⟩ := C59_start (cfg := std) (L := lib) (a := cert) features.args
  obtain ⟨c, h1, _⟩ := (C62_connects_partial (loc := 3) (addr := 8) lib_total cert_fit std_built std_standard
    (.reached hr0) (by decide) (wireProfile std.profile)).1 rfl
  have hcon : Connected lib cert std c := ⟨_, _, _, _, _, .reached hr0, by decide, h1⟩
  have fresh := fun g => C87_fresh (addr := 8) lib_total cert_fit std_built std_standard hcon g (by decide) (by decide)
      (by decide)
  exact ⟨c, hcon, (fresh target.args).1 rfl, (fresh (bare false).args).2.1 rfl 0,
    (fresh (bare true).args).2.2.1 rfl rfl rfl rfl rfl rfl, (fresh features.args).2.2.2.1 5,
    (fresh features.args).2.2.2.2.2 rfl 7⟩

end Ref
end Dpe
