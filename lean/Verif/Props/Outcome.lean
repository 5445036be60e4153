import Verif.Proofs.Outcome
import Verif.Props.Crates
/-
C67: how the commands of the reference device fail.

`StdRefuses` and `StdFails` (Spec/Outcome) say for every command on the reference device when it fails, with
which error, and what it leaves behind: the state, the response buffer, the random number generator and
the crypto state.
-/
namespace Dpe
section
variable {cfg : Cfg} {L : Lib} {a : Artifact} {loc : U32} {c : Cmd cfg} {n : Nat} {e : Err}
  {s s' : Sys cfg (Soft (L.crypto cfg.profile) × Unit)}

/-- C67: on the reference device, and with a buffer of at least 35392 bytes, a command fails exactly as
`StdRefuses` says or, if it is not refused, exactly as `StdFails` says. -/
theorem C67_exact (hL : L.Total) (ha : a.Fit) (hb : Built cfg a) (hst : InService s.st)
    (hbuf : 35392 ≤ s.out.length) :
    exec ((device L a cfg.profile).env cfg) c loc s = (.error e, s') ↔
      ∃ f, (StdRefuses (L.crypto cfg.profile) s.st loc s.w.1 s.out c f ∨
          NoRefusal (rules s.st loc c) ∧ StdFails L a s.st loc s.w.1 s.out c f) ∧
        e = f.error ∧ s' = ⟨f.state, (f.crypto, ()), f.buffer⟩ := by
  have fwd : ∀ f, (StdRefuses (L.crypto cfg.profile) s.st loc s.w.1 s.out c f ∨
      NoRefusal (rules s.st loc c) ∧ StdFails L a s.st loc s.w.1 s.out c f) →
      exec ((device L a cfg.profile).env cfg) c loc s =
        (.error f.error, ⟨f.state, (f.crypto, ()), f.buffer⟩) := by
    rintro f (h | ⟨hno, h⟩)
    · exact refuses_run hst h
    · exact fails_run hst ha hb hL hbuf hno h
  constructor
  · intro h
    rcases refused_or_not s.st loc s.w.1 s.out c with ⟨f, hf⟩ | hno
    · have := fwd f (.inl hf)
      rw [h] at this
      obtain ⟨h1, h2⟩ := Prod.mk.inj this
      exact ⟨f, .inl hf, Except.error.inj h1, h2⟩
    · rcases served_or_fails (w := s.w.1) (out := s.out) hst ha hb hL hno with ⟨reply, st', w', hs⟩ | ⟨f, hf⟩
      · obtain ⟨n, s2, h2⟩ := (C58_succeeds (c := c) (loc := loc) hL ha hb hst hbuf).2
          ⟨hno, (C58_able hL ha hb hst hno).1 ⟨reply, st', (w', ()),
            (std_iff ha hb hL hno s.w reply st' (w', ())).2 hs⟩⟩
        rw [h] at h2
        cases h2
      · have := fwd f (.inr ⟨hno, hf⟩)
        rw [h] at this
        obtain ⟨h1, h2⟩ := Prod.mk.inj this
        exact ⟨f, .inr ⟨hno, hf⟩, Except.error.inj h1, h2⟩
  · rintro ⟨f, hf, rfl, rfl⟩
    exact fwd f hf

/-- C67, together with C66: a command that is not refused either is served or fails, and not both. -/
theorem C67_dichotomy (hL : L.Total) (ha : a.Fit) (hb : Built cfg a) (hst : InService s.st)
    (hbuf : 35392 ≤ s.out.length) (hno : NoRefusal (rules s.st loc c)) :
    (∃ reply st' w', StdServes L a s.st loc s.w.1 c reply st' w') ↔
      ¬ ∃ f, StdFails L a s.st loc s.w.1 s.out c f := by
  constructor
  · rintro ⟨reply, st', w', hs⟩ ⟨f, hf⟩
    obtain ⟨n, s2, h2⟩ := (C58_succeeds (c := c) (loc := loc) hL ha hb hst hbuf).2
      ⟨hno, (C58_able hL ha hb hst hno).1 ⟨reply, st', (w', ()),
        (std_iff ha hb hL hno s.w reply st' (w', ())).2 hs⟩⟩
    have := (C67_exact (c := c) (loc := loc) hL ha hb hst hbuf).2 ⟨f, .inr ⟨hno, hf⟩, rfl, rfl⟩
    rw [h2] at this
    cases this
  · intro h
    exact (served_or_fails (w := s.w.1) (out := s.out) hst ha hb hL hno).resolve_right h

/-- C67: the only errors of a command that is not refused. -/
theorem C67_errors (hL : L.Total) (ha : a.Fit) (hb : Built cfg a) (hst : InService s.st)
    (hbuf : 35392 ≤ s.out.length) (hno : NoRefusal (rules s.st loc c))
    (h : exec ((device L a cfg.profile).env cfg) c loc s = (.error e, s')) :
    (e = .internal .handleGenerationExhausted ∧ c.draws) ∨
    (e = .platform .certificateChainError ∧ ∃ k, c = .chain k) ∨
    (e = .crypto (.cryptoLibError 1) ∧ cfg.profile ≠ .mldsa87 ∧
      ((∃ k, c = .sign k) ∨ (∃ k, c = .certify k) ∨ ∃ k, c = .derive k ∧ Bit k.flags DFlag.exportCdi)) ∨
    (e = .crypto .mismatchedAlgorithm ∧ ∃ k, c = .sign k ∧ ¬ k.Suits cfg.profile) ∨
    ((e = .crypto .exportedCdiHandleDuplicateCdi ∨ e = .crypto .exportedCdiHandleLimitExceeded) ∧
      ∃ k, c = .derive k ∧ Bit k.flags DFlag.exportCdi) ∨
    (e = .invalidArgument ∧ ∃ k, c = .certify k ∧ k.variant ≠ cfg.profile) := by
  obtain ⟨f, hf | ⟨_, hf⟩, rfl, rfl⟩ := (C67_exact hL ha hb hst hbuf).1 h
  · exact absurd hno hf.not_allowed
  · cases c with
    | getProfile => exact hf.elim
    | destroy => exact hf.elim
    | chain k => obtain ⟨_, rfl⟩ := hf; exact .inr (.inl ⟨rfl, k, rfl⟩)
    | init => obtain ⟨_, _, _, rfl⟩ := hf; exact .inl ⟨rfl, trivial⟩
    | rotate => obtain ⟨_, _, _, rfl⟩ := hf; exact .inl ⟨rfl, trivial⟩
    | update =>
      obtain ⟨_, _, _, _, ⟨_, _, rfl⟩ | ⟨_, _, _, _, _, _, _, _, rfl⟩⟩ := hf <;> exact .inl ⟨rfl, trivial⟩
    | sign k =>
      obtain ⟨_, _, _, _, _, _, ⟨_, _, _, hk⟩, ⟨hi, rfl⟩ | ⟨_, hs, rfl⟩ | ⟨_, _, _, _, rfl⟩⟩ := hf
      · exact .inr (.inr (.inl ⟨rfl, invalid_ecdsa hk hi, .inl ⟨k, rfl⟩⟩))
      · exact .inr (.inr (.inr (.inl ⟨rfl, k, rfl, hs⟩)))
      · exact .inl ⟨rfl, trivial⟩
    | certify k =>
      obtain ⟨_, _, _, _, _, _, ⟨_, _, _, hk⟩, ⟨hi, rfl⟩ | ⟨_, _, _, _, _, _, _, _, ⟨_, _, rfl⟩ |
        ⟨_, _, _, hv, _, _, rfl⟩⟩⟩ := hf
      · exact .inr (.inr (.inl ⟨rfl, invalid_ecdsa hk hi, .inr (.inl ⟨k, rfl⟩)⟩))
      · exact .inl ⟨rfl, trivial⟩
      · exact .inr (.inr (.inr (.inr (.inr ⟨rfl, k, rfl, hv⟩))))
    | derive k =>
      obtain ⟨i, e, w', hr, hf, rfl⟩ := hf
      unfold StdDeriveFails at hf
      split at hf
      · obtain ⟨_, _, rfl, _⟩ := hf; exact .inl ⟨rfl, trivial⟩
      · rcases hf with ⟨_, _, _, rfl, _⟩ | ⟨_, _, _, _, hf⟩
        · exact .inl ⟨rfl, trivial⟩
        · split at hf
          · rename_i hx
            obtain ⟨_, _, _, _, ⟨_, _, _, hk⟩, ⟨_, rfl, _⟩ | ⟨_, _, rfl, _⟩ | ⟨_, hi, rfl, _⟩⟩ := hf
            · exact .inr (.inr (.inr (.inr (.inl ⟨.inl rfl, k, rfl, hx⟩))))
            · exact .inr (.inr (.inr (.inr (.inl ⟨.inr rfl, k, rfl, hx⟩))))
            · exact .inr (.inr (.inl ⟨rfl, invalid_ecdsa hk hi, .inr (.inr ⟨k, rfl, hx⟩)⟩))
          · obtain ⟨_, _, _, rfl, _⟩ := hf; exact .inl ⟨rfl, trivial⟩

/-- C67: what a command that fails leaves unchanged.  The state stays as it was, except that
UpdateContextMeasurement has already replaced the parent's handle if it fails to replace the child's, and
that CertifyKey with the wrong size of key has already replaced the context's handle. -/
theorem C67_state (hL : L.Total) (ha : a.Fit) (hb : Built cfg a) (hst : InService s.st)
    (hbuf : 35392 ≤ s.out.length)
    (h : exec ((device L a cfg.profile).env cfg) c loc s = (.error e, s')) :
    s'.st = s.st ∨
    (∃ k i h, c = .update k ∧ e = .internal .handleGenerationExhausted ∧ Resolves s.st k.parentHandle loc i ∧
      SetSlot s.st i { s.st.at i with handle := h } s'.st) ∨
    ∃ k i h, c = .certify k ∧ k.variant ≠ cfg.profile ∧ e = .invalidArgument ∧ Resolves s.st k.handle loc i ∧
      SetSlot s.st i { s.st.at i with handle := h } s'.st := by
  obtain ⟨f, hf | ⟨_, hf⟩, rfl, rfl⟩ := (C67_exact hL ha hb hst hbuf).1 h
  · exact .inl hf.keeps.1
  · cases c with
    | getProfile => exact hf.elim
    | destroy => exact hf.elim
    | chain k => obtain ⟨_, rfl⟩ := hf; exact .inl rfl
    | init => obtain ⟨_, _, _, rfl⟩ := hf; exact .inl rfl
    | rotate => obtain ⟨_, _, _, rfl⟩ := hf; exact .inl rfl
    | update k =>
      obtain ⟨i, _, hr, _, ⟨_, _, rfl⟩ | ⟨hd, _, _, _, _, hs, _, _, rfl⟩⟩ := hf
      · exact .inl rfl
      · exact .inr (.inl ⟨k, i, hd, rfl, rfl, hr, hs⟩)
    | sign k =>
      obtain ⟨_, _, _, _, _, _, _, ⟨_, rfl⟩ | ⟨_, _, rfl⟩ | ⟨_, _, _, _, rfl⟩⟩ := hf <;> exact .inl rfl
    | certify k =>
      obtain ⟨i, _, _, _, hr, _, _, ⟨_, rfl⟩ | ⟨_, _, _, _, _, _, _, _, ⟨_, _, rfl⟩ |
        ⟨hd, _, _, hv, _, hs, rfl⟩⟩⟩ := hf
      · exact .inl rfl
      · exact .inl rfl
      · exact .inr (.inr ⟨k, i, hd, rfl, hv, rfl, hr, hs⟩)
    | derive k => obtain ⟨_, _, _, _, _, rfl⟩ := hf; exact .inl rfl

/-- C67: only CertifyKey writes to the buffer and then fails. -/
theorem C67_buffer (hL : L.Total) (ha : a.Fit) (hb : Built cfg a) (hst : InService s.st)
    (hbuf : 35392 ≤ s.out.length)
    (h : exec ((device L a cfg.profile).env cfg) c loc s = (.error e, s')) :
    s'.out = s.out ∨ ∃ k, c = .certify k ∧
      (e = .internal .handleGenerationExhausted ∨ e = .invalidArgument ∧ k.variant ≠ cfg.profile) := by
  obtain ⟨f, hf | ⟨_, hf⟩, rfl, rfl⟩ := (C67_exact hL ha hb hst hbuf).1 h
  · exact .inl hf.keeps.2
  · cases c with
    | getProfile => exact hf.elim
    | destroy => exact hf.elim
    | chain k => obtain ⟨_, rfl⟩ := hf; exact .inl rfl
    | init => obtain ⟨_, _, _, rfl⟩ := hf; exact .inl rfl
    | rotate => obtain ⟨_, _, _, rfl⟩ := hf; exact .inl rfl
    | update k =>
      obtain ⟨_, _, _, _, ⟨_, _, rfl⟩ | ⟨_, _, _, _, _, _, _, _, rfl⟩⟩ := hf <;> exact .inl rfl
    | sign k =>
      obtain ⟨_, _, _, _, _, _, _, ⟨_, rfl⟩ | ⟨_, _, rfl⟩ | ⟨_, _, _, _, rfl⟩⟩ := hf <;> exact .inl rfl
    | certify k =>
      obtain ⟨i, _, _, _, hr, _, _, ⟨_, rfl⟩ | ⟨_, _, _, _, _, _, _, _, ⟨_, _, rfl⟩ |
        ⟨h, _, _, hv, _, hs, rfl⟩⟩⟩ := hf
      · exact .inl rfl
      · exact .inr ⟨k, rfl, .inl rfl⟩
      · exact .inr ⟨k, rfl, .inr ⟨rfl, hv⟩⟩
    | derive k => obtain ⟨_, _, _, _, _, rfl⟩ := hf; exact .inl rfl

/-- C67: an export that fails because of its private key has used up the only exported CDI of the
device, without the caller having received a handle for it. -/
theorem C67_lost {k : DeriveCmd cfg} (hL : L.Total) (ha : a.Fit) (hb : Built cfg a) (hst : InService s.st)
    (hbuf : 35392 ≤ s.out.length)
    (h : exec ((device L a cfg.profile).env cfg) (.derive k) loc s = (.error (.crypto (.cryptoLibError 1)), s')) :
    s.w.1.slots = [] ∧ s'.w.1.slots ≠ [] ∧ s'.st = s.st ∧ s'.out = s.out := by
  obtain ⟨f, hf | ⟨_, hf⟩, he, rfl⟩ := (C67_exact hL ha hb hst hbuf).1 h
  · rcases hf with ⟨e, hf, rfl⟩ | ⟨_, _, _, e, _, _, hf, ⟨_, _, _, rfl⟩ | ⟨_, _, _, _, rfl⟩⟩
    · obtain rfl := he
      simp [FirstRefusal, earlyRules, lookupRules] at hf
    · cases he
    · obtain rfl := he
      simp [FirstRefusal, lateRules] at hf
  · obtain ⟨i, e, w', hr, hf, rfl⟩ := hf
    obtain rfl := he
    unfold StdDeriveFails at hf
    split at hf
    · obtain ⟨_, _, hf, _⟩ := hf; cases hf
    · rcases hf with ⟨_, _, _, hf, _⟩ | ⟨_, _, _, _, hf⟩
      · cases hf
      · split at hf
        · obtain ⟨_, _, _, _, _, ⟨_, hf, _⟩ | ⟨_, _, hf, _⟩ | ⟨hs, _, _, rfl⟩⟩ := hf
          · cases hf
          · cases hf
          · exact ⟨hs, List.cons_ne_nil _ _, rfl, rfl⟩
        · obtain ⟨_, _, _, hf, _⟩ := hf; cases hf

/-- C67: once the device holds an exported CDI, no DeriveContext that is to export one succeeds. -/
theorem C67_once {k : DeriveCmd cfg} (hL : L.Total) (ha : a.Fit) (hb : Built cfg a) (hst : InService s.st)
    (hx : Bit k.flags DFlag.exportCdi) (hs : s.w.1.slots ≠ []) :
    exec ((device L a cfg.profile).env cfg) (.derive k) loc s ≠ (.ok n, s') := by
  intro h
  obtain ⟨hno, reply, st', w', ⟨i, hr, h⟩, _⟩ := (C66_exact hL ha hb hst).1 h
  simp only [NoRefusal, rules, earlyRules, lateRules, lookupRules, List.cons_append, List.nil_append,
    List.mem_cons, List.not_mem_nil, or_false, forall_eq_or_imp, forall_eq] at hno
  obtain ⟨_, _, _, q4, _⟩ := hno
  rw [named_iff hr] at q4
  have hrec : ¬ Bit k.flags DFlag.recursive := fun h => q4 (by simp [BadDerive, h, hx])
  unfold StdDerives at h
  rw [if_neg hrec, if_pos hx] at h
  obtain ⟨_, _, _, _, _, _, _, _, _, _, h, _⟩ := h
  exact hs h

end

namespace Ref

/-- With a label that begins with 0xFF, Sign fails with the error of the P-256 crate; the state and the
buffer stay as they were, but the CDI and the key have been derived. -/
example (label : BArr 32) (hl : label[0] = 0xFF) (w : Soft (lib.crypto cfg.profile)) :
    ∃ cdi, exec ((device lib cert cfg.profile).env cfg) (.sign (signCmd label)) 3 (sys w) =
      (.error (.crypto (.cryptoLibError 1)),
        ⟨booted, ({ w with hasher := none, cdi := cdi, priv := leafPriv label }, ()), fresh.out⟩) := by
  obtain ⟨cdi, hk⟩ := leafKey label
  refine ⟨cdi, (C67_exact (s := sys w) lib_total cert_fit built (.reached booted_reach) fresh_out).2
    ⟨⟨badKey, booted, { w with hasher := none, cdi := cdi, priv := leafPriv label }, fresh.out⟩,
      .inr ⟨sign_allowed label, 0, [0], cdi, leafPriv label, booted_resolves, booted_path, std_leafKey.1 hk,
        .inl ⟨?_, rfl⟩⟩, rfl, rfl⟩⟩
  rintro ⟨pk, hv⟩
  exact (valid_iff label).1 ⟨pk, std_public.2 hv⟩ hl

theorem expand_head {label : BArr 48} {h : HashAlg} {prk : Bytes} {v : BArr 32}
    (hv : lib.expand h prk label.toList 32 = some v) : v.toList.head? = some (label[0]) := by
  obtain rfl := Option.some.inj hv
  unfold pad
  rw [List.head?_eq_getElem?]
  simp [List.getElem?_append]

theorem invalid_iff {priv : Bytes} {b : UInt8} (h : priv.head? = some b) :
    StdInvalid lib .p256 priv ↔ b = 0xFF := by
  unfold StdInvalid StdPublic
  show (¬ ∃ pk k, (if priv.head? = some 0xFF then none else some priv) = some k ∧ _) ↔ _
  rw [h]
  by_cases h : b = 0xFF <;> simp [h]

/-- Sign with data for ML-DSA fails on a P-256 device: because of the data, unless already the private
key is bad. -/
example (label : BArr 48) (w : Soft (lib.crypto cfg.profile)) :
    ∃ s', exec ((device lib cert cfg.profile).env cfg)
      (.sign (.mldsa87 Handle.default label 0 (Vector.replicate 64 9))) 3 (sys w) =
        (.error (.crypto (if label[0] = 0xFF then .cryptoLibError 1 else .mismatchedAlgorithm)), s') := by
  have hno : NoRefusal (rules booted 3 (.sign (.mldsa87 Handle.default label 0 (Vector.replicate 64 9)))) := by
    simp only [NoRefusal, rules, earlyRules, lateRules, lookupRules, List.cons_append, List.nil_append,
      List.append_nil, List.mem_cons, List.not_mem_nil, or_false, forall_eq_or_imp, forall_eq]
    refine ⟨fun h => h.elim, fun h => h ⟨0, booted_at.1, booted_at.2.2.1⟩, fun h => h ⟨0, booted_resolves.1⟩, ?_⟩
    show ¬ Named booted Handle.default 3 _
    rw [named_iff booted_resolves]
    exact booted_at.2.2.2.1
  obtain ⟨cdi, priv, hk⟩ := leafKey_total lib_total cert booted [0] label.toList
  have hi : StdInvalid lib cfg.profile priv ↔ label[0] = 0xFF := by
    obtain ⟨_, _, _, v, hv, rfl⟩ := hk
    exact invalid_iff (expand_head hv)
  have run : ∀ f, StdFails lib cert booted 3 w fresh.out _ f → _ := fun f hf =>
    (C67_exact (s := sys w) lib_total cert_fit built (.reached booted_reach) fresh_out).2 ⟨f, .inr ⟨hno, hf⟩, rfl, rfl⟩
  by_cases h : label[0] = 0xFF
  · rw [if_pos h]
    exact ⟨_, run _ ⟨0, [0], cdi, priv, booted_resolves, booted_path, hk, .inl ⟨hi.2 h, rfl⟩⟩⟩
  · rw [if_neg h]
    exact ⟨_, run _ ⟨0, [0], cdi, priv, booted_resolves, booted_path, hk,
      .inr (.inl ⟨fun x => h (hi.1 x), (nofun : ¬ Profile.p256 = .mldsa87), rfl⟩)⟩⟩

/-- A chunk of the chain from beyond its four octets. -/
example (off : U32) (ho : 4 ≤ off.toNat) (w : Soft (lib.crypto cfg.profile)) :
    exec ((device lib cert cfg.profile).env cfg) (.chain ⟨off, 16⟩) 3 (sys w) =
      (.error (.platform .certificateChainError), sys w) := by
  refine (C67_exact (s := sys w) lib_total cert_fit built (.reached booted_reach) fresh_out).2 ⟨_, .inr ⟨?_, ho, rfl⟩, rfl, rfl⟩
  simp only [NoRefusal, rules, earlyRules, lateRules, List.append_nil, List.mem_cons, List.not_mem_nil,
    or_false, forall_eq]
  decide

/-- Export of a CDI from the default context, which is not retained. -/
def exportCmd : DeriveCmd cfg := ⟨Handle.default, Vector.replicate 32 1, Toy.fExport, 5, 0, 0⟩

/-- It is not refused: with some other crypto and platform it succeeds. -/
theorem export_allowed : NoRefusal (rules booted 3 (.derive exportCmd)) := by
  have h : (exec (cfg := cfg) { Toy.ops with certGen := fun _ _ _ n win =>
      ((.ok ⟨3, .p256 (Vector.replicate 32 3) (Vector.replicate 32 4), Vector.replicate 32 9⟩, n),
        [1, 2, 3] ++ win.drop 3) } (.derive exportCmd) 3 ⟨booted, 0, Toy.buf⟩).1.toBool = true := by
    decide +kernel
  generalize hx : exec (cfg := cfg) { Toy.ops with certGen := fun _ _ _ n win =>
      ((.ok ⟨3, .p256 (Vector.replicate 32 3) (Vector.replicate 32 4), Vector.replicate 32 9⟩, n),
        [1, 2, 3] ++ win.drop 3) } (.derive exportCmd) 3 ⟨booted, 0, Toy.buf⟩ = x at h
  obtain ⟨r, s'⟩ := x
  cases r with
  | error e => cases h
  | ok n => exact C53_success (σ := Nat) (s := ⟨booted, 0, Toy.buf⟩) (.reached booted_reach) hx

/-- Crates that take no private key for P-256 but the device's own. -/
def picky : Lib := { lib with key256 := fun b => if b = [1, 2, 3] then some b else none }

theorem picky_total : picky.Total where
  expand _ _ _ _ _ := ⟨_, rfl⟩
  sign256 _ _ _ := ⟨_, rfl⟩
  sign384 _ _ _ := ⟨_, rfl⟩
  alias256 := ⟨_, _, rfl, rfl⟩
  alias384 := ⟨_, _, rfl, rfl⟩
  alias87 := ⟨_, rfl, by decide⟩

/-- With such crates the export fails, and with it the device loses its only exported CDI. -/
example (w : Soft (picky.crypto cfg.profile)) (hw : w.slots = []) :
    ∃ s', exec ((device picky cert cfg.profile).env cfg) (.derive exportCmd) 3 ⟨booted, (w, ()), fresh.out⟩ =
      (.error (.crypto (.cryptoLibError 1)), s') ∧ s'.w.1.slots ≠ [] ∧ s'.st = booted := by
  obtain ⟨cdi, priv, hk⟩ := exportedKey_total picky_total cert booted [0]
  have hi : StdInvalid picky cfg.profile priv := by
    obtain ⟨_, _, _, v, hv, rfl⟩ := hk
    rintro ⟨pk, k, hkey, _⟩
    have hkey : (if v.toList = [1, 2, 3] then some v.toList else none) = some k := hkey
    split at hkey
    · rename_i h
      have := congrArg List.length h
      simp at this
    · cases hkey
  have h : exec ((device picky cert cfg.profile).env cfg) (.derive exportCmd) 3 ⟨booted, (w, ()), fresh.out⟩ =
      (.error (.crypto (.cryptoLibError 1)), _) :=
    (C67_exact (s := ⟨booted, (w, ()), fresh.out⟩) picky_total cert_fit built (.reached booted_reach) fresh_out).2
      ⟨⟨badKey, booted, { w with
          hasher := none
          rng := ((picky.crypto cfg.profile).fill32 w.rng).2
          cdi := cdi
          priv := priv
          slots := [(cdi, ((picky.crypto cfg.profile).fill32 w.rng).1)] }, fresh.out⟩,
        .inr ⟨export_allowed, 0, _, _, booted_resolves, ?_, rfl⟩, rfl, rfl⟩
  · exact ⟨_, h, (C67_lost (s := ⟨booted, (w, ()), fresh.out⟩) picky_total cert_fit built (.reached booted_reach) fresh_out h).2.1,
      rfl⟩
  · unfold StdDeriveFails
    rw [if_neg (by decide)]
    exact .inr ⟨_, _, w.rng, .inr ⟨by decide, rfl, rfl, rfl⟩, by
      rw [if_pos (by decide)]
      exact ⟨[0], cdi, priv, booted_path, hk, .inr (.inr ⟨hw, hi, rfl, rfl⟩)⟩⟩

end Ref
end Dpe
