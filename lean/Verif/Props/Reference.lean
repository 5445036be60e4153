import Verif.Proofs.DeviceAble
import Verif.Props.Complete
/-
C58: what can go wrong on the reference device, and that nothing else does.

The reference device is what the simulator runs: the software crypto back end of the crate `crypto` and
the platform of platform/src/default.rs, whose built-in certificate is a parameter.  What the other
theorems assume of the crypto implementation and the platform holds for it, and a command that is not
refused succeeds exactly if nothing on a short list stands in its way.
-/
namespace Dpe
section
variable {cfg : Cfg} {L : Lib} {a : Artifact} {loc : U32} {c : Cmd cfg}
  {s : Sys cfg (Soft (L.crypto cfg.profile) × Unit)}

/-- C58, assumptions: with a usable certificate and crates that do what they promise, everything that
other theorems assume about the crypto implementation and the platform is true of the reference device. -/
theorem C58_meets (hL : L.Total) (ha : a.Fit) (label : Nat) :
    AlgorithmFits cfg (device L a cfg.profile) ∧ SerialGiven (device L a cfg.profile) ∧
    Decent cfg (device L a cfg.profile) ∧ Genuine cfg.profile (device L a cfg.profile) ∧
    PlatformData (device L a cfg.profile) (platformLimits cfg.profile cfg.maxHandles label) ∧
    Steady (defaultPlatform a) ∧ ServesDer (defaultPlatform a) ∧ ServesChain (defaultPlatform a) a.chain :=
  ⟨device_fits (hL.sound _), device_serial ha, device_decent ha (hL.sound _), device_genuine (hL.sound _),
    device_platform ha, device_steady, device_der ha, servesChain_default a⟩

/-- C58, the chain: the arithmetic on offsets in the default platform does not overflow in any call that a
command makes (the value that stands for the overflow is not returned). -/
theorem C58_no_overflow (ha : a.Fit) (off size : U32) (hs : size.toNat ≤ 2048) (w : Unit) :
    some ((defaultPlatform a).certChain off size w).1 = defaultChain a.chain off size :=
  default_chain ha hs w

/-- C58: a command that is not refused can be served exactly if it is `Able`. -/
theorem C58_able (hL : L.Total) (ha : a.Fit) (hb : Built cfg a) (hst : InService s.st)
    (hno : NoRefusal (rules s.st loc c)) :
    (∃ reply st' w', Serves (device L a cfg.profile) s.st loc s.w c reply st' w') ↔
      Able (L.crypto cfg.profile) a s.st loc s.w.1 c :=
  able_iff ha hb (hL.sound _) hst hno

end

/-! ### The size of replies -/
section
variable {cfg : Cfg} {P : Prims} {a : Artifact} {st : State cfg} {loc : U32} {w : Soft P × Unit} {c : Cmd cfg}

theorem handlesReply_length (p : Profile) (hs : List Handle) :
    (handlesReply p hs).length = 12 + 16 * hs.length := by
  unfold handlesReply
  induction hs with
  | nil => simp [successBytes]
  | cons h hs ih =>
    simp only [List.map_cons, List.flatten_cons, List.length_append, List.length_cons, Vector.length_toList] at ih ⊢
    omega

theorem device_reply (ha : a.Fit) (hb : Built cfg a) (hP : P.Sound cfg.profile) {reply : Bytes} {st' : State cfg}
    {w' : Soft P × Unit} (h : Serves (deviceOps P a) st loc w c reply st' w') : reply.length ≤ 35392 := by
  cases c with
  | getProfile =>
    obtain ⟨vid, sku, _, _, _, _, rfl⟩ := h
    simp [profileReply, successBytes, le32]
  | chain c =>
    obtain ⟨_, _, _, _, rfl⟩ := h
    simp [successBytes, le32]
  | init f => obtain ⟨_, _, _, _, _, _, _, _, rfl⟩ := h; rw [handlesReply_length]; simp
  | rotate c => obtain ⟨_, _, _, _, _, rfl⟩ := h; rw [handlesReply_length]; simp
  | destroy c => obtain ⟨_, _, _, _, rfl⟩ := h; rw [handlesReply_length]; simp
  | update c =>
    obtain ⟨_, _, _, _, _, _, _, _, _, _, _, _, _, _, _, rfl⟩ := h; rw [handlesReply_length]; simp
  | sign c =>
    obtain ⟨_, _, _, sig, _, _, _, _, _, _, _, _, _, rfl⟩ := h
    cases sig <;> simp [signReply, sigFields, successBytes]
  | certify c =>
    obtain ⟨kind, D, w1, t, w2, hd, hf, hD, hI, hw, _, _, _, rfl⟩ := h
    have hk : KeyOf cfg.profile D.key := Drafted.keyOf (device_genuine hP) hD
    have hlen := device_short ha hb hP hD hI (by
      show c.label.length ≤ 48
      rw [CertifyCmd.label_length hw hk]
      cases cfg.profile <;> decide)
    rw [certifyReply_length hw]
    have : c.keyBytes ≤ 2592 := by cases c <;> simp [CertifyCmd.keyBytes]
    omega
  | derive c =>
    obtain ⟨i, _, h⟩ := h
    split at h
    · obtain ⟨_, _, _, _, _, _, rfl⟩ := h; rw [handlesReply_length]; simp
    · split at h
      · obtain ⟨_, _, _, u, k, w1, D, w2, t, _, _, _, hk, _, hD, hI, _, _, _, rfl⟩ := h
        have hlen := device_short ha hb hP hD hI (by
          show (u.toList.take k.toNat).length ≤ 48
          rw [List.length_take]; omega)
        rw [exportReply_length]
        omega
      · obtain ⟨_, _, _, _, _, _, _, _, _, _, _, _, _, _, _, _, _, rfl⟩ := h; rw [handlesReply_length]; simp

end
section
variable {cfg : Cfg} {L : Lib} {a : Artifact} {loc : U32} {c : Cmd cfg}
  {s : Sys cfg (Soft (L.crypto cfg.profile) × Unit)}

/-- C58: given a response buffer of 35392 bytes or more, a command on the reference device succeeds
exactly if it is not refused and nothing on the list `Able` stands in its way: the random number generator
finds a new handle within eight draws, the derived private key is valid, the command's variant is the
profile's, no CDI has been exported before, the offset lies in the certificate chain. -/
theorem C58_succeeds (hL : L.Total) (ha : a.Fit) (hb : Built cfg a) (hst : InService s.st)
    (hbuf : 35392 ≤ s.out.length) :
    (∃ n s', exec ((device L a cfg.profile).env cfg) c loc s = (.ok n, s')) ↔
      NoRefusal (rules s.st loc c) ∧ Able (L.crypto cfg.profile) a s.st loc s.w.1 c := by
  obtain ⟨hfit, hser, _⟩ := C58_meets (cfg := cfg) (L := L) hL ha 0
  constructor
  · rintro ⟨n, s', h⟩
    obtain ⟨hno, reply, st', w', hs, _⟩ := (C57_exact hst (fun _ => ⟨hfit, hser⟩)).1 h
    exact ⟨hno, (C58_able hL ha hb hst hno).1 ⟨reply, st', w', hs⟩⟩
  · rintro ⟨hno, h⟩
    obtain ⟨reply, st', w', hs⟩ := (C58_able hL ha hb hst hno).2 h
    exact ⟨_, _, (C57_exact hst (fun _ => ⟨hfit, hser⟩)).2 ⟨hno, reply, st', w', hs,
      Nat.le_trans (device_reply ha hb (hL.sound _) hs) hbuf, rfl, rfl⟩⟩

end

/-! ### Concrete cases -/
namespace Ref

/-- Four slots, P-256. -/
def cfg : Cfg :=
  { maxHandles := 4, tciSize := 32, profile := .p256, disabled := 0, maxCertSize := 4000,
    diceFuel := 5, pos := by decide, le64 := by decide }

/-- The bytes in front, padded with zeros. -/
def pad (n : Nat) (x : Bytes) : BArr n := Vector.ofFn fun i => x.getD i.val 0

/-- Crates that make the data visible: a private key begins with the label.  For P-256, private keys that
begin with 0xFF are invalid. -/
def lib : Lib where
  Rng := Nat
  seed := 0
  fill16 n := (Toy.hd (n + 1), n + 1)
  fill32 n := (Vector.replicate 32 (UInt8.ofNat n), n + 1)
  sha256 x := pad 32 x
  sha384 x := pad 48 x
  extract _ salt ikm := salt ++ ikm
  expand _ prk info n := some (pad n (info ++ prk))
  K256 := Bytes
  key256 b := if b.head? = some 0xFF then none else some b
  sign256 k d := some (pad 32 k, pad 32 d)
  pub256 k := (pad 32 k, pad 32 k)
  K384 := Bytes
  key384 b := some b
  sign384 k d := some (pad 48 k, pad 48 d)
  pub384 k := (pad 48 k, pad 48 k)
  K87 := BArr 32
  key87 b := b
  sign87 k d := pad 4627 (k.toList ++ d)
  signMu87 k d := pad 4627 (k.toList ++ d.toList)
  pub87 k := pad 2592 k.toList
  alias256 := some [1, 2, 3]
  alias384 := some [1, 2, 3]
  alias87 := some (List.replicate 32 7)

theorem lib_total : lib.Total where
  expand _ _ _ _ _ := ⟨_, rfl⟩
  sign256 _ _ _ := ⟨_, rfl⟩
  sign384 _ _ _ := ⟨_, rfl⟩
  alias256 := ⟨_, _, rfl, rfl⟩
  alias384 := ⟨_, _, rfl, rfl⟩
  alias87 := ⟨_, rfl, by decide⟩

/-- A certificate. -/
def cert : Artifact := ⟨[0x30, 2, 5, 0], [0x30, 0], [5, 6], List.replicate 20 8⟩

theorem cert_fit : cert.Fit where
  der := rfl
  short := by decide
  issuer := by decide
  issuerDer := Toy.wellFormed_empty
  issuerSeq := ⟨[], rfl⟩
  serial := by decide
  serialShort := by decide
  keyId := by decide

theorem built : Built cfg cert := ⟨rfl, by decide⟩

/-- A fresh device with all features, and a large buffer. -/
def fresh : Sys cfg (Soft (lib.crypto cfg.profile) × Unit) :=
  ⟨State.new cfg Toy.support 0, (Soft.new _, ()), List.replicate 40000 0⟩

/-- Creation of the default context from locality 3, and its outcome. -/
def boot : Except Err Nat × Sys cfg (Soft (lib.crypto cfg.profile) × Unit) :=
  exec ((device lib cert cfg.profile).env cfg) (.init 0x40000000) 3 fresh

theorem fresh_reach : Reachable fresh.st := .new _ _

theorem fresh_out : 35392 ≤ fresh.out.length := by
  unfold fresh; rw [List.length_replicate]; omega

/-- The default context can be created. -/
theorem boots : ∃ n s', boot = (.ok n, s') := by
  refine (C58_succeeds lib_total cert_fit built fresh_reach fresh_out).2 ⟨?_, .inl (by decide)⟩
  simp only [NoRefusal, rules, earlyRules, lateRules, List.append_nil, List.mem_cons, List.not_mem_nil,
    or_false, forall_eq_or_imp, forall_eq]
  refine ⟨?_, ?_, ?_, ?_⟩
  · unfold fresh; decide
  · unfold fresh; decide
  · decide
  · intro h
    have := h 0 (by decide)
    exact this rfl

/-- The device after that. -/
def booted : State cfg := boot.2.st

attribute [irreducible] fresh

theorem booted_reach : Reachable booted :=
  Reachable.step ((device lib cert cfg.profile).env cfg) (.init 0x40000000) 3 fresh.st fresh.w fresh.out fresh_reach

theorem booted_at : (booted.at 0).state = .active ∧ (booted.at 0).handle = Handle.default ∧
    (booted.at 0).locality = 3 ∧ (booted.at 0).ctype ≠ .simulation ∧ (booted.at 0).parentIdx = 255 := by
  decide +kernel

theorem booted_resolves : Resolves booted Handle.default 3 0 := findActive_iff.1 (by decide +kernel)

theorem booted_path : Path booted 0 [0] := by
  refine .root ?_ ?_
  · show (booted.at 0).state ≠ .inactive
    rw [booted_at.1]; decide
  · exact booted_at.2.2.2.2

attribute [irreducible] boot booted

/-- The world of the booted device, with a large buffer. -/
def sys (w : Soft (lib.crypto cfg.profile)) : Sys cfg (Soft (lib.crypto cfg.profile) × Unit) :=
  ⟨booted, (w, ()), fresh.out⟩

/-- A Sign command for the default context. -/
def signCmd (label : BArr 32) : SignCmd := .p256 Handle.default label 0 (Vector.replicate 32 9)

theorem sign_allowed (label : BArr 32) : NoRefusal (rules booted 3 (.sign (signCmd label))) := by
  simp only [NoRefusal, rules, earlyRules, lateRules, lookupRules, List.cons_append, List.nil_append,
    List.append_nil, List.mem_cons, List.not_mem_nil, or_false, forall_eq_or_imp, forall_eq]
  refine ⟨fun h => h.elim, fun h => h ?_, fun h => h ⟨0, booted_resolves.1⟩, ?_⟩
  · exact ⟨0, booted_at.1, booted_at.2.2.1⟩
  · show ¬ Named booted Handle.default 3 _
    rw [named_iff booted_resolves]
    exact booted_at.2.2.2.1

/-- The private key of the default context for the label. -/
def leafPriv (label : BArr 32) : Bytes :=
  (pad 32 (label.toList ++ (ascii "ECC" ++ (pad 32 (((pad 32 (measuredBytes cert booted [0])).toList) ++
    (ascii "DPE" ++ (pad 32 (measuredBytes cert booted [0])).toList))).toList))).toList

theorem leafKey (label : BArr 32) : ∃ cdi, LeafKey (lib.crypto cfg.profile) cfg.profile
    (measuredBytes cert booted [0]) label.toList cdi (leafPriv label) := ⟨_, rfl, rfl⟩

theorem pad_head (label : BArr 32) (x : Bytes) : (pad 32 (label.toList ++ x)).toList.head? = some (label[0]) := by
  unfold pad
  rw [List.head?_eq_getElem?]
  simp [List.getElem?_append]

theorem leafPriv_head (label : BArr 32) : (leafPriv label).head? = some (label[0]) := pad_head label _

attribute [irreducible] leafPriv

theorem valid_iff (label : BArr 32) :
    ValidKey (lib.crypto cfg.profile) (leafPriv label) ↔ label[0] ≠ 0xFF := by
  refine valid256.trans ?_
  show (∃ x, (if (leafPriv label).head? = some 0xFF then none else some (leafPriv label)) = some x) ↔ _
  rw [leafPriv_head]
  by_cases h : label[0] = 0xFF
  · simp [h]
  · simp [h]

/-- With these crates, the booted device signs for every label whose first byte is not 0xFF, and for no
other. -/
example (label : BArr 32) (w : Soft (lib.crypto cfg.profile)) :
    (∃ n s', exec ((device lib cert cfg.profile).env cfg) (.sign (signCmd label)) 3 (sys w) = (.ok n, s')) ↔
      label[0] ≠ 0xFF := by
  rw [C58_succeeds (s := sys w) lib_total cert_fit built (.reached booted_reach) fresh_out, ← valid_iff]
  constructor
  · rintro ⟨_, i, hr, ⟨path, cdi, priv, hp, hl, hv⟩, _⟩
    obtain rfl := hr.unique booted_resolves
    obtain rfl := hp.unique booted_path
    obtain ⟨cdi', hl'⟩ := leafKey label
    obtain rfl := Except.ok.inj (hl.cdiIs.symm.trans hl'.cdiIs)
    obtain rfl := Except.ok.inj (hl.privIs.symm.trans hl'.privIs)
    exact hv
  · intro h
    obtain ⟨cdi, hl⟩ := leafKey label
    exact ⟨sign_allowed label, 0, booted_resolves, ⟨[0], cdi, _, booted_path, hl, h⟩,
      (by decide : Profile.p256 ≠ .mldsa87), .inl booted_at.2.1⟩

/-- The chain is served up to its four octets. -/
example (off : U32) (w : Soft (lib.crypto cfg.profile)) :
    (∃ n s', exec ((device lib cert cfg.profile).env cfg) (.chain ⟨off, 16⟩) 3 (sys w) = (.ok n, s')) ↔
      off.toNat < 4 := by
  rw [C58_succeeds (s := sys w) lib_total cert_fit built (.reached booted_reach) fresh_out]
  constructor
  · exact fun h => h.2
  · intro h
    refine ⟨?_, h⟩
    simp only [NoRefusal, rules, earlyRules, lateRules, List.append_nil, List.mem_cons, List.not_mem_nil,
      or_false, forall_eq]
    decide

/-- A second CDI cannot be exported: whatever the flags, an exporting DeriveContext fails on a device
whose only CDI slot is taken. -/
example (c : DeriveCmd cfg) (hx : Bit c.flags DFlag.exportCdi) (w : Soft (lib.crypto cfg.profile)) (hw : w.slots ≠ [])
    (hr : ¬ Bit c.flags DFlag.recursive) :
    ¬ ∃ n s', exec ((device lib cert cfg.profile).env cfg) (.derive c) 3 (sys w) = (.ok n, s') := by
  rw [C58_succeeds (s := sys w) lib_total cert_fit built (.reached booted_reach) fresh_out]
  rintro ⟨_, i, _, h⟩
  rw [if_neg hr, if_pos hx] at h
  exact hw h.1

end Ref
end Dpe
