import Verif.Proofs.Wire
import Verif.Proofs.Calls
import Verif.Props.Effects
import Verif.Props.Rules
import Verif.Examples.Toy
/-
The wire layer: decoding (C34).
-/
namespace Dpe
variable {cfg : Cfg} {σ : Type}

theorem decode_ok {addr : Nat} {b : Bytes} {c : Cmd cfg} :
    decode cfg addr b = .ok c ↔ ∃ h r, cmdHdrWithProfile cfg.profile b = .ok h ∧
      b.drop 12 = c.asBytes ++ r ∧ h.cmdId = c.id ∧ InProfile cfg c ∧ Aligned (addr + 12) c := by
  unfold decode
  rcases hh : cmdHdrWithProfile cfg.profile b with e | h
  · simp
  · simp only [decodeBody_ok, Except.ok.injEq]
    constructor
    · rintro ⟨⟨r, h1⟩, h2⟩; exact ⟨h, r, rfl, h1, h2⟩
    · rintro ⟨_, r, rfl, h1, h2⟩; exact ⟨⟨r, h1⟩, h2⟩

theorem aligned_hdr {addr : Nat} {c : Cmd cfg} : Aligned (addr + 12) c ↔ Aligned addr c := by
  unfold Aligned
  rw [show (addr + 12) % 4 = addr % 4 by omega]

theorem drop_hdr (a b c : U32) (r : Bytes) :
    (le32 a ++ (le32 b ++ (le32 c ++ r))).drop 12 = r := by
  simp [le32]

/-- C34: the bytes that are accepted, and as what.  A byte string is decoded as the command `c`
if and only if it starts with the documented encoding of `c` — magic, number, profile number,
parameters — with the instance's profile number (GetProfile: any), `c` exists in that profile,
and the bytes are stored at an address suitable for `c`.  What follows is ignored. -/
theorem C34_accepts (addr : Nat) (b : Bytes) (c : Cmd cfg) :
    decode cfg addr b = .ok c ↔ ∃ prof rest, b = wire prof c ++ rest ∧
      (c = .getProfile ∨ prof = wireProfile cfg.profile) ∧ InProfile cfg c ∧ Aligned addr c := by
  rw [decode_ok]
  constructor
  · rintro ⟨h, r, h1, h2, h3, h4, h5⟩
    obtain ⟨t, ht, -, hp⟩ := cmdHdr_ok.1 h1
    subst ht
    rw [drop_hdr] at h2
    refine ⟨h.profile, r, ?_, ?_, h4, aligned_hdr.1 h5⟩
    · rw [wire, wireHeader_eq, wireBody_eq, wireId_eq, ← h3, h2]; simp
    · rcases hp with hp | hp
      · left
        rw [h3] at hp
        cases c <;> simp [Cmd.id] at hp <;> rfl
      · right; rw [hp, wireProfile_eq]
  · rintro ⟨prof, rest, rfl, hp, h4, h5⟩
    refine ⟨⟨cmdMagic, c.id, prof⟩, rest, cmdHdr_ok.2 ⟨c.asBytes ++ rest, ?_, rfl, ?_⟩, ?_, rfl, h4,
      aligned_hdr.2 h5⟩
    · rw [wire, wireHeader_eq, wireBody_eq, wireId_eq]; simp
    · rcases hp with rfl | hp
      · left; rfl
      · right; rw [hp, wireProfile_eq]
    · rw [wire, wireHeader_eq, wireBody_eq, wireId_eq]; simp [le32]

/-- Non-vacuity for C34: a RotateContextHandle command followed by two stray bytes. -/
example : decode Toy.cfg 4096 ([0x43, 0x45, 0x50, 0x44, 0x0e, 0, 0, 0, 3, 0, 0, 0] ++
    (Toy.hd 9).toList ++ [0, 0, 0, 0x80] ++ [1, 2]) = .ok (.rotate ⟨Toy.hd 9, 0x80000000⟩) :=
  (C34_accepts 4096 _ _).2 ⟨3, [1, 2], by decide +kernel, .inr rfl, by unfold InProfile; decide +kernel, .inl rfl⟩

/-- C34: every other byte string is refused, with InvalidCommand when the header is not that of
a known command addressed to this profile, and with InvalidArgument when it is. -/
theorem C34_refuses (addr : Nat) (b : Bytes) (e : Err) (h : decode cfg addr b = .error e) :
    (e = .invalidCommand ∧ ¬ AddressedTo cfg b) ∨ (e = .invalidArgument ∧ AddressedTo cfg b) := by
  unfold decode at h
  split at h
  · rename_i e' h1
    cases h
    have he := cmdHdr_error h1
    left
    refine ⟨he, ?_⟩
    rintro ⟨id, prof, rest, rfl, -, hp⟩
    have : cmdHdrWithProfile cfg.profile (wireHeader id prof ++ rest) = .ok ⟨cmdMagic, id, prof⟩ :=
      cmdHdr_ok.2 ⟨rest, by rw [wireHeader_eq]; simp, rfl, by
        rcases hp with hp | hp
        · exact .inl hp
        · right; rw [hp, wireProfile_eq]⟩
    rw [this] at h1
    cases h1
  · rename_i hd h1
    obtain ⟨t, rfl, -, hp⟩ := cmdHdr_ok.1 h1
    have key : AddressedTo cfg (le32 cmdMagic ++ (le32 hd.cmdId ++ (le32 hd.profile ++ t))) ↔
        KnownId cfg hd.cmdId := by
      constructor
      · rintro ⟨id, prof, rest, hb, hk, -⟩
        rw [wireHeader_eq] at hb
        simp only [List.append_assoc] at hb
        have hb := (List.append_inj hb rfl).2
        have e1 : getU32 (le32 hd.cmdId ++ (le32 hd.profile ++ t)) = some (hd.cmdId, _) :=
          getU32_iff.2 rfl
        rw [hb, getU32_iff.2 rfl] at e1
        simp only [Option.some.injEq, Prod.mk.injEq] at e1
        rw [← e1.1]; exact hk
      · intro hk
        refine ⟨hd.cmdId, hd.profile, t, by rw [wireHeader_eq]; simp, hk, ?_⟩
        rw [wireProfile_eq]; exact hp
    rw [key]
    exact decodeBody_error h

/-- Non-vacuity for `C34_refuses`: a wrong magic, a wrong profile, an unknown number, a missing
parameter and a misaligned buffer. -/
example : decode Toy.cfg 0 [0x43, 0x45, 0x50, 0x45, 1, 0, 0, 0, 3, 0, 0, 0] = .error .invalidCommand ∧
    decode Toy.cfg 0 [0x43, 0x45, 0x50, 0x44, 7, 0, 0, 0, 4, 0, 0, 0, 0, 0, 0, 0] =
      .error .invalidCommand ∧
    decode Toy.cfg 0 [0x43, 0x45, 0x50, 0x44, 6, 0, 0, 0, 3, 0, 0, 0] = .error .invalidCommand ∧
    decode Toy.cfg 0 [0x43, 0x45, 0x50, 0x44, 7, 0, 0, 0, 3, 0, 0, 0, 0, 0, 0] =
      .error .invalidArgument ∧
    decode Toy.cfg 2 [0x43, 0x45, 0x50, 0x44, 7, 0, 0, 0, 3, 0, 0, 0, 0, 0, 0, 0] =
      .error .invalidArgument := by
  refine ⟨?_, ?_, ?_, ?_, ?_⟩ <;> rfl

theorem split_arr {n : Nat} {b : Bytes} (h : n ≤ b.length) :
    ∃ (x : BArr n) (r : Bytes), b = x.toList ++ r ∧ r.length = b.length - n := by
  rcases hg : getArr n b with _ | ⟨x, r⟩
  · rw [getArr_none] at hg; omega
  · have := getArr_iff.1 hg
    exact ⟨x, r, this, by rw [this]; simp⟩

theorem split_u32 {b : Bytes} (h : 4 ≤ b.length) :
    ∃ (x : U32) (r : Bytes), b = le32 x ++ r ∧ r.length = b.length - 4 := by
  rcases hg : getU32 b with _ | ⟨x, r⟩
  · rw [getU32_none] at hg; omega
  · have := getU32_iff.1 hg
    exact ⟨x, r, this, by rw [this]; simp [le32]⟩

theorem asBytes_length {c : Cmd cfg} (h : InProfile cfg c)
    (hs : c.id = 0x0A → cfg.profile ≠ .mldsa87) :
    c.asBytes.length = bodySize (labelSize cfg.profile) cfg.tciSize c.id := by
  cases c with
  | certify c =>
    cases c <;> simp only [InProfile] at h <;> rw [h] <;>
      simp [Cmd.asBytes, CertifyCmd.asBytes, Cmd.id, bodySize, labelSize, le32]
  | sign c =>
    have hm : cfg.profile ≠ .mldsa87 := hs (by simp [Cmd.id])
    cases c <;> simp only [InProfile] at h
    · rw [h]; simp [Cmd.asBytes, SignCmd.asBytes, Cmd.id, bodySize, labelSize, le32]
    · rw [h]; simp [Cmd.asBytes, SignCmd.asBytes, Cmd.id, bodySize, labelSize, le32]
    · exact absurd h.1 hm
    · exact absurd h.1 hm
  | _ => simp [Cmd.asBytes, Cmd.id, bodySize, le32] <;> omega

theorem exists_body {i : U32} {b : Bytes} (hk : KnownId cfg i)
    (hs : i = 0x0A → cfg.profile ≠ .mldsa87)
    (hl : bodySize (labelSize cfg.profile) cfg.tciSize i ≤ b.length) :
    ∃ (c : Cmd cfg) (r : Bytes), b = c.asBytes ++ r ∧ c.id = i ∧ InProfile cfg c := by
  rcases hk with rfl | rfl | rfl | rfl | rfl | ⟨rfl, hr⟩ | rfl | rfl | rfl <;>
    simp [bodySize] at hl
  · exact ⟨.getProfile, b, rfl, rfl, trivial⟩
  · obtain ⟨f, r, rfl, -⟩ := split_u32 hl
    exact ⟨.init f, r, rfl, rfl, trivial⟩
  · obtain ⟨h, r1, rfl, h1⟩ := split_arr (n := 16) (b := b) (by omega)
    simp at hl
    obtain ⟨d, r2, rfl, h2⟩ := split_arr (n := cfg.tciSize) (b := r1) (by omega)
    simp at hl
    obtain ⟨f, r3, rfl, h3⟩ := split_u32 (b := r2) (by omega)
    simp [le32] at hl
    obtain ⟨t, r4, rfl, h4⟩ := split_u32 (b := r3) (by omega)
    simp [le32] at hl
    obtain ⟨l, r5, rfl, h5⟩ := split_u32 (b := r4) (by omega)
    simp [le32] at hl
    obtain ⟨v, r6, rfl, h6⟩ := split_u32 (b := r5) (by omega)
    exact ⟨.derive ⟨h, d, f, t, l, v⟩, r6, by simp [Cmd.asBytes], rfl, trivial⟩
  · obtain ⟨h, r1, rfl, h1⟩ := split_arr (n := 16) (b := b) (by omega)
    simp at hl
    obtain ⟨f, r2, rfl, h2⟩ := split_u32 (b := r1) (by omega)
    simp [le32] at hl
    obtain ⟨t, r3, rfl, h3⟩ := split_u32 (b := r2) (by omega)
    simp [le32] at hl
    cases hp : cfg.profile <;> rw [hp] at hl <;> simp [labelSize] at hl
    · obtain ⟨l, r4, rfl, h4⟩ := split_arr (n := 32) (b := r3) (by omega)
      exact ⟨.certify (.p256 h f t l), r4, by simp [Cmd.asBytes, CertifyCmd.asBytes], rfl, hp⟩
    · obtain ⟨l, r4, rfl, h4⟩ := split_arr (n := 48) (b := r3) (by omega)
      exact ⟨.certify (.p384 h f t l), r4, by simp [Cmd.asBytes, CertifyCmd.asBytes], rfl, hp⟩
    · obtain ⟨l, r4, rfl, h4⟩ := split_arr (n := 48) (b := r3) (by omega)
      exact ⟨.certify (.mldsa87 h f t l), r4, by simp [Cmd.asBytes, CertifyCmd.asBytes], rfl, hp⟩
  · obtain ⟨h, r1, rfl, h1⟩ := split_arr (n := 16) (b := b) (by omega)
    simp at hl
    cases hp : cfg.profile <;> rw [hp] at hl <;> simp [labelSize] at hl
    · obtain ⟨l, r2, rfl, h2⟩ := split_arr (n := 32) (b := r1) (by omega)
      simp at hl
      obtain ⟨f, r3, rfl, h3⟩ := split_u32 (b := r2) (by omega)
      simp [le32] at hl
      obtain ⟨d, r4, rfl, h4⟩ := split_arr (n := 32) (b := r3) (by omega)
      exact ⟨.sign (.p256 h l f d), r4, by simp [Cmd.asBytes, SignCmd.asBytes], rfl, hp⟩
    · obtain ⟨l, r2, rfl, h2⟩ := split_arr (n := 48) (b := r1) (by omega)
      simp at hl
      obtain ⟨f, r3, rfl, h3⟩ := split_u32 (b := r2) (by omega)
      simp [le32] at hl
      obtain ⟨d, r4, rfl, h4⟩ := split_arr (n := 48) (b := r3) (by omega)
      exact ⟨.sign (.p384 h l f d), r4, by simp [Cmd.asBytes, SignCmd.asBytes], rfl, hp⟩
    · exact absurd hp (hs rfl)
  · obtain ⟨h, r1, rfl, h1⟩ := split_arr (n := 16) (b := b) (by omega)
    simp at hl
    obtain ⟨f, r2, rfl, h2⟩ := split_u32 (b := r1) (by omega)
    exact ⟨.rotate ⟨h, f⟩, r2, by simp [Cmd.asBytes], rfl, hr⟩
  · obtain ⟨h, r1, rfl, h1⟩ := split_arr (n := 16) (b := b) (by omega)
    exact ⟨.destroy h, r1, by simp [Cmd.asBytes], rfl, trivial⟩
  · obtain ⟨f, r2, rfl, h2⟩ := split_u32 (b := b) (by omega)
    simp [le32] at hl
    obtain ⟨t, r3, rfl, h3⟩ := split_u32 (b := r2) (by omega)
    exact ⟨.chain ⟨f, t⟩, r3, by simp [Cmd.asBytes], rfl, trivial⟩
  · obtain ⟨h, r1, rfl, h1⟩ := split_arr (n := 16) (b := b) (by omega)
    simp at hl
    obtain ⟨d, r2, rfl, h2⟩ := split_arr (n := cfg.tciSize) (b := r1) (by omega)
    simp at hl
    obtain ⟨f, r3, rfl, h3⟩ := split_u32 (b := r2) (by omega)
    simp [le32] at hl
    obtain ⟨t, r4, rfl, h4⟩ := split_u32 (b := r3) (by omega)
    simp [le32] at hl
    obtain ⟨l, r5, rfl, h5⟩ := split_u32 (b := r4) (by omega)
    exact ⟨.update ⟨h, d, f, t, l⟩, r5, by simp [Cmd.asBytes], rfl, trivial⟩

/-- C34: after a good header in an aligned buffer only the number of parameter bytes matters —
every value of every parameter is accepted (Sign of the ML-DSA profile excepted, whose two forms
are told apart by a flag; see `C34_accepts` and `InProfile`). -/
theorem C34_length (addr : Nat) (id prof : U32) (b : Bytes) (ha : addr % 4 = 0)
    (hk : KnownId cfg id) (hp : id = 0x01 ∨ prof = wireProfile cfg.profile)
    (hs : id = 0x0A → cfg.profile ≠ .mldsa87) :
    (∃ c, decode cfg addr (wireHeader id prof ++ b) = .ok c) ↔
      bodySize (labelSize cfg.profile) cfg.tciSize id ≤ b.length := by
  have hdr : cmdHdrWithProfile cfg.profile (wireHeader id prof ++ b) = .ok ⟨cmdMagic, id, prof⟩ :=
    cmdHdr_ok.2 ⟨b, by rw [wireHeader_eq]; simp, rfl, by
      rcases hp with hp | hp
      · exact .inl hp
      · right; rw [hp, wireProfile_eq]⟩
  have hdrop : (wireHeader id prof ++ b).drop 12 = b := by rw [wireHeader_eq]; simp [le32]
  constructor
  · rintro ⟨c, hc⟩
    obtain ⟨h, r, h1, h2, h3, h4, -⟩ := decode_ok.1 hc
    rw [hdr] at h1
    cases h1
    rw [hdrop] at h2
    simp only at h3
    subst h3 h2
    rw [List.length_append, asBytes_length h4 hs]
    omega
  · intro hl
    obtain ⟨c, r, h1, h2, h3⟩ := exists_body hk hs hl
    exact ⟨c, decode_ok.2 ⟨_, r, hdr, by rw [hdrop, h1], h2.symm, h3, .inl (by omega)⟩⟩

/-- Non-vacuity for `C34_length`: UpdateContextMeasurement needs 30 parameter bytes with 2-byte
measurements. -/
example : (∃ c, decode Toy.cfg 8 (wireHeader 0x80000000 3 ++ List.replicate 30 0xAB) = .ok c) ∧
    ¬ ∃ c, decode Toy.cfg 8 (wireHeader 0x80000000 3 ++ List.replicate 29 0xAB) = .ok c := by
  refine ⟨(C34_length _ _ _ _ rfl (by unfold KnownId; decide +kernel) (.inr rfl)
    (fun h => absurd h (by decide))).2 (by decide),
    fun h => absurd ((C34_length _ _ _ _ rfl (by unfold KnownId; decide +kernel) (.inr rfl)
    (fun h => absurd h (by decide))).1 h) (by decide)⟩

/-- C34: trailing bytes never change the result of an accepted command. -/
theorem C34_trailing (addr : Nat) (b t : Bytes) (c : Cmd cfg) (h : decode cfg addr b = .ok c) :
    decode cfg addr (b ++ t) = .ok c := by
  obtain ⟨p, r, rfl, h1⟩ := (C34_accepts addr b c).1 h
  exact (C34_accepts addr _ c).2 ⟨p, r ++ t, by simp, h1⟩

/-- C34: what the code's own serialiser writes (header fields followed by the body) is the
documented encoding, and decodes to the same command. -/
theorem C34_round_trip (addr : Nat) (c : Cmd cfg) (t : Bytes) (h : InProfile cfg c)
    (ha : addr % 4 = 0) :
    decode cfg addr (le32 cmdMagic ++ le32 c.id ++ le32 cfg.profile.code ++ c.asBytes ++ t) =
      .ok c := by
  refine (C34_accepts addr _ c).2 ⟨cfg.profile.code, t, ?_, .inr (wireProfile_eq _).symm, h, .inl ha⟩
  rw [wire, wireHeader_eq, wireBody_eq, wireId_eq]
  simp

/-- C34: no byte string stands for two commands. -/
theorem C34_unambiguous (prof prof' : U32) (c c' : Cmd cfg) (r r' : Bytes) (h : InProfile cfg c)
    (h' : InProfile cfg c') (hp : c = .getProfile ∨ prof = wireProfile cfg.profile)
    (hp' : c' = .getProfile ∨ prof' = wireProfile cfg.profile)
    (he : wire prof c ++ r = wire prof' c' ++ r') : c = c' := by
  have h1 := (C34_accepts 0 _ c).2 ⟨prof, r, rfl, hp, h, .inl rfl⟩
  have h2 := (C34_accepts 0 _ c').2 ⟨prof', r', rfl, hp', h', .inl rfl⟩
  rw [he, h2] at h1
  exact (Except.ok.inj h1).symm

/-- Non-vacuity for the round trip: a derive. -/
example : decode Toy.cfg 0 (le32 cmdMagic ++ le32 Toy.s3cmd.id ++ le32 Toy.cfg.profile.code ++
    Toy.s3cmd.asBytes ++ []) = .ok Toy.s3cmd :=
  C34_round_trip 0 _ _ trivial rfl

end Dpe
