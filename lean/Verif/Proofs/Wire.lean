import Verif.Proofs.Words
import Verif.Spec.Wire
import Verif.Proofs.Reply
import Mathlib.Tactic.ByContra
import Mathlib.Tactic.SplitIfs
/-
Readers and layouts.
-/
namespace Dpe
variable {cfg : Cfg} {σ : Type}

theorem getU32_iff {b r : Bytes} {x : U32} : getU32 b = some (x, r) ↔ b = le32 x ++ r := by
  constructor
  · intro h
    unfold getU32 at h
    split at h
    · rename_i a b c d t
      simp only [Option.some.injEq, Prod.mk.injEq] at h
      obtain ⟨rfl, rfl⟩ := h
      simp only [le32, List.cons_append, List.nil_append]
      refine List.cons_eq_cons.2 ⟨?_, List.cons_eq_cons.2 ⟨?_, List.cons_eq_cons.2 ⟨?_, List.cons_eq_cons.2 ⟨?_, rfl⟩⟩⟩⟩
      all_goals
        apply UInt8.toBitVec_inj.1
        simp only
        apply BitVec.eq_of_getLsbD_eq
        intro i hi
        simp only [BitVec.getLsbD_extractLsb', BitVec.getLsbD_append, hi, decide_true, Bool.true_and]
        repeat' split
        all_goals first | omega | (congr 1; omega) | rfl
    · cases h
  · rintro rfl
    simp only [getU32, le32, List.cons_append, List.nil_append, Option.some.injEq, Prod.mk.injEq, and_true]
    apply BitVec.eq_of_getLsbD_eq
    intro i hi
    simp only [BitVec.getLsbD_extractLsb', BitVec.getLsbD_append]
    repeat' split
    all_goals
      first
      | omega
      | (rw [decide_eq_true (by omega), Bool.true_and]; congr 1; omega)

theorem getU16_iff {b r : Bytes} {x : BitVec 16} : getU16 b = some (x, r) ↔ b = le16 x ++ r := by
  constructor
  · intro h
    unfold getU16 at h
    split at h
    · rename_i a b t
      simp only [Option.some.injEq, Prod.mk.injEq] at h
      obtain ⟨rfl, rfl⟩ := h
      simp only [le16, List.cons_append, List.nil_append]
      refine List.cons_eq_cons.2 ⟨?_, List.cons_eq_cons.2 ⟨?_, rfl⟩⟩
      all_goals
        apply UInt8.toBitVec_inj.1
        simp only
        apply BitVec.eq_of_getLsbD_eq
        intro i hi
        simp only [BitVec.getLsbD_extractLsb', BitVec.getLsbD_append, hi, decide_true, Bool.true_and]
        repeat' split
        all_goals first | omega | (congr 1; omega) | rfl
    · cases h
  · rintro rfl
    simp only [getU16, le16, List.cons_append, List.nil_append, Option.some.injEq, Prod.mk.injEq, and_true]
    apply BitVec.eq_of_getLsbD_eq
    intro i hi
    simp only [BitVec.getLsbD_extractLsb', BitVec.getLsbD_append]
    repeat' split
    all_goals
      first
      | omega
      | (rw [decide_eq_true (by omega), Bool.true_and]; congr 1; omega)

theorem getArr_iff {n : Nat} {b r : Bytes} {x : BArr n} :
    getArr n b = some (x, r) ↔ b = x.toList ++ r := by
  unfold getArr
  constructor
  · intro h
    split at h
    · simp only [Option.some.injEq, Prod.mk.injEq] at h
      obtain ⟨rfl, rfl⟩ := h
      simp
    · cases h
  · rintro rfl
    rw [dif_pos (by simp)]
    simp only [Option.some.injEq, Prod.mk.injEq]
    refine ⟨?_, by simp⟩
    apply Vector.toList_inj.1
    simp

theorem getU32_none {b : Bytes} : getU32 b = none ↔ b.length < 4 := by
  unfold getU32
  split
  · simp
  · rename_i h
    simp only [true_iff]
    match b, h with
    | [], _ => simp
    | [_], _ => simp
    | [_, _], _ => simp
    | [_, _, _], _ => simp
    | a :: b :: c :: d :: r, h => exact absurd rfl (h a b c d r)

theorem getArr_none {n : Nat} {b : Bytes} : getArr n b = none ↔ b.length < n := by
  unfold getArr
  split
  · simp; omega
  · simp; omega

theorem bind_some_iff {α β : Type} {x : Option (α × Bytes)} {f : α × Bytes → Option β} {y : β} :
    (x >>= f) = some y ↔ ∃ a r, x = some (a, r) ∧ f (a, r) = some y := by
  cases x with
  | none => simp
  | some p =>
    obtain ⟨a, r⟩ := p
    constructor
    · intro h; exact ⟨a, r, rfl, h⟩
    · rintro ⟨_, _, h1, h2⟩; cases h1; exact h2

theorem pure_some_iff {α : Type} {x y : α} : (pure x : Option α) = some y ↔ x = y := by
  simp [pure]

theorem getRotate_iff {b r : Bytes} {c : RotateCmd} :
    getRotate b = some (c, r) ↔ b = c.handle.toList ++ (le32 c.flags ++ r) := by
  simp only [getRotate, bind_some_iff, getArr_iff, getU32_iff, pure_some_iff, Prod.mk.injEq]
  constructor
  · rintro ⟨h, _, rfl, f, _, rfl, rfl, rfl⟩; rfl
  · rintro rfl; exact ⟨_, _, rfl, _, _, rfl, rfl, rfl⟩

theorem getDerive_iff {b r : Bytes} {c : DeriveCmd cfg} :
    getDerive b = some (c, r) ↔ b = c.handle.toList ++ (c.data.toList ++ (le32 c.flags ++
      (le32 c.tciType ++ (le32 c.targetLocality ++ (le32 c.svn ++ r))))) := by
  simp only [getDerive, bind_some_iff, getArr_iff, getU32_iff, pure_some_iff, Prod.mk.injEq]
  constructor
  · rintro ⟨h, _, rfl, d, _, rfl, f, _, rfl, t, _, rfl, l, _, rfl, v, _, rfl, rfl, rfl⟩; rfl
  · rintro rfl
    exact ⟨_, _, rfl, _, _, rfl, _, _, rfl, _, _, rfl, _, _, rfl, _, _, rfl, rfl, rfl⟩

theorem getUpdate_iff {b r : Bytes} {c : UpdateCmd cfg} :
    getUpdate b = some (c, r) ↔ b = c.parentHandle.toList ++ (c.data.toList ++ (le32 c.reserved ++
      (le32 c.tciType ++ (le32 c.reservedSvn ++ r)))) := by
  simp only [getUpdate, bind_some_iff, getArr_iff, getU32_iff, pure_some_iff, Prod.mk.injEq]
  constructor
  · rintro ⟨h, _, rfl, d, _, rfl, f, _, rfl, t, _, rfl, l, _, rfl, rfl, rfl⟩; rfl
  · rintro rfl
    exact ⟨_, _, rfl, _, _, rfl, _, _, rfl, _, _, rfl, _, _, rfl, rfl, rfl⟩

theorem getChain_iff {b r : Bytes} {c : ChainCmd} :
    getChain b = some (c, r) ↔ b = le32 c.offset ++ (le32 c.size ++ r) := by
  simp only [getChain, bind_some_iff, getU32_iff, pure_some_iff, Prod.mk.injEq]
  constructor
  · rintro ⟨h, _, rfl, f, _, rfl, rfl, rfl⟩; rfl
  · rintro rfl; exact ⟨_, _, rfl, _, _, rfl, rfl, rfl⟩

theorem getCmdHdr_iff {b r : Bytes} {c : CmdHdr} :
    getCmdHdr b = some (c, r) ↔ b = le32 c.magic ++ (le32 c.cmdId ++ (le32 c.profile ++ r)) := by
  simp only [getCmdHdr, bind_some_iff, getU32_iff, pure_some_iff, Prod.mk.injEq]
  constructor
  · rintro ⟨h, _, rfl, f, _, rfl, p, _, rfl, rfl, rfl⟩; rfl
  · rintro rfl; exact ⟨_, _, rfl, _, _, rfl, _, _, rfl, rfl, rfl⟩

theorem getCertify256_iff {b r : Bytes} {c : CertifyCmd} :
    getCertify256 b = some (c, r) ↔ ∃ h f t l, c = .p256 h f t l ∧
      b = h.toList ++ (le32 f ++ (le32 t ++ (l.toList ++ r))) := by
  simp only [getCertify256, bind_some_iff, getArr_iff, getU32_iff, pure_some_iff, Prod.mk.injEq]
  constructor
  · rintro ⟨h, _, rfl, f, _, rfl, p, _, rfl, l, _, rfl, rfl, rfl⟩; exact ⟨_, _, _, _, rfl, rfl⟩
  · rintro ⟨h, f, t, l, rfl, rfl⟩; exact ⟨_, _, rfl, _, _, rfl, _, _, rfl, _, _, rfl, rfl, rfl⟩

theorem getCertify384_iff {b r : Bytes} {c : CertifyCmd} :
    getCertify384 b = some (c, r) ↔ ∃ h f t l, c = .p384 h f t l ∧
      b = h.toList ++ (le32 f ++ (le32 t ++ (l.toList ++ r))) := by
  simp only [getCertify384, bind_some_iff, getArr_iff, getU32_iff, pure_some_iff, Prod.mk.injEq]
  constructor
  · rintro ⟨h, _, rfl, f, _, rfl, p, _, rfl, l, _, rfl, rfl, rfl⟩; exact ⟨_, _, _, _, rfl, rfl⟩
  · rintro ⟨h, f, t, l, rfl, rfl⟩; exact ⟨_, _, rfl, _, _, rfl, _, _, rfl, _, _, rfl, rfl, rfl⟩

theorem getCertifyMl_iff {b r : Bytes} {c : CertifyCmd} :
    getCertifyMl b = some (c, r) ↔ ∃ h f t l, c = .mldsa87 h f t l ∧
      b = h.toList ++ (le32 f ++ (le32 t ++ (l.toList ++ r))) := by
  simp only [getCertifyMl, bind_some_iff, getArr_iff, getU32_iff, pure_some_iff, Prod.mk.injEq]
  constructor
  · rintro ⟨h, _, rfl, f, _, rfl, p, _, rfl, l, _, rfl, rfl, rfl⟩; exact ⟨_, _, _, _, rfl, rfl⟩
  · rintro ⟨h, f, t, l, rfl, rfl⟩; exact ⟨_, _, rfl, _, _, rfl, _, _, rfl, _, _, rfl, rfl, rfl⟩

theorem getSign256_iff {b r : Bytes} {c : SignCmd} :
    getSign256 b = some (c, r) ↔ ∃ h l f d, c = .p256 h l f d ∧
      b = h.toList ++ (l.toList ++ (le32 f ++ (d.toList ++ r))) := by
  simp only [getSign256, bind_some_iff, getArr_iff, getU32_iff, pure_some_iff, Prod.mk.injEq]
  constructor
  · rintro ⟨h, _, rfl, f, _, rfl, p, _, rfl, l, _, rfl, rfl, rfl⟩; exact ⟨_, _, _, _, rfl, rfl⟩
  · rintro ⟨h, f, t, l, rfl, rfl⟩; exact ⟨_, _, rfl, _, _, rfl, _, _, rfl, _, _, rfl, rfl, rfl⟩

theorem getSign384_iff {b r : Bytes} {c : SignCmd} :
    getSign384 b = some (c, r) ↔ ∃ h l f d, c = .p384 h l f d ∧
      b = h.toList ++ (l.toList ++ (le32 f ++ (d.toList ++ r))) := by
  simp only [getSign384, bind_some_iff, getArr_iff, getU32_iff, pure_some_iff, Prod.mk.injEq]
  constructor
  · rintro ⟨h, _, rfl, f, _, rfl, p, _, rfl, l, _, rfl, rfl, rfl⟩; exact ⟨_, _, _, _, rfl, rfl⟩
  · rintro ⟨h, f, t, l, rfl, rfl⟩; exact ⟨_, _, rfl, _, _, rfl, _, _, rfl, _, _, rfl, rfl, rfl⟩

theorem getSignMl_iff {b r : Bytes} {c : SignCmd} :
    getSignMl b = some (c, r) ↔ ∃ h l f d, c = .mldsa87 h l f d ∧
      b = h.toList ++ (l.toList ++ (le32 f ++ (d.toList ++ r))) := by
  simp only [getSignMl, bind_some_iff, getArr_iff, getU32_iff, pure_some_iff, Prod.mk.injEq]
  constructor
  · rintro ⟨h, _, rfl, f, _, rfl, p, _, rfl, l, _, rfl, rfl, rfl⟩; exact ⟨_, _, _, _, rfl, rfl⟩
  · rintro ⟨h, f, t, l, rfl, rfl⟩; exact ⟨_, _, rfl, _, _, rfl, _, _, rfl, _, _, rfl, rfl, rfl⟩

theorem getSignMlRaw_iff {b r : Bytes} {c : SignCmd} :
    getSignMlRaw b = some (c, r) ↔ ∃ h l f n d, c = .mldsa87Raw h l f n d ∧
      b = h.toList ++ (l.toList ++ (le32 f ++ (le32 n ++ (d.toList ++ r)))) := by
  simp only [getSignMlRaw, bind_some_iff, getArr_iff, getU32_iff, pure_some_iff, Prod.mk.injEq]
  constructor
  · rintro ⟨h, _, rfl, f, _, rfl, p, _, rfl, l, _, rfl, n, _, rfl, rfl, rfl⟩
    exact ⟨_, _, _, _, _, rfl, rfl⟩
  · rintro ⟨h, f, t, l, n, rfl, rfl⟩
    exact ⟨_, _, rfl, _, _, rfl, _, _, rfl, _, _, rfl, _, _, rfl, rfl, rfl⟩

theorem getMlFlags_iff {b r : Bytes} {f : U32} :
    getMlFlags b = some (f, r) ↔ ∃ (h : BArr 16) (l : BArr 48),
      b = h.toList ++ (l.toList ++ (le32 f ++ r)) := by
  simp only [getMlFlags, bind_some_iff, getArr_iff, getU32_iff]
  constructor
  · rintro ⟨h, _, rfl, l, _, rfl, rfl⟩; exact ⟨_, _, rfl⟩
  · rintro ⟨h, l, rfl⟩; exact ⟨_, _, rfl, _, _, rfl, rfl⟩

theorem parseCommand_ok {α β : Type} {al addr : Nat} {p : Bytes → Option (α × Bytes)} {f : α → β}
    {b : Bytes} {y : β} :
    parseCommand al addr p f b = .ok y ↔ addr % al = 0 ∧ ∃ a r, p b = some (a, r) ∧ f a = y := by
  unfold parseCommand
  by_cases h : addr % al = 0
  · rw [if_pos h]
    rcases hp : p b with _ | ⟨a, r⟩
    · simp
    · simp [h]
  · simp [h]

theorem parseCommand_error {α β : Type} {al addr : Nat} {p : Bytes → Option (α × Bytes)} {f : α → β}
    {b : Bytes} {e : Err} (h : parseCommand al addr p f b = .error e) : e = .invalidArgument := by
  unfold parseCommand at h
  split at h
  · split at h <;> cases h; rfl
  · cases h; rfl

theorem cmdHdr_ok {p : Profile} {b : Bytes} {h : CmdHdr} :
    cmdHdrWithProfile p b = .ok h ↔ ∃ r, b = le32 cmdMagic ++ (le32 h.cmdId ++ (le32 h.profile ++ r)) ∧
      h.magic = cmdMagic ∧ (h.cmdId = 1 ∨ h.profile = p.code) := by
  have e1 : cmdHdrTryFrom b = .ok h ↔ ∃ r, getCmdHdr b = some (h, r) ∧ h.magic = cmdMagic := by
    unfold cmdHdrTryFrom
    rcases hp : getCmdHdr b with _ | ⟨a, r⟩
    · simp
    · by_cases hm : a.magic = cmdMagic
      · simp only [hm, bne_self_eq_false, Bool.false_eq_true, if_false, Except.ok.injEq,
          Option.some.injEq, Prod.mk.injEq]
        constructor
        · rintro rfl; exact ⟨r, ⟨rfl, rfl⟩, hm⟩
        · rintro ⟨_, ⟨rfl, _⟩, _⟩; rfl
      · have : (a.magic != cmdMagic) = true := by simpa using hm
        simp only [this, if_true, reduceCtorEq, Option.some.injEq, Prod.mk.injEq, false_iff]
        rintro ⟨_, ⟨rfl, _⟩, h⟩; exact hm h
  have e2 : cmdHdrWithProfile p b = .ok h ↔ cmdHdrTryFrom b = .ok h ∧ (h.cmdId = 1 ∨ h.profile = p.code) := by
    unfold cmdHdrWithProfile
    rcases hp : cmdHdrTryFrom b with e | a
    · simp
    · by_cases hc : (a.cmdId != 1 && a.profile != p.code) = true
      · simp only [hc, if_true, reduceCtorEq, Except.ok.injEq, false_iff]
        rintro ⟨rfl, h⟩
        simp only [Bool.and_eq_true, bne_iff_ne, ne_eq] at hc
        rcases h with h | h
        · exact hc.1 h
        · exact hc.2 h
      · simp only [hc, Bool.false_eq_true, if_false, Except.ok.injEq]
        constructor
        · rintro rfl
          refine ⟨rfl, ?_⟩
          simp only [Bool.and_eq_true, bne_iff_ne, ne_eq, not_and, Classical.not_not] at hc
          by_cases h1 : a.cmdId = 1
          · exact .inl h1
          · exact .inr (hc h1)
        · rintro ⟨rfl, _⟩; rfl
  rw [e2, e1]
  simp only [getCmdHdr_iff]
  constructor
  · rintro ⟨⟨r, h1, h2⟩, h3⟩; exact ⟨r, by rw [← h2]; exact h1, h2, h3⟩
  · rintro ⟨r, h1, h2, h3⟩; exact ⟨⟨r, by rw [h2]; exact h1, h2⟩, h3⟩

theorem cmdHdr_error {p : Profile} {b : Bytes} {e : Err} (h : cmdHdrWithProfile p b = .error e) :
    e = .invalidCommand := by
  unfold cmdHdrWithProfile at h
  split at h
  · rename_i h1
    cases h
    unfold cmdHdrTryFrom at h1
    split at h1
    · cases h1; rfl
    · split at h1 <;> cases h1; rfl
  · split at h <;> cases h; rfl

theorem wireHeader_eq (id prof : U32) :
    wireHeader id prof = le32 cmdMagic ++ (le32 id ++ le32 prof) := by
  unfold wireHeader
  rw [word_eq, word_eq]
  rfl

theorem statusWord_eq (e : Err) : statusWord e = e.code := by
  cases e with
  | platform e => cases e <;> simp only [statusWord, platformNumber, Err.code, PlatErr.disc] <;> decide
  | crypto e => cases e <;> simp only [statusWord, cryptoNumber, Err.code, CryptoErr.disc] <;> decide
  | validation e => cases e <;> decide
  | _ => rfl

theorem wireId_eq (c : Cmd cfg) : wireId c = c.id := by cases c <;> rfl

/-- The documented parameter layout is the serialisation the code performs. -/
theorem wireBody_eq (c : Cmd cfg) : (wireBody c).flatten = c.asBytes := by
  cases c with
  | certify c => cases c <;> simp [wireBody, Cmd.asBytes, CertifyCmd.asBytes, word_eq]
  | sign c => cases c <;> simp [wireBody, Cmd.asBytes, SignCmd.asBytes, word_eq]
  | _ => simp [wireBody, Cmd.asBytes, word_eq]

theorem decodeSignMl_ok {addr : Nat} {b : Bytes} {c : SignCmd} :
    decodeSignMl addr b = .ok c ↔ addr % 4 = 0 ∧ ∃ r, b = c.asBytes ++ r ∧
      ((∃ h l f d, c = .mldsa87 h l f d ∧ f.getLsbD 0 = false) ∨
       (∃ h l f n d, c = .mldsa87Raw h l f n d ∧ f.getLsbD 0 = true ∧ n.toNat ≤ 1024)) := by
  have flagsOf : ∀ {h : BArr 16} {l : BArr 48} {f f' : U32} {r r' : Bytes} {h' : BArr 16} {l' : BArr 48},
      h.toList ++ (l.toList ++ (le32 f ++ r)) = h'.toList ++ (l'.toList ++ (le32 f' ++ r')) → f = f' := by
    intro h l f f' r r' h' l' e
    obtain ⟨_, e⟩ := List.append_inj e (by simp)
    obtain ⟨_, e⟩ := List.append_inj e (by simp)
    have e1 : getU32 (le32 f ++ r) = some (f, r) := getU32_iff.2 rfl
    have e2 : getU32 (le32 f ++ r) = some (f', r') := getU32_iff.2 e
    rw [e1] at e2; cases e2; rfl
  constructor
  · intro h
    unfold decodeSignMl at h
    rcases hp : parseCommand 4 addr getMlFlags id b with e | f
    · rw [hp] at h; cases h
    · rw [hp] at h
      simp only at h
      obtain ⟨ha, f', r0, hf, rfl⟩ := parseCommand_ok.1 hp
      obtain ⟨h0, l0, rfl⟩ := getMlFlags_iff.1 hf
      simp only [id] at h
      by_cases hb : f'.getLsbD 0 = true
      · rw [if_pos hb] at h
        unfold decodeSignRaw at h
        split at h
        · cases h
        · rcases hq : parseCommand 4 addr getSignMlRaw id (h0.toList ++ (l0.toList ++ (le32 f' ++ r0))) with e | c'
          · rw [hq] at h; cases h
          · rw [hq] at h
            obtain ⟨_, c2, r1, h2, rfl⟩ := parseCommand_ok.1 hq
            obtain ⟨h1, l1, f1, n1, d1, rfl, e⟩ := getSignMlRaw_iff.1 h2
            have := flagsOf e; subst this
            simp only [id, checkRaw] at h
            by_cases hn : 1024 < n1.toNat
            · rw [if_pos hn] at h; cases h
            · rw [if_neg hn] at h; cases h
              exact ⟨ha, r1, by simpa [SignCmd.asBytes] using e,
                .inr ⟨_, _, _, _, _, rfl, hb, by omega⟩⟩
      · rw [if_neg hb] at h
        obtain ⟨_, c2, r1, h2, rfl⟩ := parseCommand_ok.1 h
        obtain ⟨h1, l1, f1, d1, rfl, e⟩ := getSignMl_iff.1 h2
        have := flagsOf e; subst this
        exact ⟨ha, r1, by simpa [SignCmd.asBytes] using e, .inl ⟨_, _, _, _, rfl, by simpa using hb⟩⟩
  · rintro ⟨ha, r, rfl, ⟨h, l, f, d, rfl, hb⟩ | ⟨h, l, f, n, d, rfl, hb, hn⟩⟩
    · have e1 : parseCommand 4 addr getMlFlags id ((SignCmd.mldsa87 h l f d).asBytes ++ r) = .ok f :=
        parseCommand_ok.2 ⟨ha, f, d.toList ++ r, getMlFlags_iff.2 ⟨h, l, by simp [SignCmd.asBytes]⟩, rfl⟩
      unfold decodeSignMl
      rw [e1]
      simp only [hb, Bool.false_eq_true, if_false]
      exact parseCommand_ok.2 ⟨ha, _, r, getSignMl_iff.2 ⟨h, l, f, d, rfl, by simp [SignCmd.asBytes]⟩, rfl⟩
    · have e1 : parseCommand 4 addr getMlFlags id ((SignCmd.mldsa87Raw h l f n d).asBytes ++ r) = .ok f :=
        parseCommand_ok.2 ⟨ha, f, le32 n ++ (d.toList ++ r),
          getMlFlags_iff.2 ⟨h, l, by simp [SignCmd.asBytes]⟩, rfl⟩
      have e2 : parseCommand 4 addr getSignMlRaw id ((SignCmd.mldsa87Raw h l f n d).asBytes ++ r) =
          .ok (.mldsa87Raw h l f n d) :=
        parseCommand_ok.2 ⟨ha, _, r, getSignMlRaw_iff.2 ⟨h, l, f, n, d, rfl, by simp [SignCmd.asBytes]⟩, rfl⟩
      unfold decodeSignMl
      rw [e1]
      simp only [hb, if_true]
      unfold decodeSignRaw
      rw [if_neg (by simp [SignCmd.asBytes, le32]; omega), e2]
      simp only [checkRaw]
      rw [if_neg (by omega)]

theorem decodeSignMl_error {addr : Nat} {b : Bytes} {e : Err} (h : decodeSignMl addr b = .error e) :
    e = .invalidArgument := by
  unfold decodeSignMl at h
  split at h
  · rename_i h1; cases h; exact parseCommand_error h1
  · split at h
    · unfold decodeSignRaw at h
      split at h
      · cases h; rfl
      · split at h
        · rename_i h1; cases h; exact parseCommand_error h1
        · unfold checkRaw at h
          split at h
          · split at h <;> cases h; rfl
          · cases h
    · exact parseCommand_error h

theorem map_ok_iff {α β : Type} {x : Except Err α} {f : α → β} {y : β} :
    x.map f = .ok y ↔ ∃ a, x = .ok a ∧ f a = y := by
  cases x <;> simp [Except.map]

theorem map_error {α β : Type} {x : Except Err α} {f : α → β} {e : Err}
    (h : x.map f = .error e) : x = .error e := by
  cases x with
  | error a => simpa [Except.map] using h
  | ok a => simp [Except.map] at h

theorem decodeCertify_ok {p : Profile} {addr : Nat} {b : Bytes} {c : CertifyCmd} :
    decodeCertify p addr b = .ok c ↔ addr % 4 = 0 ∧ c.variant = p ∧ ∃ r, b = c.asBytes ++ r := by
  cases p <;> simp only [decodeCertify, parseCommand_ok, getCertify256_iff, getCertify384_iff,
    getCertifyMl_iff, id]
  all_goals
    constructor
    · rintro ⟨h1, _, r, ⟨h, f, t, l, rfl, rfl⟩, rfl⟩
      exact ⟨h1, rfl, r, by simp [CertifyCmd.asBytes]⟩
    · rintro ⟨h1, h2, r, rfl⟩
      cases c <;> simp [CertifyCmd.variant] at h2
      exact ⟨h1, _, r, ⟨_, _, _, _, rfl, by simp [CertifyCmd.asBytes]⟩, rfl⟩

theorem decodeSign_ok {p : Profile} {addr : Nat} {b : Bytes} {c : SignCmd} :
    decodeSign p addr b = .ok c ↔ addr % 4 = 0 ∧ (∃ r, b = c.asBytes ++ r) ∧
      ((p = .p256 ∧ ∃ h l f d, c = .p256 h l f d) ∨ (p = .p384 ∧ ∃ h l f d, c = .p384 h l f d) ∨
       (p = .mldsa87 ∧ ((∃ h l f d, c = .mldsa87 h l f d ∧ f.getLsbD 0 = false) ∨
       (∃ h l f n d, c = .mldsa87Raw h l f n d ∧ f.getLsbD 0 = true ∧ n.toNat ≤ 1024)))) := by
  cases p
  · simp only [decodeSign, parseCommand_ok, getSign256_iff, id]
    constructor
    · rintro ⟨h1, _, r, ⟨h, f, t, l, rfl, rfl⟩, rfl⟩
      exact ⟨h1, ⟨r, by simp [SignCmd.asBytes]⟩, .inl ⟨trivial, _, _, _, _, rfl⟩⟩
    · rintro ⟨h1, ⟨r, rfl⟩, ⟨_, h, l, f, d, rfl⟩ | ⟨h, _⟩ | ⟨h, _⟩⟩
      · exact ⟨h1, _, r, ⟨_, _, _, _, rfl, by simp [SignCmd.asBytes]⟩, rfl⟩
      · cases h
      · cases h
  · simp only [decodeSign, parseCommand_ok, getSign384_iff, id]
    constructor
    · rintro ⟨h1, _, r, ⟨h, f, t, l, rfl, rfl⟩, rfl⟩
      exact ⟨h1, ⟨r, by simp [SignCmd.asBytes]⟩, .inr (.inl ⟨trivial, _, _, _, _, rfl⟩)⟩
    · rintro ⟨h1, ⟨r, rfl⟩, ⟨h, _⟩ | ⟨_, h, l, f, d, rfl⟩ | ⟨h, _⟩⟩
      · cases h
      · exact ⟨h1, _, r, ⟨_, _, _, _, rfl, by simp [SignCmd.asBytes]⟩, rfl⟩
      · cases h
  · simp only [decodeSign, decodeSignMl_ok]
    constructor
    · rintro ⟨h1, r, h2, h3⟩; exact ⟨h1, ⟨r, h2⟩, .inr (.inr ⟨trivial, h3⟩)⟩
    · rintro ⟨h1, ⟨r, h2⟩, ⟨h, _⟩ | ⟨h, _⟩ | ⟨_, h3⟩⟩
      · cases h
      · cases h
      · exact ⟨h1, r, h2, h3⟩

theorem decodeBody_ok {addr : Nat} {i : U32} {b : Bytes} {c : Cmd cfg} :
    decodeBody cfg addr i b = .ok c ↔
      (∃ r, b = c.asBytes ++ r) ∧ i = c.id ∧ InProfile cfg c ∧ Aligned addr c := by
  constructor
  · intro h
    unfold decodeBody at h
    by_cases i1 : i = 0x01
    · rw [if_pos i1] at h
      obtain ⟨h1, _, r, _, rfl⟩ := parseCommand_ok.1 h
      exact ⟨⟨b, by simp [Cmd.asBytes]⟩, i1, trivial, .inl h1⟩
    rw [if_neg i1] at h; clear i1
    by_cases i1 : i = 0x07
    · rw [if_pos i1] at h
      obtain ⟨h1, _, r, h2, rfl⟩ := parseCommand_ok.1 h
      exact ⟨⟨r, getU32_iff.1 h2⟩, i1, trivial, .inl h1⟩
    rw [if_neg i1] at h; clear i1
    by_cases i1 : i = 0x08
    · rw [if_pos i1] at h
      obtain ⟨h1, _, r, h2, rfl⟩ := parseCommand_ok.1 h
      exact ⟨⟨r, by simpa [Cmd.asBytes] using getDerive_iff.1 h2⟩, i1, trivial, .inl h1⟩
    rw [if_neg i1] at h; clear i1
    by_cases i1 : i = 0x09
    · rw [if_pos i1] at h
      obtain ⟨c, h0, rfl⟩ := map_ok_iff.1 h
      obtain ⟨h1, h2, r, rfl⟩ := decodeCertify_ok.1 h0
      refine ⟨⟨r, rfl⟩, i1, ?_, .inl h1⟩
      cases c <;> exact h2.symm
    rw [if_neg i1] at h; clear i1
    by_cases i1 : i = 0x0A
    · rw [if_pos i1] at h
      obtain ⟨c, h0, rfl⟩ := map_ok_iff.1 h
      obtain ⟨h1, ⟨r, rfl⟩, h2⟩ := decodeSign_ok.1 h0
      refine ⟨⟨r, rfl⟩, i1, ?_, .inl h1⟩
      rcases h2 with ⟨h2, _, _, _, _, rfl⟩ | ⟨h2, _, _, _, _, rfl⟩ | ⟨h2, ⟨_, _, _, _, rfl, h3⟩ | ⟨_, _, _, _, _, rfl, h3⟩⟩
      · exact h2
      · exact h2
      · refine ⟨h2, ?_⟩
        unfold Bit; rw [h3]; simp
      · exact ⟨h2, h3⟩
    rw [if_neg i1] at h; clear i1
    by_cases i1 : i = 0x0e ∧ rotateBit cfg.disabled = false
    · rw [if_pos i1] at h
      obtain ⟨h1, _, r, h2, rfl⟩ := parseCommand_ok.1 h
      refine ⟨⟨r, by simpa [Cmd.asBytes] using getRotate_iff.1 h2⟩, i1.1, ?_, .inl h1⟩
      intro h3
      have := i1.2
      unfold rotateBit at this
      unfold Bit Feature.rotate at h3
      rw [h3] at this; cases this
    rw [if_neg i1] at h; clear i1
    by_cases i1 : i = 0x0f
    · rw [if_pos i1] at h
      obtain ⟨h1, _, r, h2, rfl⟩ := parseCommand_ok.1 h
      exact ⟨⟨r, getArr_iff.1 h2⟩, i1, trivial, .inr ⟨_, rfl⟩⟩
    rw [if_neg i1] at h; clear i1
    by_cases i1 : i = 0x10
    · rw [if_pos i1] at h
      obtain ⟨h1, _, r, h2, rfl⟩ := parseCommand_ok.1 h
      exact ⟨⟨r, by simpa [Cmd.asBytes] using getChain_iff.1 h2⟩, i1, trivial, .inl h1⟩
    rw [if_neg i1] at h; clear i1
    by_cases i1 : i = 0x80000000
    · rw [if_pos i1] at h
      obtain ⟨h1, _, r, h2, rfl⟩ := parseCommand_ok.1 h
      exact ⟨⟨r, by simpa [Cmd.asBytes] using getUpdate_iff.1 h2⟩, i1, trivial, .inl h1⟩
    rw [if_neg i1] at h
    cases h
  · rintro ⟨⟨r, rfl⟩, rfl, hp, ha⟩
    have ha' : (∀ h, c ≠ .destroy h) → addr % 4 = 0 := by
      intro hn
      rcases ha with ha | ⟨h, ha⟩
      · exact ha
      · exact absurd ha (hn h)
    cases c with
    | getProfile =>
      unfold decodeBody
      rw [if_pos (by simp [Cmd.id])]
      exact parseCommand_ok.2 ⟨ha' (by simp), (), _, rfl, rfl⟩
    | init f =>
      exact parseCommand_ok.2 ⟨ha' (by simp), f, r, getU32_iff.2 rfl, rfl⟩
    | derive c =>
      exact parseCommand_ok.2 ⟨ha' (by simp), c, r, getDerive_iff.2 (by simp [Cmd.asBytes]), rfl⟩
    | certify c =>
      refine map_ok_iff.2 ⟨c, decodeCertify_ok.2 ⟨ha' (by simp), ?_, r, rfl⟩, rfl⟩
      cases c <;> exact hp.symm
    | sign c =>
      refine map_ok_iff.2 ⟨c, decodeSign_ok.2 ⟨ha' (by simp), ⟨r, rfl⟩, ?_⟩, rfl⟩
      cases c with
      | p256 => exact .inl ⟨hp, _, _, _, _, rfl⟩
      | p384 => exact .inr (.inl ⟨hp, _, _, _, _, rfl⟩)
      | mldsa87 => exact .inr (.inr ⟨hp.1, .inl ⟨_, _, _, _, rfl, by simpa [Bit] using hp.2⟩⟩)
      | mldsa87Raw => exact .inr (.inr ⟨hp.1, .inr ⟨_, _, _, _, _, rfl, hp.2⟩⟩)
    | rotate c =>
      unfold decodeBody
      have : rotateBit cfg.disabled = false := by
        unfold InProfile Bit Feature.rotate at hp
        unfold rotateBit
        simpa using hp
      rw [if_neg (by simp [Cmd.id]), if_neg (by simp [Cmd.id]), if_neg (by simp [Cmd.id]),
        if_neg (by simp [Cmd.id]), if_neg (by simp [Cmd.id]), if_pos ⟨rfl, this⟩]
      exact parseCommand_ok.2 ⟨ha' (by simp), c, r, getRotate_iff.2 (by simp [Cmd.asBytes]), rfl⟩
    | destroy h =>
      unfold decodeBody
      rw [if_neg (by simp [Cmd.id]), if_neg (by simp [Cmd.id]), if_neg (by simp [Cmd.id]),
        if_neg (by simp [Cmd.id]), if_neg (by simp [Cmd.id]), if_neg (by simp [Cmd.id]), if_pos (by simp [Cmd.id])]
      exact parseCommand_ok.2 ⟨by omega, h, r, getArr_iff.2 rfl, rfl⟩
    | chain c =>
      unfold decodeBody
      rw [if_neg (by simp [Cmd.id]), if_neg (by simp [Cmd.id]), if_neg (by simp [Cmd.id]),
        if_neg (by simp [Cmd.id]), if_neg (by simp [Cmd.id]), if_neg (by simp [Cmd.id]),
        if_neg (by simp [Cmd.id]), if_pos (by simp [Cmd.id])]
      exact parseCommand_ok.2 ⟨ha' (by simp), c, r, getChain_iff.2 (by simp [Cmd.asBytes]), rfl⟩
    | update c =>
      unfold decodeBody
      rw [if_neg (by simp [Cmd.id]), if_neg (by simp [Cmd.id]), if_neg (by simp [Cmd.id]),
        if_neg (by simp [Cmd.id]), if_neg (by simp [Cmd.id]), if_neg (by simp [Cmd.id]),
        if_neg (by simp [Cmd.id]), if_neg (by simp [Cmd.id]), if_pos (by simp [Cmd.id])]
      exact parseCommand_ok.2 ⟨ha' (by simp), c, r, getUpdate_iff.2 (by simp [Cmd.asBytes]), rfl⟩

theorem decodeBody_error {addr : Nat} {i : U32} {b : Bytes} {e : Err}
    (h : decodeBody cfg addr i b = .error e) :
    (e = .invalidCommand ∧ ¬ KnownId cfg i) ∨ (e = .invalidArgument ∧ KnownId cfg i) := by
  unfold decodeBody at h
  unfold KnownId
  by_cases i1 : i = 0x01
  · rw [if_pos i1] at h; exact .inr ⟨parseCommand_error h, .inl i1⟩
  rw [if_neg i1] at h
  by_cases i2 : i = 0x07
  · rw [if_pos i2] at h; exact .inr ⟨parseCommand_error h, .inr (.inl i2)⟩
  rw [if_neg i2] at h
  by_cases i3 : i = 0x08
  · rw [if_pos i3] at h; exact .inr ⟨parseCommand_error h, .inr (.inr (.inl i3))⟩
  rw [if_neg i3] at h
  by_cases i4 : i = 0x09
  · rw [if_pos i4] at h
    have h := map_error h
    refine .inr ⟨?_, by simp [i4]⟩
    unfold decodeCertify at h
    split at h <;> exact parseCommand_error h
  rw [if_neg i4] at h
  by_cases i5 : i = 0x0A
  · rw [if_pos i5] at h
    have h := map_error h
    refine .inr ⟨?_, by simp [i5]⟩
    unfold decodeSign at h
    split at h
    · exact parseCommand_error h
    · exact parseCommand_error h
    · exact decodeSignMl_error h
  rw [if_neg i5] at h
  by_cases i6 : i = 0x0e ∧ rotateBit cfg.disabled = false
  · rw [if_pos i6] at h
    refine .inr ⟨parseCommand_error h, .inr (.inr (.inr (.inr (.inr (.inl ⟨i6.1, ?_⟩)))))⟩
    have := i6.2
    unfold rotateBit at this
    unfold Bit Feature.rotate
    rw [this]; simp
  rw [if_neg i6] at h
  by_cases i7 : i = 0x0f
  · rw [if_pos i7] at h; exact .inr ⟨parseCommand_error h, by simp [i7]⟩
  rw [if_neg i7] at h
  by_cases i8 : i = 0x10
  · rw [if_pos i8] at h; exact .inr ⟨parseCommand_error h, by simp [i8]⟩
  rw [if_neg i8] at h
  by_cases i9 : i = 0x80000000
  · rw [if_pos i9] at h; exact .inr ⟨parseCommand_error h, by simp [i9]⟩
  rw [if_neg i9] at h
  cases h
  refine .inl ⟨rfl, ?_⟩
  rintro (h | h | h | h | h | h | h | h | h)
  · exact i1 h
  · exact i2 h
  · exact i3 h
  · exact i4 h
  · exact i5 h
  · exact i6 ⟨h.1, by simpa [Bit, Feature.rotate, rotateBit] using h.2⟩
  · exact i7 h
  · exact i8 h
  · exact i9 h

end Dpe
