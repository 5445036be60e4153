import Verif.Spec.Der
import Mathlib.Tactic.ByContra
import Mathlib.Tactic.SplitIfs
/-
Facts about the DER specification: digits, lengths, integers, the recogniser, trees.
-/
namespace Dpe

/-! ### Digits -/

theorem digitsTo_stable : ∀ (k k' n : Nat), n ≤ k → n ≤ k' → digitsTo k n = digitsTo k' n := by
  intro k
  induction k with
  | zero =>
    intro k' n h _
    have : n = 0 := by omega
    subst this
    cases k' <;> simp [digitsTo]
  | succ k ih =>
    intro k' n h h'
    by_cases hn : n = 0
    · subst hn
      cases k' <;> simp [digitsTo]
    · obtain ⟨j, rfl⟩ : ∃ j, k' = j + 1 := ⟨k' - 1, by omega⟩
      simp only [digitsTo, if_neg hn]
      rw [ih j (n / 256) (by omega) (by omega)]

theorem digits256_zero : digits256 0 = [] := rfl

theorem digits256_step {n : Nat} (h : n ≠ 0) :
    digits256 n = digits256 (n / 256) ++ [UInt8.ofNat n] := by
  obtain ⟨m, rfl⟩ : ∃ m, n = m + 1 := ⟨n - 1, by omega⟩
  unfold digits256
  rw [digitsTo, if_neg h, digitsTo_stable m ((m + 1) / 256) _ (by omega) (by omega)]

theorem beValue_nil : beValue [] = 0 := rfl

theorem beValue_concat (v : Bytes) (b : UInt8) : beValue (v ++ [b]) = beValue v * 256 + b.toNat := by
  simp [beValue, List.foldl_append]

theorem beFold_shift (v : Bytes) : ∀ a : Nat,
    v.foldl (fun a b => a * 256 + b.toNat) a = a * 256 ^ v.length + beValue v := by
  induction v with
  | nil => intro a; simp [beValue]
  | cons b v ih =>
    intro a
    simp only [List.foldl_cons, List.length_cons, beValue]
    rw [ih, ih]
    simp only [Nat.zero_mul, Nat.zero_add, Nat.pow_succ, Nat.add_mul]
    have : a * 256 * 256 ^ v.length = a * (256 ^ v.length * 256) := by
      rw [Nat.mul_assoc, Nat.mul_comm 256]
    omega

theorem beValue_cons (b : UInt8) (v : Bytes) :
    beValue (b :: v) = b.toNat * 256 ^ v.length + beValue v := by
  have := beFold_shift v (0 * 256 + b.toNat)
  simpa [beValue] using this

theorem beValue_lt (v : Bytes) : beValue v < 256 ^ v.length := by
  induction v with
  | nil => simp [beValue]
  | cons b v ih =>
    rw [beValue_cons, List.length_cons, Nat.pow_succ]
    have hb : b.toNat < 256 := b.toNat_lt
    have : b.toNat * 256 ^ v.length + 256 ^ v.length ≤ 256 ^ v.length * 256 := by
      have : (b.toNat + 1) * 256 ^ v.length ≤ 256 * 256 ^ v.length :=
        Nat.mul_le_mul_right _ (by omega)
      rw [Nat.add_mul] at this
      omega
    omega

theorem beValue_digits : ∀ n : Nat, beValue (digits256 n) = n := by
  intro n
  induction n using Nat.strongRecOn with
  | _ n ih =>
    by_cases hn : n = 0
    · subst hn; rfl
    · rw [digits256_step hn, beValue_concat, ih _ (by omega)]
      simp
      omega

/-- The first digit is not zero. -/
theorem digits256_head : ∀ n : Nat, ∀ d ds, digits256 n = d :: ds → d ≠ 0 := by
  intro n
  induction n using Nat.strongRecOn with
  | _ n ih =>
    intro d ds h
    by_cases hn : n = 0
    · subst hn; simp [digits256_zero] at h
    · rw [digits256_step hn] at h
      cases hq : digits256 (n / 256) with
      | nil =>
        rw [hq] at h
        simp only [List.nil_append, List.cons.injEq] at h
        rw [← h.1]
        have hz : n / 256 = 0 := by
          have := beValue_digits (n / 256)
          rw [hq] at this
          exact this.symm
        intro h0
        have := congrArg UInt8.toNat h0
        simp at this
        omega
      | cons a as =>
        rw [hq] at h
        simp only [List.cons_append, List.cons.injEq] at h
        rw [← h.1]
        exact ih (n / 256) (by omega) a as hq

theorem digits256_mul_add (m : Nat) (b : UInt8) :
    digits256 (m * 256 + b.toNat) =
      if m * 256 + b.toNat = 0 then [] else digits256 m ++ [b] := by
  have hb : b.toNat < 256 := b.toNat_lt
  split
  · next h => rw [h]; rfl
  · next h =>
    rw [digits256_step h]
    have h1 : (m * 256 + b.toNat) / 256 = m := by omega
    have h2 : UInt8.ofNat (m * 256 + b.toNat) = b := by
      apply UInt8.toNat_inj.1
      simp
    rw [h1, h2]

/-- The digits of the value of a byte string that does not start with 0. -/
theorem digits256_beValue : ∀ (k : Nat) (v : Bytes), v.length = k →
    (∀ d ds, v = d :: ds → d ≠ 0) → digits256 (beValue v) = v := by
  intro k
  induction k with
  | zero =>
    intro v hl _
    have : v = [] := List.length_eq_zero_iff.1 hl
    subst this; rfl
  | succ k ih =>
    intro v hl hh
    rcases List.eq_nil_or_concat v with rfl | ⟨u, b, rfl⟩
    · simp at hl
    · rw [List.concat_eq_append] at *
      have hu : u.length = k := by simpa using hl
      rw [beValue_concat, digits256_mul_add]
      have hne : beValue u * 256 + b.toNat ≠ 0 := by
        cases u with
        | nil =>
          have := hh b [] rfl
          simp only [beValue_nil]
          intro h0
          apply this
          apply UInt8.toNat_inj.1
          simp at h0 ⊢
          exact h0
        | cons d ds =>
          have hd := hh d (ds ++ [b]) rfl
          rw [beValue_cons]
          have h1 : 0 < d.toNat := by
            rcases Nat.eq_zero_or_pos d.toNat with h | h
            · exact absurd (UInt8.toNat_inj.1 (by simpa using h)) hd
            · exact h
          have h2 : 0 < 256 ^ ds.length := Nat.pow_pos (by decide)
          have := Nat.mul_pos h1 h2
          omega
      rw [if_neg hne]
      congr 1
      apply ih u hu
      intro d ds hd
      exact hh d (ds ++ [b]) (by rw [hd]; rfl)

theorem digits256_length_le {n k : Nat} (h : n < 256 ^ k) : (digits256 n).length ≤ k := by
  induction k generalizing n with
  | zero =>
    have : n = 0 := by simpa using h
    subst this; simp [digits256_zero]
  | succ k ih =>
    by_cases hn : n = 0
    · subst hn; simp [digits256_zero]
    · rw [digits256_step hn]
      have : n / 256 < 256 ^ k := by
        rw [Nat.pow_succ] at h
        exact Nat.div_lt_of_lt_mul (by rw [Nat.mul_comm]; exact h)
      have := ih this
      simp
      omega

theorem digits256_length_gt {n k : Nat} (h : 256 ^ k ≤ n) : k < (digits256 n).length := by
  by_contra hc
  have h1 := beValue_lt (digits256 n)
  rw [beValue_digits] at h1
  have h2 : 256 ^ (digits256 n).length ≤ 256 ^ k := Nat.pow_le_pow_right (by decide) (by omega)
  omega

/-! ### Lengths -/

theorem readLen_derLen {n : Nat} (h : n < 4294967296) (rest : Bytes) :
    readLen (derLen n ++ rest) = some (n, rest) := by
  unfold derLen
  by_cases h1 : n < 128
  · rw [if_pos h1]
    have : (UInt8.ofNat n).toNat = n := by simp; omega
    simp only [List.cons_append, List.nil_append, readLen, this, if_pos h1]
  · rw [if_neg h1]
    have hk : (digits256 n).length ≤ 4 := digits256_length_le (k := 4) (by simpa using h)
    have hk0 : 0 < (digits256 n).length := digits256_length_gt (k := 0) (by simp; omega)
    have ht : (UInt8.ofNat (128 + (digits256 n).length)).toNat = 128 + (digits256 n).length := by
      simp; omega
    simp only [List.cons_append, readLen, ht]
    rw [if_neg (by omega)]
    have e1 : 128 + (digits256 n).length - 128 = (digits256 n).length := by omega
    simp only [e1, List.take_left, List.drop_left, beValue_digits]
    rw [if_neg]
    intro hc
    rcases hc with hc | hc | hc | hc | hc
    · omega
    · omega
    · simp at hc
      omega
    · cases hd : digits256 n with
      | nil => rw [hd] at hk0; simp at hk0
      | cons d ds =>
        rw [hd] at hc
        exact digits256_head n d ds hd (by simpa using hc)
    · omega

/-- Only the shortest form is read. -/
theorem readLen_sound {bs rest : Bytes} {n : Nat} (h : readLen bs = some (n, rest)) :
    bs = derLen n ++ rest ∧ n < 4294967296 := by
  cases bs with
  | nil => simp [readLen] at h
  | cons b r =>
    simp only [readLen] at h
    by_cases h1 : b.toNat < 128
    · rw [if_pos h1] at h
      simp only [Option.some.injEq, Prod.mk.injEq] at h
      obtain ⟨h2, h3⟩ := h
      rw [← h2, ← h3, derLen, if_pos h1]
      exact ⟨by simp, by omega⟩
    · rw [if_neg h1] at h
      by_cases h2 : b.toNat - 128 = 0 ∨ 4 < b.toNat - 128 ∨ r.length < b.toNat - 128 ∨
          (r.take (b.toNat - 128)).headD 0 = 0 ∨ beValue (r.take (b.toNat - 128)) < 128
      · rw [if_pos h2] at h
        cases h
      · rw [if_neg h2] at h
        simp only [Option.some.injEq, Prod.mk.injEq] at h
        obtain ⟨h3, h4⟩ := h
        have h5 : ¬ b.toNat - 128 = 0 := fun hc => h2 (.inl hc)
        have h6 : ¬ 4 < b.toNat - 128 := fun hc => h2 (.inr (.inl hc))
        have h7 : ¬ r.length < b.toNat - 128 := fun hc => h2 (.inr (.inr (.inl hc)))
        have h8 : ¬ (r.take (b.toNat - 128)).headD 0 = 0 :=
          fun hc => h2 (.inr (.inr (.inr (.inl hc))))
        have h9 : ¬ beValue (r.take (b.toNat - 128)) < 128 :=
          fun hc => h2 (.inr (.inr (.inr (.inr hc))))
        have hl : (r.take (b.toNat - 128)).length = b.toNat - 128 := by
          rw [List.length_take]; omega
        have hd : digits256 (beValue (r.take (b.toNat - 128))) = r.take (b.toNat - 128) := by
          apply digits256_beValue _ _ rfl
          intro d ds he hz
          rw [he] at h8
          exact h8 (by simpa using hz)
        have hv := beValue_lt (r.take (b.toNat - 128))
        rw [hl] at hv
        have hp : 256 ^ (b.toNat - 128) ≤ 256 ^ 4 := Nat.pow_le_pow_right (by decide) (by omega)
        have hp4 : (256 : Nat) ^ 4 = 4294967296 := by decide
        rw [← h3, ← h4, derLen, if_neg h9, hd, hl]
        refine ⟨?_, by omega⟩
        have hb : UInt8.ofNat (128 + (b.toNat - 128)) = b := by
          apply UInt8.toNat_inj.1
          have := b.toNat_lt
          simp
          omega
        rw [hb, List.cons_append, List.take_append_drop]

theorem tlv_length (tag : UInt8) (body : Bytes) : (tlv tag body).length = tlvLen body.length := by
  simp [tlv, tlvLen]
  omega

theorem derLen_pos (n : Nat) : 0 < (derLen n).length := by
  unfold derLen
  split <;> simp

/-! ### The recogniser -/

theorem readTlv_tlv {tag : UInt8} {body : Bytes} (ht : lowTag tag = true)
    (hl : body.length < 4294967296) (rest : Bytes) :
    readTlv (tlv tag body ++ rest) = some (tag, body, rest) := by
  simp only [tlv, List.cons_append, readTlv, List.append_assoc]
  rw [if_neg (by simp [ht]), readLen_derLen hl]
  simp

theorem readTlv_sound {bs body rest : Bytes} {tag : UInt8}
    (h : readTlv bs = some (tag, body, rest)) :
    bs = tlv tag body ++ rest ∧ lowTag tag = true ∧ body.length < 4294967296 := by
  cases bs with
  | nil => simp [readTlv] at h
  | cons t r =>
    simp only [readTlv] at h
    by_cases ht : lowTag t = false
    · rw [if_pos ht] at h; cases h
    · rw [if_neg ht] at h
      cases hr : readLen r with
      | none => rw [hr] at h; cases h
      | some p =>
        obtain ⟨n, r'⟩ := p
        rw [hr] at h
        simp only at h
        by_cases hn : r'.length < n
        · rw [if_pos hn] at h; cases h
        · rw [if_neg hn] at h
          simp only [Option.some.injEq, Prod.mk.injEq] at h
          obtain ⟨rfl, rfl, rfl⟩ := h
          obtain ⟨h1, h2⟩ := readLen_sound hr
          have hl : (r'.take n).length = n := by rw [List.length_take]; omega
          refine ⟨?_, by simpa using ht, by omega⟩
          rw [tlv, hl, h1, List.cons_append, List.append_assoc, List.take_append_drop]

theorem tlv_ne_nil (tag : UInt8) (body : Bytes) : tlv tag body ≠ [] := by simp [tlv]

theorem strictAll_complete : ∀ (k : Nat) (bs : Bytes), bs.length ≤ k → WellFormedAll bs →
    strictAll k bs = true := by
  intro k
  induction k with
  | zero =>
    intro bs hl _
    have : bs = [] := List.length_eq_zero_iff.1 (by omega)
    subst this; rfl
  | succ k ih =>
    intro bs hl h
    cases h with
    | nil => rfl
    | cons h1 h2 =>
      rename_i a b
      have key : ∀ {tag : UInt8} {body : Bytes}, a = tlv tag body → lowTag tag = true →
          body.length < 4294967296 → (constructed tag = true → WellFormedAll body) →
          strictAll (k + 1) (a ++ b) = true := by
        intro tag body ha ht hb hc
        subst ha
        have hlen : (tlv tag body ++ b).length = tlvLen body.length + b.length := by
          rw [List.length_append, tlv_length]
        have hpos := derLen_pos body.length
        rw [hlen, tlvLen] at hl
        have hr := readTlv_tlv ht hb b
        generalize hx : tlv tag body ++ b = x at hr
        cases x with
        | nil => simp [tlv] at hx
        | cons c cs =>
          simp only [strictAll, hr]
          rw [ih b (by omega) h2]
          by_cases hcc : constructed tag = true
          · rw [if_pos hcc, ih body (by omega) (hc hcc)]; rfl
          · rw [if_neg hcc]; rfl
      cases h1 with
      | prim ht hc hb => exact key rfl ht hb (by intro h; rw [hc] at h; cases h)
      | node ht hc hb hbody => exact key rfl ht hb (fun _ => hbody)

theorem strictAll_sound : ∀ (k : Nat) (bs : Bytes), strictAll k bs = true → WellFormedAll bs := by
  intro k
  induction k with
  | zero =>
    intro bs h
    have : bs = [] := by simpa [strictAll] using h
    subst this; exact .nil
  | succ k ih =>
    intro bs h
    cases bs with
    | nil => exact .nil
    | cons b bs =>
      simp only [strictAll] at h
      cases hr : readTlv (b :: bs) with
      | none => rw [hr] at h; cases h
      | some p =>
        obtain ⟨tag, body, rest⟩ := p
        rw [hr] at h
        simp only [Bool.and_eq_true] at h
        obtain ⟨h1, h2⟩ := h
        obtain ⟨h3, h4, h5⟩ := readTlv_sound hr
        rw [h3]
        refine .cons ?_ (ih _ h2)
        by_cases hc : constructed tag = true
        · rw [if_pos hc] at h1
          exact .node h4 hc h5 (ih _ h1)
        · exact .prim h4 (by simpa using hc) h5

/-- The recogniser accepts exactly the well-formed values. -/
theorem strictDer_iff (bs : Bytes) : strictDer bs = true ↔ WellFormed bs := by
  constructor
  · intro h
    unfold strictDer at h
    split at h
    · next tag body hr =>
      obtain ⟨h1, h2, h3⟩ := readTlv_sound hr
      rw [h1, List.append_nil]
      by_cases hc : constructed tag = true
      · rw [if_pos hc] at h
        exact .node h2 hc h3 (strictAll_sound _ _ h)
      · exact .prim h2 (by simpa using hc) h3
    · cases h
  · intro h
    have key : ∀ {tag : UInt8} {body : Bytes}, lowTag tag = true → body.length < 4294967296 →
        (constructed tag = true → WellFormedAll body) → strictDer (tlv tag body) = true := by
      intro tag body ht hb hc
      have hr := readTlv_tlv ht hb []
      rw [List.append_nil] at hr
      unfold strictDer
      rw [hr]
      simp only
      by_cases hcc : constructed tag = true
      · rw [if_pos hcc]
        exact strictAll_complete _ _ (Nat.le_refl _) (hc hcc)
      · rw [if_neg hcc]
    cases h with
    | prim ht hc hb => exact key ht hb (by intro h; rw [hc] at h; cases h)
    | node ht hc hb hbody => exact key ht hb (fun _ => hbody)

/-! ### Trees -/

theorem Asn.ders_append (a b : List Asn) : Asn.ders (a ++ b) = Asn.ders a ++ Asn.ders b := by
  induction a with
  | nil => simp [Asn.ders]
  | cons t ts ih => simp [Asn.ders, ih]

theorem Asn.writtens_append (a b : List Asn) :
    Asn.writtens (a ++ b) = Asn.writtens a ++ Asn.writtens b := by
  induction a with
  | nil => simp [Asn.writtens]
  | cons t ts ih => simp [Asn.writtens, ih]

theorem Asn.ders_length_same {n : Nat} : ∀ (ts : List Asn), (∀ t ∈ ts, t.der.length = n) →
    (Asn.ders ts).length = ts.length * n := by
  intro ts
  induction ts with
  | nil => intro _; simp [Asn.ders]
  | cons t ts ih =>
    intro h
    simp only [Asn.ders, List.length_append, List.length_cons]
    rw [ih (fun u hu => h u (List.mem_cons_of_mem _ hu)), h t List.mem_cons_self, Nat.add_mul]
    omega

mutual
/-- With equally long list elements, the foreseen lengths are right and the octets written are
the DER encoding. -/
theorem Asn.even_written : ∀ t : Asn, t.Even → t.foreseen = t.der.length ∧ t.written = t.der
  | .prim tag body, _ => ⟨by rw [Asn.foreseen, Asn.der, tlv_length], by rw [Asn.written, Asn.der]⟩
  | .node tag lead parts, h => by
    rw [Asn.Even] at h
    obtain ⟨h1, h2⟩ := Asn.evens_written parts h
    rw [Asn.foreseen, Asn.der, Asn.written, h1, h2, tlv_length, List.length_append]
    exact ⟨rfl, by simp [tlv]⟩
  | .list tag parts, h => by
    rw [Asn.Even] at h
    obtain ⟨h0, h3⟩ := h
    obtain ⟨h1, h2⟩ := Asn.evens_written parts h0
    have hh : Asn.foreseenHead parts = (parts.headD (.raw [])).der.length := by
      cases parts with
      | nil => simp [Asn.foreseenHead, Asn.der]
      | cons t ts =>
        rw [Asn.Evens] at h0
        simp only [Asn.foreseenHead, List.headD_cons]
        exact (Asn.even_written t h0.1).1
    rw [Asn.foreseen, Asn.der, Asn.written, h2, tlv_length, hh, ← h3]
    exact ⟨rfl, rfl⟩
  | .outer tag parts, h => by
    rw [Asn.Even] at h
    obtain ⟨h1, h2⟩ := Asn.evens_written parts h
    rw [Asn.foreseen, Asn.der, Asn.written, h1, h2, tlv_length]
    exact ⟨rfl, rfl⟩
  | .raw bs, _ => ⟨by rw [Asn.foreseen, Asn.der], by rw [Asn.written, Asn.der]⟩
@[inherit_doc Asn.even_written] theorem Asn.evens_written : ∀ ts : List Asn, Asn.Evens ts →
    Asn.foreseens ts = (Asn.ders ts).length ∧ Asn.writtens ts = Asn.ders ts
  | [], _ => ⟨by rw [Asn.foreseens, Asn.ders]; rfl, by rw [Asn.writtens, Asn.ders]⟩
  | t :: ts, h => by
    rw [Asn.Evens] at h
    obtain ⟨h1, h2⟩ := Asn.even_written t h.1
    obtain ⟨h3, h4⟩ := Asn.evens_written ts h.2
    rw [Asn.foreseens, Asn.ders, Asn.writtens, h1, h2, h3, h4, List.length_append]
    exact ⟨rfl, rfl⟩
end

mutual
/-- The encoding of a proper tree is well formed. -/
theorem Asn.proper_wellFormed : ∀ t : Asn, t.Proper → t.der.length < 4294967296 →
    WellFormed t.der
  | .prim tag body, h, hl => by
    rw [Asn.Proper] at h
    rw [Asn.der] at hl ⊢
    rw [tlv_length, tlvLen] at hl
    exact .prim h.1 h.2 (by omega)
  | .node tag lead parts, h, hl => by
    rw [Asn.Proper] at h
    rw [Asn.der] at hl ⊢
    rw [tlv_length, tlvLen] at hl
    by_cases hc : constructed tag = true
    · obtain ⟨h1, h2⟩ := h.2 hc
      subst h1
      refine .node h.1 hc (by omega) ?_
      simp only [List.nil_append] at hl ⊢
      exact Asn.propers_wellFormed parts h2 (by omega)
    · exact .prim h.1 (by simpa using hc) (by omega)
  | .list tag parts, h, hl => by
    rw [Asn.Proper] at h
    rw [Asn.der] at hl ⊢
    rw [tlv_length, tlvLen] at hl
    by_cases hc : constructed tag = true
    · exact .node h.1 hc (by omega) (Asn.propers_wellFormed parts (h.2 hc) (by omega))
    · exact .prim h.1 (by simpa using hc) (by omega)
  | .outer tag parts, h, hl => by
    rw [Asn.Proper] at h
    rw [Asn.der] at hl ⊢
    rw [tlv_length, tlvLen] at hl
    by_cases hc : constructed tag = true
    · exact .node h.1 hc (by omega) (Asn.propers_wellFormed parts (h.2 hc) (by omega))
    · exact .prim h.1 (by simpa using hc) (by omega)
  | .raw bs, h, _ => by
    rw [Asn.Proper] at h
    rw [Asn.der]
    exact h
@[inherit_doc Asn.proper_wellFormed] theorem Asn.propers_wellFormed : ∀ ts : List Asn,
    Asn.Propers ts → (Asn.ders ts).length < 4294967296 → WellFormedAll (Asn.ders ts)
  | [], _, _ => by rw [Asn.ders]; exact .nil
  | t :: ts, h, hl => by
    rw [Asn.Propers] at h
    rw [Asn.ders] at hl ⊢
    rw [List.length_append] at hl
    exact .cons (Asn.proper_wellFormed t h.1 (by omega))
      (Asn.propers_wellFormed ts h.2 (by omega))
end

end Dpe
