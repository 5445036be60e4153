import Verif.Spec.Numbers
import Verif.Props.Sizes
/-
C40: lengths and integers are written in their shortest form and stand for what they should.
-/
namespace Dpe

theorem shortestLength_derLen {n : Nat} (h : n < 4294967296) : ShortestLength n (derLen n) := by
  have hd4 : (digits256 n).length ≤ 4 := digits256_length_le (by simpa using h)
  constructor
  · unfold derLen
    by_cases h1 : n < 128
    · rw [if_pos h1]
      have : (UInt8.ofNat n).toNat = n := by simp; omega
      simp only [berLength, this, if_pos h1, if_true]
    · rw [if_neg h1]
      have hpos : 0 < (digits256 n).length := digits256_length_gt (k := 0) (by simp; omega)
      have : (UInt8.ofNat (128 + (digits256 n).length)).toNat = 128 + (digits256 n).length := by
        simp; omega
      simp only [berLength, this]
      rw [if_neg (by omega), if_neg (by omega), beValue_digits]
  · intro bs' h'
    unfold derLen
    cases bs' with
    | nil => simp [berLength] at h'
    | cons b ds =>
      by_cases h1 : n < 128
      · rw [if_pos h1]; simp
      · rw [if_neg h1]
        simp only [berLength] at h'
        by_cases h2 : b.toNat < 128
        · rw [if_pos h2] at h'
          split at h'
          · injection h' with h'; omega
          · cases h'
        · rw [if_neg h2] at h'
          split at h'
          · cases h'
          · injection h' with h'
            have := beValue_lt ds
            rw [h'] at this
            have := digits256_length_le this
            simp only [List.length_cons]; omega

theorem shortestInteger_intBody (n : Nat) : ShortestInteger n (intBody n) := by
  have hv : beValue (intBody n) = n ∧ ∃ b rest, intBody n = b :: rest ∧ b.toNat < 128 := by
    have h := beValue_digits n
    unfold intBody
    cases hd : digits256 n with
    | nil => rw [hd] at h; exact ⟨by rw [← h]; rfl, 0, [], rfl, by decide⟩
    | cons d ds =>
      rw [hd] at h
      by_cases h1 : d.toNat < 128
      · simp only [if_pos h1]; exact ⟨h, d, ds, rfl, h1⟩
      · simp only [if_neg h1]
        exact ⟨by rw [beValue_zero_cons]; exact h, 0, d :: ds, rfl, by decide⟩
  obtain ⟨hv, b, rest, hb, hlt⟩ := hv
  refine ⟨by rw [hb]; simp, ?_, ?_⟩
  · rw [hb] at hv ⊢
    simp only [intValue, if_pos hlt, hv]
  · intro bs' hne h'
    cases bs' with
    | nil => exact absurd rfl hne
    | cons c cs =>
      have hc := beValue_lt (c :: cs)
      simp only [intValue] at h'
      by_cases h1 : c.toNat < 128
      · rw [if_pos h1] at h'
        have hn : beValue (c :: cs) = n := by omega
        rw [beValue_cons] at hn
        have hcs := beValue_lt cs
        have hlt' : n < 128 * 256 ^ cs.length := by
          have : c.toNat * 256 ^ cs.length ≤ 127 * 256 ^ cs.length :=
            Nat.mul_le_mul_right _ (by omega)
          omega
        unfold intBody
        cases hd : digits256 n with
        | nil => simp
        | cons d ds =>
          have hl : (d :: ds).length ≤ cs.length + 1 := by
            rw [← hd]
            refine digits256_length_le ?_
            rw [Nat.pow_succ]; omega
          by_cases h2 : d.toNat < 128
          · simp only [if_pos h2]; exact hl
          · simp only [if_neg h2]
            have hval := beValue_digits n
            rw [hd, beValue_cons] at hval
            have h128 : 128 * 256 ^ ds.length ≤ d.toNat * 256 ^ ds.length :=
              Nat.mul_le_mul_right _ (by omega)
            have hpow : 256 ^ ds.length < 256 ^ cs.length := by omega
            have := (Nat.pow_lt_pow_iff_right (a := 256) (by decide)).1 hpow
            simp only [List.length_cons]; omega
      · rw [if_neg h1] at h'
        have : ((256 : Int) ^ (c :: cs).length) = ((256 ^ (c :: cs).length : Nat) : Int) :=
          (Int.natCast_pow 256 _).symm
        rw [this] at h'
        omega

/-- Length fields: the shortest length octets that stand for the length. -/
theorem C40_length {n : Nat} (h : n < 4294967296) :
    ∃ bs, Puts (encSize n) bs ∧ ShortestLength n bs :=
  ⟨lenBytes n, (emits_size n).puts, lenBytes_eq h ▸ shortestLength_derLen h⟩

/-- Integers given by big-endian bytes: tag, shortest length, shortest contents. -/
theorem C40_integer_bytes {v : Bytes} (hv : v ≠ []) (hl : v.length < 4294967295) (tagged : Bool) :
    ∃ len body, Puts (encIntBytes v tagged) ((if tagged then [0x02] else []) ++ (len ++ body)) ∧
      ShortestLength body.length len ∧ ShortestInteger (beValue v) body := by
  have hlen : (wInt v).length < 4294967296 := by
    have := (intLen_spec v.length v 0 hv (by omega)).1
    rw [wInt_length, intBytesSize, structSize_false]; omega
  refine ⟨lenBytes (wInt v).length, wInt v, (emits_intBytes v tagged).puts, ?_, ?_⟩
  · rw [lenBytes_eq hlen]; exact shortestLength_derLen hlen
  · rw [wInt_eq hv]; exact shortestInteger_intBody _

/-- Integers given as numbers. -/
theorem C40_integer {n : Nat} (h : n < 18446744073709551616) (tagged : Bool) :
    ∃ len body, Puts (encInt n tagged) ((if tagged then [0x02] else []) ++ (len ++ body)) ∧
      ShortestLength body.length len ∧ ShortestInteger n body := by
  have := C40_integer_bytes (be64_ne n) (by simp [be64]) tagged
  rwa [beValue_be64 h] at this

/-- 128 needs a leading zero and 0 one octet; a length of 128 needs two octets. -/
example : ShortestInteger 128 [0, 128] ∧ ¬ ShortestInteger 128 [0, 0, 128] ∧ intValue [128] = -128 ∧
    ShortestLength 128 [0x81, 128] ∧ berLength [0x82, 0, 128] = some 128 := by
  refine ⟨shortestInteger_intBody 128, fun h => ?_, by decide,
    shortestLength_derLen (n := 128) (by decide), by decide⟩
  exact absurd (h.2.2 [0, 128] (by simp) (by decide)) (by decide)

/-- What the writer puts for the bytes 00 00 80. -/
example : (encIntBytes [0, 0, 0x80] true (Writer.new [9, 9, 9, 9, 9])).2.buf = [2, 2, 0, 0x80, 9] := by
  decide +kernel

/-- An empty byte string is written as an INTEGER without contents, which is no integer: hence
`v ≠ []`. -/
example : (encIntBytes [] true (Writer.new [9, 9, 9])).2.buf = [2, 0, 9] := by decide +kernel

end Dpe
