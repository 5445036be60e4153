import Verif.Proofs.Words
import Verif.Model.X509
import Verif.Spec.Cert
import Verif.Proofs.Der
/-
The encoders of the certificate writer that cannot fail: what they emit.

The lengths are those of `encode_size_field`, which agrees with DER below 2^32 (`lenBytes_eq`);
`Asn.wr` and `Asn.fs` are `Asn.written` and `Asn.foreseen` with these lengths, so that the lemmas
about the encoders need no bounds.
-/
namespace Dpe
variable {cfg : Cfg} {σ : Type}

/-! ### Length octets as written -/

/-- The low `k` bytes of `n`, most significant first. -/
def lowBytes (n : Nat) : Nat → Bytes
  | 0 => []
  | i + 1 => UInt8.ofNat (n >>> (i * 8)) :: lowBytes n i

theorem lowBytes_length (n k : Nat) : (lowBytes n k).length = k := by
  induction k with
  | zero => rfl
  | succ k ih => simp [lowBytes, ih]

/-- The octets of `encode_size_field`. -/
def lenBytes (n : Nat) : Bytes :=
  if sizeWidth n = 1 then [UInt8.ofNat n]
  else (0x80 ||| UInt8.ofNat (sizeWidth n - 1)) :: lowBytes n (sizeWidth n - 1)

theorem sizeWidth_pos (n : Nat) : 1 ≤ sizeWidth n ∧ sizeWidth n ≤ 5 := by
  unfold sizeWidth
  repeat' split
  all_goals omega

theorem lenBytes_length (n : Nat) : (lenBytes n).length = sizeWidth n := by
  have := sizeWidth_pos n
  unfold lenBytes
  split
  · next h => rw [h]; rfl
  · simp [lowBytes_length]; omega

theorem ofNat_mod (n : Nat) : UInt8.ofNat (n % 256) = UInt8.ofNat n := by
  apply UInt8.toNat_inj.1; simp

theorem lenBytes_eq {n : Nat} (h : n < 4294967296) : lenBytes n = derLen n := by
  unfold lenBytes derLen
  by_cases h1 : n < 128
  · rw [if_pos h1, if_pos (by simp [sizeWidth, h1])]
  · rw [if_neg h1]
    have hn0 : n ≠ 0 := by omega
    by_cases h2 : n < 256
    · have hw : sizeWidth n = 2 := by unfold sizeWidth; rw [if_neg h1, if_pos h2]
      have hd : digits256 n = [UInt8.ofNat n] := by
        rw [digits256_step hn0, show n / 256 = 0 by omega, digits256_zero]; rfl
      rw [hw, hd]
      simp [lowBytes]
      decide
    · have hn1 : n / 256 ≠ 0 := by omega
      by_cases h3 : n < 65536
      · have hw : sizeWidth n = 3 := by
          unfold sizeWidth; rw [if_neg h1, if_neg h2, if_pos h3]
        have hd : digits256 n = [UInt8.ofNat (n / 256), UInt8.ofNat n] := by
          rw [digits256_step hn0, digits256_step hn1, show n / 256 / 256 = 0 by omega,
            digits256_zero]; rfl
        rw [hw, hd]
        simp [lowBytes, Nat.shiftRight_eq_div_pow]
        decide
      · have hn2 : n / 256 / 256 ≠ 0 := by omega
        by_cases h4 : n < 16777216
        · have hw : sizeWidth n = 4 := by
            unfold sizeWidth; rw [if_neg h1, if_neg h2, if_neg h3, if_pos h4]
          have hd : digits256 n =
              [UInt8.ofNat (n / 65536), UInt8.ofNat (n / 256), UInt8.ofNat n] := by
            rw [digits256_step hn0, digits256_step hn1, digits256_step hn2,
              show n / 256 / 256 / 256 = 0 by omega, digits256_zero,
              show n / 256 / 256 = n / 65536 by omega]; rfl
          rw [hw, hd]
          simp [lowBytes, Nat.shiftRight_eq_div_pow]
          decide
        · have hn3 : n / 256 / 256 / 256 ≠ 0 := by omega
          have hw : sizeWidth n = 5 := by
            unfold sizeWidth; rw [if_neg h1, if_neg h2, if_neg h3, if_neg h4]
          have hd : digits256 n = [UInt8.ofNat (n / 16777216), UInt8.ofNat (n / 65536),
              UInt8.ofNat (n / 256), UInt8.ofNat n] := by
            rw [digits256_step hn0, digits256_step hn1, digits256_step hn2, digits256_step hn3,
              show n / 256 / 256 / 256 / 256 = 0 by omega, digits256_zero,
              show n / 256 / 256 / 256 = n / 16777216 by omega,
              show n / 256 / 256 = n / 65536 by omega]; rfl
          rw [hw, hd]
          simp [lowBytes, Nat.shiftRight_eq_div_pow]
          decide

/-- Length of a tagged value, with the width of `get_size_width`. -/
def tl (n : Nat) : Nat := 1 + sizeWidth n + n

theorem structSize_true (n : Nat) : structSize n true = tl n := rfl
theorem structSize_false (n : Nat) : structSize n false = n := rfl

theorem tl_eq {n : Nat} (h : n < 4294967296) : tl n = tlvLen n := by
  rw [tl, tlvLen, ← lenBytes_eq h, lenBytes_length]

/-! ### Trees with these lengths -/

mutual
/-- `Asn.foreseen` with the widths of `get_size_width`. -/
def Asn.fs : Asn → Nat
  | .prim _ body => tl body.length
  | .node _ lead parts => tl (lead.length + Asn.fss parts)
  | .list _ parts => tl (parts.length * Asn.fsHead parts)
  | .outer _ parts => tl (Asn.fss parts)
  | .raw bs => bs.length
@[inherit_doc Asn.fs] def Asn.fss : List Asn → Nat
  | [] => 0
  | t :: ts => t.fs + Asn.fss ts
@[inherit_doc Asn.fs] def Asn.fsHead : List Asn → Nat
  | [] => 0
  | t :: _ => t.fs
/-- `Asn.written` with the lengths of `encode_size_field`. -/
def Asn.wr : Asn → Bytes
  | .prim tag body => tag :: (lenBytes body.length ++ body)
  | .node tag lead parts => tag :: (lenBytes (lead.length + Asn.fss parts) ++ (lead ++ Asn.wrs parts))
  | .list tag parts => tag :: (lenBytes (parts.length * Asn.fsHead parts) ++ Asn.wrs parts)
  | .outer tag parts => tag :: (lenBytes (Asn.wrs parts).length ++ Asn.wrs parts)
  | .raw bs => bs
@[inherit_doc Asn.wr] def Asn.wrs : List Asn → Bytes
  | [] => []
  | t :: ts => t.wr ++ Asn.wrs ts
end

mutual
/-- Trees without lists. -/
def Asn.Plain : Asn → Prop
  | .prim .. => True
  | .node _ _ parts => Asn.Plains parts
  | .list .. => False
  | .outer _ parts => Asn.Plains parts
  | .raw _ => True
@[inherit_doc Asn.Plain] def Asn.Plains : List Asn → Prop
  | [] => True
  | t :: ts => t.Plain ∧ Asn.Plains ts
end

mutual
theorem Asn.plain_length : ∀ t : Asn, t.Plain → t.wr.length = t.fs
  | .prim tag body, _ => by
    simp only [Asn.wr, Asn.fs, tl, List.length_cons, List.length_append, lenBytes_length]; omega
  | .node tag lead parts, h => by
    rw [Asn.Plain] at h
    have := Asn.plains_length parts h
    simp only [Asn.wr, Asn.fs, tl, List.length_cons, List.length_append, lenBytes_length]; omega
  | .list .., h => by rw [Asn.Plain] at h; exact h.elim
  | .outer tag parts, h => by
    rw [Asn.Plain] at h
    have := Asn.plains_length parts h
    simp only [Asn.wr, Asn.fs, tl, List.length_cons, List.length_append, lenBytes_length, this]; omega
  | .raw bs, _ => by rw [Asn.wr, Asn.fs]
theorem Asn.plains_length : ∀ ts : List Asn, Asn.Plains ts → (Asn.wrs ts).length = Asn.fss ts
  | [], _ => by rw [Asn.wrs, Asn.fss]; rfl
  | t :: ts, h => by
    rw [Asn.Plains] at h
    rw [Asn.wrs, Asn.fss, List.length_append, Asn.plain_length t h.1, Asn.plains_length ts h.2]
end

theorem Asn.wrs_append (a b : List Asn) : Asn.wrs (a ++ b) = Asn.wrs a ++ Asn.wrs b := by
  induction a with
  | nil => simp [Asn.wrs]
  | cons t ts ih => simp [Asn.wrs, ih]

theorem Asn.fss_append (a b : List Asn) : Asn.fss (a ++ b) = Asn.fss a + Asn.fss b := by
  induction a with
  | nil => simp [Asn.fss]
  | cons t ts ih => simp [Asn.fss, ih]; omega

mutual
/-- Lists have at most 64 elements, none of which contains a list. -/
def Asn.Short : Asn → Prop
  | .prim .. => True
  | .node _ _ parts => Asn.Shorts parts
  | .list _ parts => parts.length ≤ 64 ∧ Asn.Plains parts ∧ Asn.Shorts parts
  | .outer _ parts => Asn.Shorts parts
  | .raw _ => True
@[inherit_doc Asn.Short] def Asn.Shorts : List Asn → Prop
  | [] => True
  | t :: ts => t.Short ∧ Asn.Shorts ts
end

theorem tl_bounds (n : Nat) : n + 2 ≤ tl n ∧ tl n ≤ n + 6 := by
  have := sizeWidth_pos n
  unfold tl; omega

mutual
/-- The foreseen length is not much larger than the actual one. -/
theorem Asn.short_fs : ∀ t : Asn, t.Short → t.fs ≤ 70 * t.wr.length
  | .prim tag body, _ => by
    have h1 := tl_bounds body.length
    simp only [Asn.wr, Asn.fs, List.length_cons, List.length_append, lenBytes_length]
    have := sizeWidth_pos body.length
    omega
  | .node tag lead parts, h => by
    rw [Asn.Short] at h
    have h0 := Asn.shorts_fs parts h
    have h1 := tl_bounds (lead.length + Asn.fss parts)
    simp only [Asn.wr, Asn.fs, List.length_cons, List.length_append, lenBytes_length]
    omega
  | .list tag parts, h => by
    rw [Asn.Short] at h
    obtain ⟨hl, hp, _⟩ := h
    have h1 := tl_bounds (parts.length * Asn.fsHead parts)
    have h2 : Asn.fsHead parts ≤ (Asn.wrs parts).length := by
      cases parts with
      | nil => simp [Asn.fsHead]
      | cons t ts =>
        rw [Asn.Plains] at hp
        simp only [Asn.fsHead, Asn.wrs, List.length_append]
        rw [Asn.plain_length t hp.1]
        omega
    have h3 : parts.length * Asn.fsHead parts ≤ 64 * (Asn.wrs parts).length :=
      Nat.mul_le_mul hl h2
    simp only [Asn.wr, Asn.fs, List.length_cons, List.length_append, lenBytes_length]
    omega
  | .outer tag parts, h => by
    rw [Asn.Short] at h
    have h0 := Asn.shorts_fs parts h
    have h1 := tl_bounds (Asn.fss parts)
    simp only [Asn.wr, Asn.fs, List.length_cons, List.length_append, lenBytes_length]
    omega
  | .raw bs, _ => by rw [Asn.wr, Asn.fs]; omega
theorem Asn.shorts_fs : ∀ ts : List Asn, Asn.Shorts ts → Asn.fss ts ≤ 70 * (Asn.wrs ts).length
  | [], _ => by simp [Asn.fss]
  | t :: ts, h => by
    rw [Asn.Shorts] at h
    have h1 := Asn.short_fs t h.1
    have h2 := Asn.shorts_fs ts h.2
    rw [Asn.wrs, Asn.fss, List.length_append]
    omega
end

mutual
/-- In trees of less than 2^25 octets the octets are those with DER lengths. -/
theorem Asn.short_written : ∀ t : Asn, t.Short → t.wr.length < 33554432 → t.wr = t.written
  | .prim tag body, _, h => by
    simp only [Asn.wr, List.length_cons, List.length_append] at h
    rw [Asn.wr, Asn.written, tlv, lenBytes_eq (by omega)]
  | .node tag lead parts, hs, h => by
    rw [Asn.Short] at hs
    simp only [Asn.wr, List.length_cons, List.length_append] at h
    obtain ⟨h1, h2⟩ := Asn.shorts_written parts hs (by omega)
    have h3 := Asn.shorts_fs parts hs
    rw [Asn.wr, Asn.written, lenBytes_eq (by omega), h1, h2]
  | .list tag parts, hs, h => by
    rw [Asn.Short] at hs
    simp only [Asn.wr, List.length_cons, List.length_append] at h
    obtain ⟨h1, h2⟩ := Asn.shorts_written parts hs.2.2 (by omega)
    have h3 : Asn.fsHead parts = Asn.foreseenHead parts ∧
        Asn.fsHead parts ≤ (Asn.wrs parts).length := by
      cases parts with
      | nil => exact ⟨rfl, Nat.zero_le _⟩
      | cons t ts =>
        rw [Asn.Shorts] at hs
        rw [Asn.Plains] at hs
        have hl := Asn.plain_length t hs.2.1.1
        simp only [Asn.wrs, List.length_append] at h ⊢
        refine ⟨?_, by rw [Asn.fsHead]; omega⟩
        rw [Asn.fsHead, Asn.foreseenHead]
        exact Asn.short_foreseen t hs.2.2.1 (by omega)
    have h4 : parts.length * Asn.fsHead parts ≤ 64 * (Asn.wrs parts).length :=
      Nat.mul_le_mul hs.1 h3.2
    rw [Asn.wr, Asn.written, lenBytes_eq (by omega), h1, h3.1]
  | .outer tag parts, hs, h => by
    rw [Asn.Short] at hs
    simp only [Asn.wr, List.length_cons, List.length_append] at h
    obtain ⟨h1, h2⟩ := Asn.shorts_written parts hs (by omega)
    rw [Asn.wr, Asn.written, tlv, lenBytes_eq (by omega), h1]
  | .raw bs, _, _ => by rw [Asn.wr, Asn.written]
theorem Asn.short_foreseen : ∀ t : Asn, t.Short → t.wr.length < 33554432 → t.fs = t.foreseen
  | .prim tag body, _, h => by
    simp only [Asn.wr, List.length_cons, List.length_append] at h
    rw [Asn.fs, Asn.foreseen, tl_eq (by omega)]
  | .node tag lead parts, hs, h => by
    rw [Asn.Short] at hs
    simp only [Asn.wr, List.length_cons, List.length_append] at h
    obtain ⟨h1, h2⟩ := Asn.shorts_written parts hs (by omega)
    have h3 := Asn.shorts_fs parts hs
    rw [Asn.fs, Asn.foreseen, tl_eq (by omega), h2]
  | .list tag parts, hs, h => by
    rw [Asn.Short] at hs
    simp only [Asn.wr, List.length_cons, List.length_append] at h
    have h3 : Asn.fsHead parts = Asn.foreseenHead parts ∧
        Asn.fsHead parts ≤ (Asn.wrs parts).length := by
      cases parts with
      | nil => exact ⟨rfl, Nat.zero_le _⟩
      | cons t ts =>
        rw [Asn.Shorts] at hs
        rw [Asn.Plains] at hs
        have hl := Asn.plain_length t hs.2.1.1
        simp only [Asn.wrs, List.length_append] at h ⊢
        refine ⟨?_, by rw [Asn.fsHead]; omega⟩
        rw [Asn.fsHead, Asn.foreseenHead]
        exact Asn.short_foreseen t hs.2.2.1 (by omega)
    have h4 : parts.length * Asn.fsHead parts ≤ 64 * (Asn.wrs parts).length :=
      Nat.mul_le_mul hs.1 h3.2
    rw [Asn.fs, Asn.foreseen, tl_eq (by omega), h3.1]
  | .outer tag parts, hs, h => by
    rw [Asn.Short] at hs
    simp only [Asn.wr, List.length_cons, List.length_append] at h
    obtain ⟨h1, h2⟩ := Asn.shorts_written parts hs (by omega)
    have h3 := Asn.shorts_fs parts hs
    rw [Asn.fs, Asn.foreseen, tl_eq (by omega), h2]
  | .raw bs, _, _ => by rw [Asn.fs, Asn.foreseen]
theorem Asn.shorts_written : ∀ ts : List Asn, Asn.Shorts ts → (Asn.wrs ts).length < 33554432 →
    Asn.wrs ts = Asn.writtens ts ∧ Asn.fss ts = Asn.foreseens ts
  | [], _, _ => by
    rw [Asn.wrs, Asn.fss, Asn.writtens, Asn.foreseens]; exact ⟨rfl, rfl⟩
  | t :: ts, hs, h => by
    rw [Asn.Shorts] at hs
    rw [Asn.wrs, List.length_append] at h
    obtain ⟨h1, h2⟩ := Asn.shorts_written ts hs.2 (by omega)
    have h3 := Asn.short_written t hs.1 (by omega)
    have h4 := Asn.short_foreseen t hs.1 (by omega)
    rw [Asn.wrs, Asn.fss, Asn.writtens, Asn.foreseens, h1, h2, h3, h4]
    exact ⟨rfl, rfl⟩
end

/-! ### Integers -/

theorem highBit (b : UInt8) : ((b &&& 0x80) != 0) = decide (128 ≤ b.toNat) := by
  have h : ∀ n : Fin 256, ((UInt8.ofNat n.val &&& 0x80) != 0) = decide (128 ≤ n.val) := by
    decide +kernel
  have := h ⟨b.toNat, b.toNat_lt⟩
  simpa using this

/-- The contents octets as `encode_integer_bytes` emits them. -/
def wInt (v : Bytes) : Bytes :=
  (if intBytesSize v false > v.length then [0] else []) ++
    v.drop (v.length - intBytesSize v false)

theorem beValue_zero_cons (v : Bytes) : beValue (0 :: v) = beValue v := by
  rw [beValue_cons]; simp

theorem intLen_spec (n : Nat) : ∀ (bs : Bytes) (i : Nat), bs ≠ [] → i + bs.length = n →
    intLenLoop n i bs bs.length ≤ bs.length + 1 ∧
    (if intLenLoop n i bs bs.length > bs.length then [0] else []) ++
      bs.drop (bs.length - intLenLoop n i bs bs.length) = intBody (beValue bs) := by
  intro bs
  induction bs with
  | nil => intro i h; exact absurd rfl h
  | cons b bs ih =>
    intro i _ hi
    simp only [List.length_cons] at hi
    by_cases hb : b = 0 ∧ bs ≠ []
    · obtain ⟨hb0, hne⟩ := hb
      have hpos : 0 < bs.length := List.length_pos_iff.2 hne
      have hl : intLenLoop n i (b :: bs) (b :: bs).length =
          intLenLoop n (i + 1) bs bs.length := by
        simp only [List.length_cons, intLenLoop]
        rw [if_pos]
        · rfl
        · simp [hb0]; omega
      rw [hl, hb0, beValue_zero_cons]
      obtain ⟨h1, h2⟩ := ih (i + 1) hne (by omega)
      rw [← h2]
      generalize intLenLoop n (i + 1) bs bs.length = size at h1 ⊢
      refine ⟨by simp; omega, ?_⟩
      simp only [List.length_cons]
      rw [if_neg (by omega)]
      by_cases hs : size = bs.length + 1
      · subst hs
        rw [if_pos (by omega)]
        simp
      · rw [if_neg (by omega), show bs.length + 1 - size = (bs.length - size) + 1 by omega]
        rfl
    · have hl : intLenLoop n i (b :: bs) (b :: bs).length =
          if 128 ≤ b.toNat then bs.length + 2 else bs.length + 1 := by
        simp only [List.length_cons, intLenLoop]
        rw [if_neg]
        · rw [highBit]
          simp only [decide_eq_true_eq]
        · simp only [Bool.and_eq_true, beq_iff_eq, bne_iff_ne, ne_eq, not_and, not_not]
          intro hb0
          have : bs = [] := by
            by_contra hc
            exact hb ⟨hb0, hc⟩
          subst this
          simp at hi
          omega
      have hbody : intBody (beValue (b :: bs)) =
          if 128 ≤ b.toNat then 0 :: b :: bs else b :: bs := by
        by_cases hb0 : b = 0
        · have : bs = [] := by
            by_contra hc
            exact hb ⟨hb0, hc⟩
          subst this hb0
          decide +kernel
        · rw [intBody, digits256_beValue _ (b :: bs) rfl]
          · simp only
            by_cases h : b.toNat < 128
            · rw [if_pos h, if_neg (by omega)]
            · rw [if_neg h, if_pos (by omega)]
          · intro d ds h
            cases h
            exact hb0
      rw [hl, hbody]
      by_cases h : 128 ≤ b.toNat
      · simp only [if_pos h, List.length_cons]
        refine ⟨by omega, ?_⟩
        rw [if_pos (by omega), show bs.length + 1 - (bs.length + 2) = 0 by omega]
        rfl
      · simp only [if_neg h, List.length_cons]
        refine ⟨by omega, ?_⟩
        rw [if_neg (by omega), Nat.sub_self]
        rfl

theorem wInt_eq {v : Bytes} (h : v ≠ []) : wInt v = intBody (beValue v) :=
  (intLen_spec v.length v 0 h (by omega)).2

theorem wInt_length (v : Bytes) : (wInt v).length = intBytesSize v false := by
  by_cases h : v = []
  · subst h; rfl
  · have h1 := (intLen_spec v.length v 0 h (by omega)).1
    have h2 : intBytesSize v false = intLenLoop v.length 0 v v.length := rfl
    unfold wInt
    rw [h2]
    generalize intLenLoop v.length 0 v v.length = size at h1 ⊢
    by_cases hs : size > v.length
    · rw [if_pos hs]; simp; omega
    · rw [if_neg hs]; simp; omega

theorem intBytesSize_true (v : Bytes) : intBytesSize v true = tl (wInt v).length := by
  rw [wInt_length]; rfl

theorem shift_byte (n k : Nat) : (UInt8.ofNat (n >>> k)).toNat = n / 2 ^ k % 256 := by
  rw [Nat.shiftRight_eq_div_pow]; simp

theorem beValue_be64 {n : Nat} (h : n < 18446744073709551616) : beValue (be64 n) = n := by
  simp only [beValue, be64, List.foldl_cons, List.foldl_nil, shift_byte]
  simp
  omega

theorem be64_ne (n : Nat) : be64 n ≠ [] := by simp [be64]

theorem wInt_be64 {n : Nat} (h : n < 18446744073709551616) : wInt (be64 n) = intBody n := by
  rw [wInt_eq (be64_ne n), beValue_be64 h]

theorem intSize_true {n : Nat} (h : n < 18446744073709551616) :
    intSize n true = tl (intBody n).length := by
  rw [intSize, intBytesSize_true, wInt_be64 h]

theorem intSize_false {n : Nat} (h : n < 18446744073709551616) :
    intSize n false = (intBody n).length := by
  rw [intSize, ← wInt_length, wInt_be64 h]

/-! ### One stretch of output -/

/-- From `w` to `w'` exactly the bytes `bs` were emitted: the offset advances by their number, the
backtracking state is kept, and if they fit they replace what was in their place. -/
structure Step (w w' : Writer) (bs : Bytes) : Prop where
  offset : w'.offset = w.offset + bs.length
  backtracks : w'.backtracks = w.backtracks
  saved : w'.saved = w.saved
  csrRange : w'.csrRange = w.csrRange
  length : w'.buf.length = w.buf.length
  fits : w.offset + bs.length ≤ w.buf.length →
    w'.buf = w.buf.take w.offset ++ (bs ++ w.buf.drop (w.offset + bs.length))

theorem Step.nil (w : Writer) : Step w w [] :=
  ⟨rfl, rfl, rfl, rfl, rfl, fun _ => by simp⟩

theorem Step.trans {w w1 w2 : Writer} {a b : Bytes} (h1 : Step w w1 a) (h2 : Step w1 w2 b) :
    Step w w2 (a ++ b) where
  offset := by rw [h2.offset, h1.offset, List.length_append]; omega
  backtracks := by rw [h2.backtracks, h1.backtracks]
  saved := by rw [h2.saved, h1.saved]
  csrRange := by rw [h2.csrRange, h1.csrRange]
  length := by rw [h2.length, h1.length]
  fits := by
    intro hf
    rw [List.length_append] at hf ⊢
    have hb1 := h1.fits (by omega)
    have hb2 := h2.fits (by rw [h1.offset, h1.length]; omega)
    rw [hb2, hb1, h1.offset]
    have hl : (w.buf.take w.offset).length = w.offset := by rw [List.length_take]; omega
    have e1 : List.take (w.offset + a.length)
        (w.buf.take w.offset ++ (a ++ w.buf.drop (w.offset + a.length))) =
        w.buf.take w.offset ++ a := by
      rw [← List.append_assoc, List.take_left']
      rw [List.length_append, hl]
    have e2 : List.drop (w.offset + a.length + b.length)
        (w.buf.take w.offset ++ (a ++ w.buf.drop (w.offset + a.length))) =
        w.buf.drop (w.offset + (a.length + b.length)) := by
      rw [← List.drop_drop, ← List.append_assoc, List.drop_left', List.drop_drop, Nat.add_assoc]
      rw [List.length_append, hl]
    rw [e1, e2]
    simp

theorem put_step (w : Writer) (bs : Bytes) : Step w (w.put bs) bs where
  offset := rfl
  backtracks := rfl
  saved := rfl
  csrRange := rfl
  length := by
    simp only [Writer.put, bufWrite]
    split
    · simp; omega
    · rfl
  fits := by
    intro h
    simp only [Writer.put, bufWrite]
    rw [if_pos h]
    simp

/-- The encoder emits exactly `bs` and reports their number. -/
def Emits (e : Enc) (bs : Bytes) : Prop := ∀ w, (e w).1 = bs.length ∧ Step w (e w).2 bs

theorem Emits.cast {e : Enc} {a b : Bytes} (h : Emits e a) (hab : a = b) : Emits e b := hab ▸ h

theorem emits_nil : Emits (Enc.all []) [] := fun w => ⟨rfl, Step.nil w⟩

theorem emits_cons {e : Enc} {es : List Enc} {a b : Bytes} (h1 : Emits e a)
    (h2 : Emits (Enc.all es) b) : Emits (Enc.all (e :: es)) (a ++ b) := by
  intro w
  obtain ⟨h3, h4⟩ := h1 w
  obtain ⟨h5, h6⟩ := h2 (e w).2
  refine ⟨?_, h4.trans h6⟩
  simp only [Enc.all, h3, h5, List.length_append]

theorem emits_append {es fs : List Enc} : ∀ {a b : Bytes}, Emits (Enc.all es) a →
    Emits (Enc.all fs) b → Emits (Enc.all (es ++ fs)) (a ++ b) := by
  intro a b h1 h2 w
  have hall : ∀ (es : List Enc) (w : Writer), Enc.all (es ++ fs) w =
      ((Enc.all es w).1 + (Enc.all fs (Enc.all es w).2).1, (Enc.all fs (Enc.all es w).2).2) := by
    intro es
    induction es with
    | nil => intro w; simp [Enc.all]
    | cons e es ih => intro w; simp only [List.cons_append, Enc.all, ih, Nat.add_assoc]
  rw [hall]
  obtain ⟨h3, h4⟩ := h1 w
  obtain ⟨h5, h6⟩ := h2 (Enc.all es w).2
  exact ⟨by simp only [h3, h5, List.length_append], h4.trans h6⟩

theorem emits_byte (b : UInt8) : Emits (encByte b) [b] := fun w => ⟨rfl, put_step w [b]⟩

theorem emits_bytes (bs : Bytes) : Emits (encBytes bs) bs := fun w => ⟨rfl, put_step w bs⟩

theorem emits_sizeBytes (n : Nat) : ∀ k, Emits (Enc.all (sizeBytes n k)) (lowBytes n k)
  | 0 => emits_nil
  | k + 1 => emits_cons (emits_byte _) (emits_sizeBytes n k)

theorem emits_size (n : Nat) : Emits (encSize n) (lenBytes n) := by
  intro w
  rw [lenBytes_length]
  unfold encSize
  by_cases h : sizeWidth n = 1
  · rw [if_pos (by simpa using h)]
    refine ⟨rfl, ?_⟩
    unfold lenBytes
    rw [if_pos h]
    exact (emits_byte _ w).2
  · rw [if_neg (by simpa using h)]
    refine ⟨rfl, ?_⟩
    unfold lenBytes
    rw [if_neg h]
    exact (emits_cons (emits_byte _) (emits_sizeBytes n _) w).2

theorem emits_tlv (tag : UInt8) (v : Bytes) : Emits (encTlv tag v) (Asn.prim tag v).wr :=
  (emits_cons (emits_byte _) (emits_cons (emits_size _) (emits_cons (emits_bytes v)
    emits_nil))).cast (by simp [Asn.wr])

theorem emits_oid (v : Bytes) : Emits (encOid v) (oidOf v).wr := emits_tlv _ _

theorem emits_intBytes (v : Bytes) (tagged : Bool) : Emits (encIntBytes v tagged)
    ((if tagged then [tagInteger] else []) ++ (lenBytes (wInt v).length ++ wInt v)) := by
  unfold encIntBytes
  simp only [List.append_assoc, List.cons_append, List.nil_append]
  refine emits_append ?_ ?_
  · cases tagged
    · exact emits_nil
    · exact (emits_cons (emits_byte _) emits_nil)
  · rw [wInt_length]
    refine emits_cons (emits_size _) ?_
    unfold wInt
    refine emits_append ?_ ?_
    · by_cases h : intBytesSize v false > v.length
      · simp only [if_pos h]
        exact emits_cons (emits_byte _) emits_nil
      · simp only [if_neg h]
        exact emits_nil
    · have := emits_cons (emits_bytes (v.drop (v.length - intBytesSize v false))) emits_nil
      rw [List.append_nil] at this
      exact this

theorem emits_intTagged {v : Bytes} (h : v ≠ []) :
    Emits (encIntBytes v true) (asnInt (beValue v)).wr := by
  refine (emits_intBytes v true).cast ?_
  rw [wInt_eq h]; rfl

theorem emits_int {n : Nat} (h : n < 18446744073709551616) :
    Emits (encInt n true) (asnInt n).wr := by
  refine (emits_intTagged (be64_ne n)).cast ?_
  rw [beValue_be64 h]

theorem emits_int_bare {n : Nat} (h : n < 18446744073709551616) :
    Emits (encInt n false) (lenBytes (intBody n).length ++ intBody n) := by
  refine (emits_intBytes (be64 n) false).cast ?_
  rw [wInt_be64 h]; rfl

end Dpe
