import Verif.Proofs.X509Tree
import Verif.Proofs.Der
/-
Sizes: the writer's lengths against the DER lengths, and lower bounds.
-/
namespace Dpe
variable {cfg : Cfg}

theorem digits_lt (n : Nat) : n < 256 ^ (digits256 n).length := by
  have := beValue_lt (digits256 n)
  rwa [beValue_digits] at this

theorem digits_mono {a b : Nat} (h : a ≤ b) : (digits256 a).length ≤ (digits256 b).length :=
  digits256_length_le (Nat.lt_of_le_of_lt h (digits_lt b))

theorem derLen_mono {a b : Nat} (h : a ≤ b) : (derLen a).length ≤ (derLen b).length := by
  have := digits_mono h
  unfold derLen
  split <;> split <;> simp only [List.length_cons, List.length_nil] <;> omega

theorem sizeWidth_le (n : Nat) : sizeWidth n ≤ (derLen n).length := by
  by_cases h : n < 4294967296
  · rw [← lenBytes_eq h, lenBytes_length]; exact Nat.le_refl _
  · have h1 := (sizeWidth_pos n).2
    have h2 : 4 < (digits256 n).length := digits256_length_gt (by omega)
    rw [derLen, if_neg (by omega), List.length_cons]
    omega

theorem tl_le {a b : Nat} (h : a ≤ b) : tl a ≤ tlvLen b := by
  have h1 := sizeWidth_le a
  have h2 := derLen_mono h
  unfold tl tlvLen
  omega

mutual
theorem Asn.wr_le : ∀ t : Asn, t.wr.length ≤ t.written.length ∧ t.fs ≤ t.foreseen
  | .prim tag body => by
    have h := sizeWidth_le body.length
    rw [Asn.wr, Asn.written, tlv, Asn.fs, Asn.foreseen]
    simp only [List.length_cons, List.length_append, lenBytes_length]
    exact ⟨by omega, tl_le (Nat.le_refl _)⟩
  | .node tag lead parts => by
    obtain ⟨h1, h2⟩ := Asn.wrs_le parts
    have h3 : lead.length + Asn.fss parts ≤ lead.length + Asn.foreseens parts := by omega
    have h4 := tl_le h3
    have h5 := sizeWidth_le (lead.length + Asn.fss parts)
    have h6 := derLen_mono h3
    rw [Asn.wr, Asn.written, Asn.fs, Asn.foreseen]
    simp only [List.length_cons, List.length_append, lenBytes_length]
    exact ⟨by omega, h4⟩
  | .list tag parts => by
    obtain ⟨h1, h2⟩ := Asn.wrs_le parts
    have h0 := Asn.fsHead_le parts
    have h3 : parts.length * Asn.fsHead parts ≤ parts.length * Asn.foreseenHead parts :=
      Nat.mul_le_mul (Nat.le_refl _) h0
    have h4 := tl_le h3
    have h5 := sizeWidth_le (parts.length * Asn.fsHead parts)
    have h6 := derLen_mono h3
    rw [Asn.wr, Asn.written, Asn.fs, Asn.foreseen]
    simp only [List.length_cons, List.length_append, lenBytes_length]
    exact ⟨by omega, h4⟩
  | .outer tag parts => by
    obtain ⟨h1, h2⟩ := Asn.wrs_le parts
    have h5 := sizeWidth_le (Asn.wrs parts).length
    have h6 := derLen_mono h1
    rw [Asn.wr, Asn.written, tlv, Asn.fs, Asn.foreseen]
    simp only [List.length_cons, List.length_append, lenBytes_length]
    exact ⟨by omega, tl_le h2⟩
  | .raw bs => by rw [Asn.wr, Asn.written, Asn.fs, Asn.foreseen]; exact ⟨Nat.le_refl _, Nat.le_refl _⟩
theorem Asn.wrs_le : ∀ ts : List Asn,
    (Asn.wrs ts).length ≤ (Asn.writtens ts).length ∧ Asn.fss ts ≤ Asn.foreseens ts
  | [] => by
    rw [Asn.wrs, Asn.writtens, Asn.fss, Asn.foreseens]; exact ⟨Nat.le_refl _, Nat.le_refl _⟩
  | t :: ts => by
    obtain ⟨h1, h2⟩ := Asn.wr_le t
    obtain ⟨h3, h4⟩ := Asn.wrs_le ts
    rw [Asn.wrs, Asn.writtens, Asn.fss, Asn.foreseens, List.length_append, List.length_append]
    exact ⟨by omega, by omega⟩
theorem Asn.fsHead_le : ∀ ts : List Asn, Asn.fsHead ts ≤ Asn.foreseenHead ts
  | [] => by rw [Asn.fsHead, Asn.foreseenHead]; exact Nat.le_refl _
  | t :: _ => by rw [Asn.fsHead, Asn.foreseenHead]; exact (Asn.wr_le t).2
end

theorem Asn.short_written' {t : Asn} (h : t.Short) (hl : t.written.length < 33554432) :
    t.wr = t.written :=
  Asn.short_written t h (Nat.lt_of_le_of_lt (Asn.wr_le t).1 hl)

/-! ### Lower bounds -/

mutual
/-- The length with one octet for each length. -/
def Asn.least : Asn → Nat
  | .prim _ body => 2 + body.length
  | .node _ lead parts => 2 + lead.length + Asn.leasts parts
  | .list _ parts => 2 + Asn.leasts parts
  | .outer _ parts => 2 + Asn.leasts parts
  | .raw bs => bs.length
@[inherit_doc Asn.least] def Asn.leasts : List Asn → Nat
  | [] => 0
  | t :: ts => t.least + Asn.leasts ts
end

mutual
theorem Asn.least_le : ∀ t : Asn, t.least ≤ t.wr.length
  | .prim tag body => by
    have := sizeWidth_pos body.length
    rw [Asn.wr, Asn.least]
    simp only [List.length_cons, List.length_append, lenBytes_length]
    omega
  | .node tag lead parts => by
    have := sizeWidth_pos (lead.length + Asn.fss parts)
    have := Asn.leasts_le parts
    rw [Asn.wr, Asn.least]
    simp only [List.length_cons, List.length_append, lenBytes_length]
    omega
  | .list tag parts => by
    have := sizeWidth_pos (parts.length * Asn.fsHead parts)
    have := Asn.leasts_le parts
    rw [Asn.wr, Asn.least]
    simp only [List.length_cons, List.length_append, lenBytes_length]
    omega
  | .outer tag parts => by
    have := sizeWidth_pos (Asn.wrs parts).length
    have := Asn.leasts_le parts
    rw [Asn.wr, Asn.least]
    simp only [List.length_cons, List.length_append, lenBytes_length]
    omega
  | .raw bs => by rw [Asn.wr, Asn.least]; exact Nat.le_refl _
theorem Asn.leasts_le : ∀ ts : List Asn, Asn.leasts ts ≤ (Asn.wrs ts).length
  | [] => by rw [Asn.leasts]; exact Nat.zero_le _
  | t :: ts => by
    have := Asn.least_le t
    have := Asn.leasts_le ts
    rw [Asn.wrs, Asn.leasts, List.length_append]
    omega
end

theorem leasts_append (a b : List Asn) : Asn.leasts (a ++ b) = Asn.leasts a + Asn.leasts b := by
  induction a with
  | nil => simp [Asn.leasts]
  | cons t ts ih => simp [Asn.leasts, ih]; omega

theorem least_key {p : Profile} {k : PubKey} (hk : keyFits p k) : 88 ≤ (keyInfo p k).least := by
  have ho : ∀ l, (oidOf l).least = 2 + l.length := fun l => by rw [oidOf, Asn.least]
  have h1 : idEcPublicKey.least = 9 := by rw [idEcPublicKey, ho]; decide
  have h2 : idPrime256v1.least = 10 := by rw [idPrime256v1, ho]; decide
  have h3 : idSecp384r1.least = 7 := by rw [idSecp384r1, ho]; decide
  have hm : ∀ v : BArr 2592, (bits (keyOctets (.mldsa v))).least = 2595 := fun v => by
    simp [bits, keyOctets, Asn.least]
  have h4 : ∀ x y, (bits (keyOctets (.p256 x y))).least = 68 := fun x y => by
    simp [bits, keyOctets, Asn.least]
  have h5 : ∀ x y, (bits (keyOctets (.p384 x y))).least = 100 := fun x y => by
    simp [bits, keyOctets, Asn.least]
  cases k with
  | mldsa v =>
    simp only [keyInfo, seqOf, Asn.least, Asn.leasts, hm]; omega
  | p256 x y =>
    cases p with
    | mldsa87 => exact absurd (hk.2 rfl) (by simp [PubKey.isMldsa])
    | p256 => simp only [keyInfo, keyAlgorithm, seqOf, Asn.least, Asn.leasts, h4, h1, h2, List.length_nil]; omega
    | p384 => simp only [keyInfo, keyAlgorithm, seqOf, Asn.least, Asn.leasts, h4, h1, h3, List.length_nil]; omega
  | p384 x y =>
    cases p with
    | mldsa87 => exact absurd (hk.2 rfl) (by simp [PubKey.isMldsa])
    | p256 => simp only [keyInfo, keyAlgorithm, seqOf, Asn.least, Asn.leasts, h5, h1, h2, List.length_nil]; omega
    | p384 => simp only [keyInfo, keyAlgorithm, seqOf, Asn.least, Asn.leasts, h5, h1, h3, List.length_nil]; omega

theorem least_name {cn sn : Bytes} (h1 : 8 ≤ cn.length) (h2 : sn.length = 64) :
    96 ≤ (nameOf cn sn).least := by
  have ho : ∀ l, (oidOf l).least = 2 + l.length := fun l => by rw [oidOf, Asn.least]
  have h3 : idCommonName.least = 5 := by rw [idCommonName, ho]; decide
  have h4 : idSerialNumber.least = 5 := by rw [idSerialNumber, ho]; decide
  simp only [nameOf, seqOf, setOf, Asn.least, Asn.leasts, h3, h4, List.length_nil]; omega

theorem least_extension (id value : Asn) (c : Bool) :
    4 + id.least + value.least ≤ (extension id c value).least := by
  cases c <;> simp only [extension, seqOf, octetsOf, asnTrue, Asn.least, Asn.leasts, List.length_nil,
    leasts_append, if_true, Bool.false_eq_true, if_false, List.nil_append, List.length_cons] <;> omega

theorem least_exts (p : Profile) (a : Attested cfg) (cert : Bool) :
    67 ≤ (extensions p a cert).least := by
  have ho : ∀ l, (oidOf l).least = 2 + l.length := fun l => by rw [oidOf, Asn.least]
  have h1 : idMultiTcbInfo.least = 8 := by rw [idMultiTcbInfo, ho]; decide
  have h2 : idUeid.least = 8 := by rw [idUeid, ho]; decide
  have h3 : idBasicConstraints.least = 5 := by rw [idBasicConstraints, ho]; decide
  have h4 : idKeyUsage.least = 5 := by rw [idKeyUsage, ho]; decide
  have h5 : idExtKeyUsage.least = 5 := by rw [idExtKeyUsage, ho]; decide
  have e1 := least_extension idMultiTcbInfo (multiTcbInfo p a) a.critical
  have e2 := least_extension idUeid (seqOf [octets a.label]) a.critical
  have e3 := least_extension idBasicConstraints (basicConstraints a.ca) true
  have e4 := least_extension idKeyUsage (keyUsage a.ca) true
  have e5 := least_extension idExtKeyUsage (extKeyUsage a.ca) true
  have v1 : 2 ≤ (multiTcbInfo p a).least := by rw [multiTcbInfo, Asn.least]; omega
  have v2 : 4 ≤ (seqOf [octets a.label]).least := by
    simp only [seqOf, octets, Asn.least, Asn.leasts]; omega
  have v3 : 2 ≤ (basicConstraints a.ca).least := by
    rw [basicConstraints, seqOf, Asn.least]; omega
  have v4 : 4 ≤ (keyUsage a.ca).least := by
    cases a.ca <;> simp [keyUsage, Asn.least]
  have v5 : 2 ≤ (extKeyUsage a.ca).least := by rw [extKeyUsage, seqOf, Asn.least]; omega
  rw [extensions, seqOf, otherExtensions]
  simp only [Asn.least, Asn.leasts, leasts_append, List.length_nil]
  omega

theorem least_sigAlg (p : Profile) : 12 ≤ (sigAlgorithm p).least := by
  have ho : ∀ l, (oidOf l).least = 2 + l.length := fun l => by rw [oidOf, Asn.least]
  have h1 : idEcdsaSha256.least = 10 := by rw [idEcdsaSha256, ho]; decide
  have h2 : idEcdsaSha384.least = 10 := by rw [idEcdsaSha384, ho]; decide
  have h3 : idMldsa87.least = 11 := by rw [idMldsa87, ho]; decide
  cases p <;> simp only [sigAlgorithm, seqOf, Asn.least, Asn.leasts, h1, h2, h3, List.length_nil] <;> omega

theorem least_tbs {p : Profile} {serial issuer : Bytes} {v : Validity} {s : Subject cfg}
    (hk : keyFits p s.key) (hc : 8 ≤ s.cn.length) (hn : s.serialName.length = 64) :
    256 ≤ (Asn.wrs (tbsParts p serial issuer v s)).length := by
  refine Nat.le_trans ?_ (Asn.leasts_le _)
  have h1 := least_key hk
  have h2 := least_name hc hn
  have h3 := least_exts p s.attested true
  have h4 := least_sigAlg p
  have h5 : (validityOf v).least ≥ 6 := by
    simp only [validityOf, seqOf, Asn.least, Asn.leasts]; omega
  simp only [tbsParts, Asn.leasts, tagged, asnInt, Asn.least]
  omega

theorem least_cri {p : Profile} {s : Subject cfg}
    (hk : keyFits p s.key) (hc : 8 ≤ s.cn.length) (hn : s.serialName.length = 64) :
    256 ≤ (Asn.wrs (criParts p s)).length := by
  refine Nat.le_trans ?_ (Asn.leasts_le _)
  have h1 := least_key hk
  have h2 := least_name hc hn
  have h3 := least_exts p s.attested false
  simp only [criParts, attributes, Asn.leasts, tagged, seqOf, setOf, asnInt, Asn.least]
  omega

theorem sizeWidth_three {n : Nat} : sizeWidth n = 3 ↔ 256 ≤ n ∧ n < 65536 := by
  unfold sizeWidth
  split
  · omega
  · split
    · omega
    · split
      · omega
      · split <;> omega

end Dpe
