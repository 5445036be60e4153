import Verif.Spec.Rfc
import Verif.Proofs.CertFacts
import Verif.Proofs.X509Max
/-
Names, dates and extensions of issued certificates in the terms of RFC 5280.
-/
namespace Dpe
variable {cfg : Cfg} {σ : Type} {ops : Ops σ}

/-! ### Names and dates -/

theorem readAttr_of {o v : Bytes} (hl : (seqOf [oidOf o, .prim 0x13 v]).der.length < Big) :
    readAttr (seqOf [oidOf o, .prim 0x13 v]).head = some ⟨o, 0x13, v⟩ := by
  rw [seqOf] at hl
  rw [seqOf, head_node, readAttr, if_pos rfl, values_of (by simp [oidOf, Asn.Headed]; decide) (ders_lt hl)]
  rfl

theorem readRdn_of {o v : Bytes} (hl : (setOf [seqOf [oidOf o, .prim 0x13 v]]).der.length < Big) :
    readRdn (setOf [seqOf [oidOf o, .prim 0x13 v]]).head = some ⟨o, 0x13, v⟩ := by
  rw [setOf] at hl
  have h0 := ders_lt hl
  rw [setOf, head_node, readRdn, if_pos rfl, values_of (by simp [seqOf, Asn.Headed]; decide) h0]
  exact readAttr_of (part_lt (by simp) h0)

theorem readName_of {cn sn : Bytes} (hl : (nameOf cn sn).der.length < Big) :
    readName (nameOf cn sn).der = some [⟨commonNameId, 0x13, cn⟩, ⟨serialNumberId, 0x13, sn⟩] := by
  have hs := single_of (t := nameOf cn sn) (by rw [nameOf, seqOf, Asn.Headed]; decide) hl
  rw [nameOf, seqOf] at hl
  have h0 := ders_lt hl
  have h1 := readRdn_of (part_lt (t := setOf [seqOf [idCommonName, .prim 0x13 cn]]) (by simp) h0)
  have h2 := readRdn_of (part_lt (t := setOf [seqOf [idSerialNumber, .prim 0x13 sn]]) (by simp) h0)
  have hv := values_of (ts := [setOf [seqOf [idCommonName, .prim 0x13 cn]],
    setOf [seqOf [idSerialNumber, .prim 0x13 sn]]]) (by simp [setOf, Asn.Headed]; decide) h0
  unfold readName
  rw [nameOf, seqOf, head_node] at hs
  rw [nameOf, seqOf, hs]
  simp only [hv, List.map_cons, List.map_nil, allOf]
  simp only [idCommonName, idSerialNumber] at h1 h2 ⊢
  rw [h1, h2]
  rfl

theorem readValidity_of {v : Validity} (hl : (validityOf v).der.length < Big) :
    readValidity (validityOf v).der = some ((0x18, v.notBefore), (0x18, v.notAfter)) := by
  have hs := single_of (t := validityOf v) (by rw [validityOf, seqOf, Asn.Headed]; decide) hl
  rw [validityOf, seqOf] at hl
  have hv := values_of (ts := [.prim 0x18 v.notBefore, .prim 0x18 v.notAfter])
    (by simp [Asn.Headed]; decide) (ders_lt hl)
  unfold readValidity
  rw [validityOf, seqOf, head_node] at hs
  rw [validityOf, seqOf, hs]
  simp only [hv, List.map_cons, List.map_nil, Asn.head]

theorem tbs_parts {p : Profile} {serial issuer : Bytes} {v : Validity} {s : Subject cfg}
    (hl : (tbsCertificate p serial issuer v s).der.length < Big) :
    (validityOf v).der.length < Big ∧ (nameOf s.cn s.serialName).der.length < Big := by
  rw [tbsCertificate_eq] at hl
  have h0 := ders_lt' hl
  exact ⟨part_lt (by simp [tbsParts]) h0, part_lt (by simp [tbsParts]) h0⟩

theorem info_parts {p : Profile} {s : Subject cfg} (hl : (requestInfo p s).der.length < Big) :
    (nameOf s.cn s.serialName).der.length < Big := by
  unfold requestInfo at hl
  exact part_lt (by simp) (ders_lt' hl)

/-! ### Texts -/

theorem hex_digit (n : Nat) (h : n < 16) : (ascii "0123456789ABCDEF").getD n 0 ∈ ascii "0123456789ABCDEF" := by
  have e : ∀ n < 16, (ascii "0123456789ABCDEF").getD n 0 ∈ ascii "0123456789ABCDEF" := by decide +kernel
  exact e n h

theorem hexText_chars (d : Bytes) : ∀ b ∈ hexText d, b ∈ ascii "0123456789ABCDEF" := by
  intro b hb
  obtain ⟨x, _, hx⟩ := List.mem_flatMap.1 hb
  have h1 := x.toNat_lt
  simp only [List.mem_cons, List.not_mem_nil, or_false] at hx
  rcases hx with rfl | rfl
  · exact hex_digit _ (by omega)
  · exact hex_digit _ (by omega)

theorem hex_printable : ∀ b ∈ ascii "0123456789ABCDEF", b ∈ printableText ∧ b ≠ 0 ∧ b.toNat < 128 := by
  decide +kernel

theorem serialText_long {d : Bytes} (h : 32 ≤ d.length) : serialText d = (hexText d).take 64 := by
  unfold serialText
  rw [List.take_append_of_le_length (by rw [hexText_length]; omega)]

theorem digits_beValue_pos {b : UInt8} {bs : Bytes} (hb : b ≠ 0) : digits256 (beValue (b :: bs)) = b :: bs := by
  have h := digits256_beValue (bs.length + 1) (b :: bs) rfl
  simpa [hb] using h

/-- The serial number is written with its own octets. -/
theorem serial_octets {d : Bytes} (h : 32 ≤ d.length) :
    intBody (beValue ((serialText d).take 20)) = (hexText d).take 20 := by
  rw [serialText_long h, List.take_take, Nat.min_eq_left (by decide)]
  have hl : ((hexText d).take 20).length = 20 := by rw [List.length_take, hexText_length]; omega
  have hc : ∀ b ∈ (hexText d).take 20, b ∈ ascii "0123456789ABCDEF" :=
    fun b hb => hexText_chars d b (List.mem_of_mem_take hb)
  generalize (hexText d).take 20 = t at hl hc
  cases t with
  | nil => cases hl
  | cons b bs =>
    obtain ⟨_, h2, h3⟩ := hex_printable b (hc b (by simp))
    rw [intBody, digits_beValue_pos h2]
    simp only [h3, if_true]

theorem serial_positive {d : Bytes} (h : 32 ≤ d.length) :
    0 < intValue ((hexText d).take 20) ∧ ((hexText d).take 20).length ≤ 20 := by
  refine ⟨?_, by rw [List.length_take]; omega⟩
  have hl : ((hexText d).take 20).length = 20 := by rw [List.length_take, hexText_length]; omega
  rw [← serial_octets h, intValue_intBody]
  rw [Int.natCast_pos, serialText_long h, List.take_take, Nat.min_eq_left (by decide)]
  have hc : ∀ b ∈ (hexText d).take 20, b ∈ ascii "0123456789ABCDEF" :=
    fun b hb => hexText_chars d b (List.mem_of_mem_take hb)
  generalize (hexText d).take 20 = t at hl hc
  cases t with
  | nil => cases hl
  | cons b bs =>
    obtain ⟨_, h2, h3⟩ := hex_printable b (hc b (by simp))
    refine Nat.pos_of_ne_zero fun h0 => ?_
    have := digits_beValue_pos (bs := bs) h2
    rw [h0] at this
    cases this

theorem subject_conforms {cn d : Bytes} (h : 32 ≤ d.length)
    (hc : cn = ascii "DPE Leaf" ∨ cn = ascii "DPE Exported CDI") :
    subjectFor cn d ≠ [] ∧ ∀ a ∈ subjectFor cn d, a.Conforms := by
  refine ⟨by simp [subjectFor], ?_⟩
  intro a ha
  simp only [subjectFor, List.mem_cons, List.not_mem_nil, or_false] at ha
  rcases ha with rfl | rfl
  · refine ⟨.inl rfl, rfl, ?_, ?_⟩
    · rcases hc with rfl | rfl <;> decide +kernel
    · rcases hc with rfl | rfl <;> decide +kernel
  · refine ⟨.inr rfl, rfl, ?_, fun b hb => ?_⟩
    · simp only [List.length_take, hexText_length]; omega
    · exact (hex_printable b (hexText_chars d b (List.mem_of_mem_take hb))).1

theorem Hashed.long (hl : HashesLong ops) {chunks : List Bytes} {w w' : σ} {d : Bytes}
    (h : Hashed ops chunks w d w') : 32 ≤ d.length := by
  obtain ⟨_, _, _, _, _, _, h⟩ := h
  exact hl _ _ _ h

/-! ### Extensions -/

theorem has_found {p : Profile} {a : Attested cfg} {cert : Bool} {o : Bytes} {c : Bool} {v : Asn}
    (he : (o, c, v) ∈ extSpecs p a cert) : Has o c (foundExts p a cert) :=
  ⟨_, extOf_found he, rfl⟩

theorem found_mem {p : Profile} {a : Attested cfg} {cert : Bool} {e : Ext} (h : e ∈ foundExts p a cert) :
    (e.oid, e.critical) ∈ [(multiTcbInfoId, a.critical), (ueidId, a.critical), (basicConstraintsId, true),
      (keyUsageId, true), (extKeyUsageId, true), (subjectKeyIdId, false), (authorityKeyIdId, false),
      (subjectAltNameId, false)] := by
  unfold foundExts extSpecs at h
  obtain ⟨x, hx, rfl⟩ := List.mem_map.1 h
  cases cert <;> cases h1 : a.altName <;> cases h2 : a.ca <;>
    simp only [h1, h2, if_true, Bool.false_eq_true, if_false, List.append_nil, List.cons_append,
      List.nil_append, List.mem_cons, List.not_mem_nil, or_false, Bool.and_true,
      Bool.and_false] at hx <;>
    rcases hx with rfl | rfl | rfl | rfl | rfl | rfl | rfl | rfl <;>
    simp [multiTcbInfoId, ueidId, basicConstraintsId, keyUsageId, extKeyUsageId, subjectKeyIdId,
      authorityKeyIdId, subjectAltNameId]

theorem ids_distinct : [multiTcbInfoId, ueidId, basicConstraintsId, keyUsageId, extKeyUsageId, subjectKeyIdId,
    authorityKeyIdId, subjectAltNameId].Nodup := by decide +kernel

theorem found_critical {p : Profile} {a : Attested cfg} {cert : Bool} :
    CriticalOnes a.critical (foundExts p a cert) := by
  intro e he
  have h := found_mem he
  obtain ⟨o, c, v⟩ := e
  simp only [List.mem_cons, List.not_mem_nil, or_false, Prod.mk.injEq] at h ⊢
  rcases h with ⟨rfl, rfl⟩ | ⟨rfl, rfl⟩ | ⟨rfl, rfl⟩ | ⟨rfl, rfl⟩ | ⟨rfl, rfl⟩ | ⟨rfl, rfl⟩ | ⟨rfl, rfl⟩ | ⟨rfl, rfl⟩ <;>
    cases a.critical <;> decide +kernel

theorem found_plain {p : Profile} {a : Attested cfg} {cert : Bool} {e : Ext} (h : e ∈ foundExts p a cert)
    (ho : e.oid = subjectKeyIdId ∨ e.oid = subjectAltNameId) : e.critical = false := by
  have h := found_mem h
  obtain ⟨o, c, v⟩ := e
  simp only [List.mem_cons, List.not_mem_nil, or_false, Prod.mk.injEq] at h ho ⊢
  rcases h with ⟨rfl, rfl⟩ | ⟨rfl, rfl⟩ | ⟨rfl, rfl⟩ | ⟨rfl, rfl⟩ | ⟨rfl, rfl⟩ | ⟨rfl, rfl⟩ | ⟨rfl, rfl⟩ | ⟨rfl, rfl⟩
  · exact absurd ho (by decide +kernel)
  · exact absurd ho (by decide +kernel)
  · exact absurd ho (by decide +kernel)
  · exact absurd ho (by decide +kernel)
  · exact absurd ho (by decide +kernel)
  · rfl
  · rfl
  · rfl

theorem identifier_found {p : Profile} {a : Attested cfg} (hl : (extensions p a true).der.length < Big)
    (h : isCa (foundExts p a true) = some true) : (skidOf (foundExts p a true)).isSome = true := by
  rw [isCa_found] at h
  rw [skid_found hl, Option.some.inj h]
  rfl

theorem found_conform {p : Profile} {a : Attested cfg} {cert : Bool} : ExtsConform (foundExts p a cert) where
  once := by
    have := oids_nodup p a cert
    unfold foundExts
    rwa [List.map_map]
  known := by
    intro e he
    have h := found_mem he
    simp only [List.mem_cons, List.not_mem_nil, or_false, Prod.mk.injEq] at h ⊢
    tauto
  constraints := has_found (v := basicConstraints a.ca) (by unfold extSpecs; simp [basicConstraintsId])
  usage := by
    refine ⟨has_found (v := keyUsage a.ca) (by unfold extSpecs; simp [keyUsageId]), _, keyUsages_found, ?_⟩
    cases a.ca <;> decide
  signs := by
    refine ⟨_, keyUsages_found, ?_⟩
    rw [isCa_found]
    cases a.ca <;> decide
  purpose := by
    refine ⟨has_found (v := extKeyUsage a.ca) (by unfold extSpecs; simp [extKeyUsageId]), _, keyPurposes_found, ?_⟩
    cases a.ca <;> decide
  altName := fun e he ho => found_plain he (.inr ho)

end Dpe
