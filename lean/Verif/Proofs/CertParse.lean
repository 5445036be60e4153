import Verif.Spec.Report
import Verif.Proofs.Parse
import Verif.Props.Numbers
/-
The certificate reader on issued certificates and requests.
-/
namespace Dpe
variable {cfg : Cfg} {σ : Type} {ops : Ops σ}

/-- 2^32. -/
abbrev Big : Nat := 4294967296

theorem ders_lt {tag : UInt8} {l : Bytes} {ps : List Asn} (h : (Asn.node tag l ps).der.length < Big) :
    (Asn.ders ps).length < Big := by
  rw [Asn.der, tlv_length, List.length_append] at h
  unfold tlvLen at h; omega

theorem ders_lt' {tag : UInt8} {ps : List Asn} (h : (Asn.outer tag ps).der.length < Big) :
    (Asn.ders ps).length < Big := by
  rw [Asn.der, tlv_length] at h
  unfold tlvLen at h; omega

theorem ders_lt'' {tag : UInt8} {ps : List Asn} (h : (Asn.list tag ps).der.length < Big) :
    (Asn.ders ps).length < Big := by
  rw [Asn.der, tlv_length] at h
  unfold tlvLen at h; omega

theorem part_lt {ts : List Asn} {t : Asn} (ht : t ∈ ts) (h : (Asn.ders ts).length < Big) :
    t.der.length < Big := Nat.lt_of_le_of_lt (der_le_ders ht) h

theorem head_node (tag : UInt8) (ps : List Asn) : (Asn.node tag [] ps).head = (tag, Asn.ders ps) := by
  rw [Asn.head, List.nil_append]

/-! ### Extensions -/

theorem readExt_of {o : Bytes} {c : Bool} {v : Asn}
    (hl : (extension (oidOf o) c v).der.length < Big) :
    readExt (extension (oidOf o) c v).head = some ⟨o, c, v.der⟩ := by
  rw [extension, seqOf, head_node, readExt, if_pos rfl]
  have h0 := ders_lt hl
  cases c with
  | false =>
    simp only [Bool.false_eq_true, if_false, List.nil_append] at h0 ⊢
    rw [fields_of (by simp [oidOf, octetsOf, Asn.Headed]; decide) h0 (tags := [0x06, 0x04]) rfl]
    simp only [List.map_cons, List.map_nil, octetsOf, head_node, oidOf, Asn.head, ders_one,
      List.nil_append]
  | true =>
    simp only [if_true, List.cons_append, List.nil_append] at h0 ⊢
    have hh : ∀ t ∈ [oidOf o, asnTrue, octetsOf [v]], t.Headed := by
      simp [oidOf, octetsOf, asnTrue, Asn.Headed]; decide
    rw [fields_not hh h0 (tags := [0x06, 0x04]) (by simp),
      fields_of hh h0 (tags := [0x06, 0x01, 0x04]) rfl]
    simp only [List.map_cons, List.map_nil, octetsOf, asnTrue, oidOf, Asn.head, ders_one,
      List.nil_append, if_true]

theorem extensions_specs (p : Profile) (a : Attested cfg) (cert : Bool) :
    extensions p a cert =
      seqOf ((extSpecs p a cert).map fun e => extension (oidOf e.1) e.2.1 e.2.2) := by
  unfold extensions extSpecs otherExtensions
  cases a.ca <;> cases cert <;> cases a.altName <;> rfl

theorem oids_nodup (p : Profile) (a : Attested cfg) (cert : Bool) :
    ((extSpecs p a cert).map (·.1)).Nodup := by
  unfold extSpecs
  cases a.ca <;> cases cert <;> cases a.altName <;>
    simp only [Bool.and_true, Bool.and_false, if_true, Bool.false_eq_true, if_false,
      List.append_nil, List.cons_append, List.nil_append, List.map_cons, List.map_nil] <;>
    decide +kernel

theorem readExts_of {p : Profile} {a : Attested cfg} {cert : Bool}
    (hl : (extensions p a cert).der.length < Big) :
    readExts (extensions p a cert).der = some (foundExts p a cert) := by
  have hs := single_of (t := extensions p a cert) (by rw [extensions, seqOf, Asn.Headed]; decide) hl
  have hh : (extensions p a cert).head = (0x30,
      Asn.ders ((extSpecs p a cert).map fun e => extension (oidOf e.1) e.2.1 e.2.2)) := by
    rw [extensions_specs, seqOf, head_node]
  have h0 : (Asn.ders ((extSpecs p a cert).map fun e => extension (oidOf e.1) e.2.1 e.2.2)).length <
      Big := by
    rw [extensions_specs, seqOf] at hl; exact ders_lt hl
  rw [hh] at hs
  have hx : ∀ t ∈ (extSpecs p a cert).map fun e => extension (oidOf e.1) e.2.1 e.2.2, t.Headed := by
    intro t ht
    obtain ⟨e, _, rfl⟩ := List.mem_map.1 ht
    rw [extension, seqOf, Asn.Headed]; decide
  have ha : allOf readExt (((extSpecs p a cert).map fun e => extension (oidOf e.1) e.2.1 e.2.2).map
      Asn.head) = some (foundExts p a cert) := by
    rw [List.map_map]
    refine allOf_map fun e he => readExt_of ?_
    exact part_lt (List.mem_map.2 ⟨e, he, rfl⟩) h0
  have hn : ((foundExts p a cert).map Ext.oid).Nodup := by
    have := oids_nodup p a cert
    rw [foundExts, List.map_map]; exact this
  unfold readExts
  rw [hs]
  simp only
  rw [values_of hx h0]
  simp only
  rw [ha]
  simp only
  rw [if_pos hn]

/-! ### What the extensions mean -/

theorem readFwid_of {p : Profile} {d : Bytes} (hl : (fwid p d).der.length < Big) :
    readFwid (fwid p d).head = some (hashArcs p, d) := by
  rw [fwid, seqOf] at hl ⊢
  have h0 := ders_lt hl
  have hh : ∀ t ∈ [hashId p, octets d], t.Headed := by
    cases p <;> simp [hashId, idSha256, idSha384, oidOf, octets, Asn.Headed] <;> decide
  rw [head_node, readFwid, if_pos rfl,
    fields_of hh h0 (tags := [0x06, 0x04]) (by cases p <;> rfl)]
  cases p <;> rfl

theorem readFwids_of {p : Profile} {d : Bytes} (hl : (fwid p d).der.length < Big) :
    readFwids (Asn.ders [fwid p d]) = some [(hashArcs p, d)] := by
  have hh : ∀ t ∈ [fwid p d], t.Headed := by
    simp [fwid, seqOf, Asn.Headed]; decide
  rw [readFwids, values_of hh (by rw [ders_one]; exact hl)]
  simp only [List.map_cons, List.map_nil, allOf, readFwid_of hl]

theorem intValue_intBody (n : Nat) : intValue (intBody n) = n := (shortestInteger_intBody n).2.1

theorem readTcbInfo_of {p : Profile} {r : Bool} {t : Tci cfg}
    (hl : (tcbInfo p r t).der.length < Big) :
    readTcbInfo (tcbInfo p r t).head = some (reported p r t) := by
  rw [tcbInfo, seqOf] at hl ⊢
  have h0 := ders_lt hl
  rw [head_node, readTcbInfo, if_pos rfl]
  have h1 : (fwid p t.current.toList).der.length < Big := by
    have : (tagged 6 [fwid p t.current.toList]).der.length < Big := part_lt (by simp) h0
    rw [tagged] at this
    exact part_lt (by simp) (ders_lt this)
  cases r with
  | false =>
    simp only [Bool.false_eq_true, if_false, List.append_nil] at h0 ⊢
    rw [fields_of (by simp [implicit, tagged, Asn.Headed]; decide) h0
      (tags := [0x83, 0xA6, 0x88, 0x89]) rfl]
    simp only [List.map_cons, List.map_nil, tagged, head_node, readFwids_of h1, implicit, Asn.head,
      Option.map_some, intValue_intBody, List.nil_append]
    rfl
  | true =>
    simp only [if_true, List.cons_append, List.nil_append] at h0 ⊢
    have h2 : (seqOf [implicit 1 (intBody 0), tagged 2 [fwid p t.cumulative.toList]]).der.length <
        Big := by
      have : (tagged 11 [seqOf [implicit 1 (intBody 0),
        tagged 2 [fwid p t.cumulative.toList]]]).der.length < Big := part_lt (by simp) h0
      rw [tagged] at this
      exact part_lt (by simp) (ders_lt this)
    have h3 := ders_lt h2
    have h4 : (fwid p t.cumulative.toList).der.length < Big := by
      have : (tagged 2 [fwid p t.cumulative.toList]).der.length < Big := part_lt (by simp) h3
      rw [tagged] at this
      exact part_lt (by simp) (ders_lt this)
    have hh : ∀ u ∈ [implicit 3 (intBody t.svn.toNat), tagged 6 [fwid p t.current.toList],
        implicit 8 (word t.locality).reverse, implicit 9 (word t.tciType),
        tagged 11 [seqOf [implicit 1 (intBody 0), tagged 2 [fwid p t.cumulative.toList]]]],
        u.Headed := by
      simp [implicit, tagged, Asn.Headed]; decide
    have hr : readRegister (seqOf [implicit 1 (intBody 0),
        tagged 2 [fwid p t.cumulative.toList]]).head =
        some (0, [(hashArcs p, t.cumulative.toList)]) := by
      rw [seqOf, head_node, readRegister, if_pos rfl,
        fields_of (by simp [implicit, tagged, Asn.Headed]; decide) h3 (tags := [0x81, 0xA2]) rfl]
      simp only [List.map_cons, List.map_nil, tagged, head_node, readFwids_of h4, implicit, Asn.head,
        Option.map_some, intValue_intBody, List.nil_append]
      rfl
    rw [fields_not hh h0 (tags := [0x83, 0xA6, 0x88, 0x89]) (by simp),
      fields_of hh h0 (tags := [0x83, 0xA6, 0x88, 0x89, 0xAB]) rfl]
    have hv := values_of (ts := [seqOf [implicit 1 (intBody 0),
        tagged 2 [fwid p t.cumulative.toList]]]) (by simp [seqOf, Asn.Headed]; decide)
        (by rw [ders_one]; exact h2)
    simp only [List.map_cons, List.map_nil, tagged, head_node, readFwids_of h1, implicit, Asn.head,
      Option.map_some, intValue_intBody, List.nil_append] at hv hr ⊢
    rw [hv]
    simp only [allOf, hr, Option.map_some]
    rfl

theorem found_der {p : Profile} {a : Attested cfg} {cert : Bool}
    (hl : (extensions p a cert).der.length < Big) {e : Bytes × Bool × Asn}
    (he : e ∈ extSpecs p a cert) : e.2.2.der.length < Big := by
  rw [extensions_specs, seqOf] at hl
  have h1 := part_lt (List.mem_map.2 ⟨e, he, rfl⟩) (ders_lt hl)
  rw [extension, seqOf] at h1
  have h2 : (octetsOf [e.2.2]).der.length < Big := part_lt (by simp) (ders_lt h1)
  rw [octetsOf] at h2
  exact part_lt (by simp) (ders_lt h2)

theorem extOf_found {p : Profile} {a : Attested cfg} {cert : Bool} {o : Bytes} {c : Bool} {v : Asn}
    (he : (o, c, v) ∈ extSpecs p a cert) :
    extOf o (foundExts p a cert) = some ⟨o, c, v.der⟩ := by
  have hn := oids_nodup p a cert
  unfold foundExts extOf
  generalize extSpecs p a cert = l at he hn
  induction l with
  | nil => cases he
  | cons x l ih =>
    rw [List.map_cons, List.nodup_cons] at hn
    rw [List.map_cons, List.find?_cons]
    rw [List.mem_cons] at he
    rcases he with he | he
    · subst he; simp
    · have : x.1 ≠ o := by
        intro h; exact hn.1 (List.mem_map.2 ⟨_, he, h.symm⟩)
      simp only [this, decide_false]
      exact ih he hn.2

theorem tcbInfos_found {p : Profile} {a : Attested cfg} {cert : Bool}
    (hl : (extensions p a cert).der.length < Big) :
    tcbInfosOf (foundExts p a cert) = some (a.chain.map (reported p a.recursive)) := by
  have he : (oidBody [2, 23, 133, 5, 4, 5], a.critical, multiTcbInfo p a) ∈ extSpecs p a cert := by
    unfold extSpecs; simp
  have hm := found_der hl he
  have hs := single_of (t := multiTcbInfo p a) (by rw [multiTcbInfo, Asn.Headed]; decide) hm
  have h0 : (Asn.ders (a.chain.map (tcbInfo p a.recursive))).length < Big := ders_lt'' hm
  have hx : ∀ t ∈ a.chain.map (tcbInfo p a.recursive), t.Headed := by
    intro t ht
    obtain ⟨e, _, rfl⟩ := List.mem_map.1 ht
    rw [tcbInfo, seqOf, Asn.Headed]; decide
  have hh : (multiTcbInfo p a).head = (0x30, Asn.ders (a.chain.map (tcbInfo p a.recursive))) := rfl
  rw [hh] at hs
  unfold tcbInfosOf
  rw [extOf_found he]
  simp only
  rw [hs]
  simp only
  rw [values_of hx h0]
  simp only
  rw [List.map_map]
  exact allOf_map fun t ht => readTcbInfo_of (part_lt (List.mem_map.2 ⟨t, ht, rfl⟩) h0)

theorem isCa_found {p : Profile} {a : Attested cfg} {cert : Bool} :
    isCa (foundExts p a cert) = some a.ca := by
  have he : (oidBody [2, 5, 29, 19], true, basicConstraints a.ca) ∈ extSpecs p a cert := by
    unfold extSpecs; simp
  unfold isCa
  rw [extOf_found he]
  cases a.ca <;> decide +kernel

theorem keyUsages_found {p : Profile} {a : Attested cfg} {cert : Bool} :
    keyUsages (foundExts p a cert) = some (if a.ca then [0, 5] else [0]) := by
  have he : (oidBody [2, 5, 29, 15], true, keyUsage a.ca) ∈ extSpecs p a cert := by
    unfold extSpecs; simp
  unfold keyUsages
  rw [extOf_found he]
  cases a.ca <;> decide +kernel

theorem keyPurposes_found {p : Profile} {a : Attested cfg} {cert : Bool} :
    keyPurposes (foundExts p a cert) = some [if a.ca then oidBody [2, 23, 133, 5, 4, 100, 12] else
      oidBody [2, 23, 133, 5, 4, 100, 9]] := by
  have he : (oidBody [2, 5, 29, 37], true, extKeyUsage a.ca) ∈ extSpecs p a cert := by
    unfold extSpecs; simp
  unfold keyPurposes
  rw [extOf_found he]
  cases a.ca <;> decide +kernel

theorem ueid_found {p : Profile} {a : Attested cfg} {cert : Bool}
    (hl : (extensions p a cert).der.length < Big) :
    ueidOf (foundExts p a cert) = some a.label := by
  have he : (oidBody [2, 23, 133, 5, 4, 4], a.critical, seqOf [octets a.label]) ∈
      extSpecs p a cert := by
    unfold extSpecs; simp
  have hm := found_der hl he
  have hs := single_of (t := seqOf [octets a.label]) (by rw [seqOf, Asn.Headed]; decide) hm
  have h0 : (octets a.label).der.length < Big := part_lt (by simp) (ders_lt hm)
  have h1 := single_of (t := octets a.label) (by rw [octets, Asn.Headed]; decide) h0
  unfold ueidOf
  rw [extOf_found he]
  simp only
  rw [seqOf, head_node, ders_one] at hs
  rw [seqOf, hs]
  exact h1

theorem akid_found {p : Profile} {a : Attested cfg}
    (hl : (extensions p a true).der.length < Big) :
    akidOf (foundExts p a true) = some a.authorityKeyId := by
  have he : (oidBody [2, 5, 29, 35], false, seqOf [implicit 0 a.authorityKeyId]) ∈
      extSpecs p a true := by
    unfold extSpecs; simp
  have hm := found_der hl he
  have hs := single_of (t := seqOf [implicit 0 a.authorityKeyId])
    (by rw [seqOf, Asn.Headed]; decide) hm
  have h0 : (implicit 0 a.authorityKeyId).der.length < Big := part_lt (by simp) (ders_lt hm)
  have h1 := single_of (t := implicit 0 a.authorityKeyId) (by rw [implicit, Asn.Headed]; decide) h0
  unfold akidOf
  rw [extOf_found he]
  simp only
  rw [seqOf, head_node, ders_one] at hs
  rw [seqOf, hs]
  exact h1

theorem extOf_none {p : Profile} {a : Attested cfg} {cert : Bool} {o : Bytes}
    (h : ∀ e ∈ extSpecs p a cert, e.1 ≠ o) : extOf o (foundExts p a cert) = none := by
  unfold foundExts extOf
  rw [List.find?_eq_none]
  intro e he
  obtain ⟨x, hx, rfl⟩ := List.mem_map.1 he
  simpa using h x hx

theorem skid_found {p : Profile} {a : Attested cfg} {cert : Bool}
    (hl : (extensions p a cert).der.length < Big) :
    skidOf (foundExts p a cert) = if a.ca && cert then some a.subjectKeyId else none := by
  unfold skidOf
  by_cases hc : (a.ca && cert) = true
  · have he : (oidBody [2, 5, 29, 14], false, octets a.subjectKeyId) ∈ extSpecs p a cert := by
      unfold extSpecs; rw [if_pos hc]; simp
    have hm := found_der hl he
    rw [extOf_found he, if_pos hc]
    exact single_of (t := octets a.subjectKeyId) (by rw [octets, Asn.Headed]; decide) hm
  · rw [if_neg hc, extOf_none]
    unfold extSpecs
    rw [if_neg hc]
    cases cert <;> cases a.altName <;>
      simp only [if_true, Bool.false_eq_true, if_false, List.append_nil, List.cons_append,
        List.nil_append, List.mem_cons, List.not_mem_nil, or_false, forall_eq_or_imp, forall_eq] <;>
      decide +kernel

end Dpe
