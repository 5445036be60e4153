import Verif.Proofs.CertParse
/-
Issued certificates and requests can be read exactly if they come out as DER.
-/
namespace Dpe
variable {cfg : Cfg} {σ : Type} {ops : Ops σ}

/-- What a reader finds in a certificate. -/
def certFields (p : Profile) (serial issuer : Bytes) (v : Validity) (s : Subject cfg) (sig : Sig) :
    Cert where
  tbs := (tbsCertificate p serial issuer v s).der
  serial := intBody (beValue serial)
  issuer := issuer
  validity := (validityOf v).der
  subject := (nameOf s.cn s.serialName).der
  key := (keyInfo p s.key).der
  exts := foundExts p s.attested true
  algorithm := (sigAlgorithm p).der
  signature := sigContents sig

theorem headed_sigAlgorithm (p : Profile) : (sigAlgorithm p).Headed ∧ (sigAlgorithm p).head.1 = 0x30 := by
  cases p <;> exact ⟨by rw [sigAlgorithm, seqOf, Asn.Headed]; decide, rfl⟩

theorem sigBits_head (sig : Sig) : (sigBits sig).Headed ∧ (sigBits sig).head = (0x03, 0 :: sigContents sig) := by
  cases sig
  · exact ⟨by rw [sigBits, bitsOf, Asn.Headed]; decide, by
      rw [sigBits, bitsOf, Asn.head, ders_one]; rfl⟩
  · exact ⟨by rw [sigBits, bitsOf, Asn.Headed]; decide, by
      rw [sigBits, bitsOf, Asn.head, ders_one]; rfl⟩
  · exact ⟨by rw [sigBits, bits, Asn.Headed]; decide, by rw [sigBits, bits, Asn.head]; rfl⟩

theorem sigOctets_head (sig : Sig) : (sigOctets sig).Headed ∧ (sigOctets sig).head = (0x04, sigContents sig) := by
  cases sig
  · exact ⟨by rw [sigOctets, octetsOf, Asn.Headed]; decide, by
      rw [sigOctets, octetsOf, Asn.head, ders_one]; rfl⟩
  · exact ⟨by rw [sigOctets, octetsOf, Asn.Headed]; decide, by
      rw [sigOctets, octetsOf, Asn.head, ders_one]; rfl⟩
  · exact ⟨by rw [sigOctets, octets, Asn.Headed]; decide, by rw [sigOctets, octets, Asn.head]; rfl⟩

theorem tlv_head {t : Asn} {tag : UInt8} (h : t.Headed) (ht : t.head.1 = tag) :
    tlv tag t.head.2 = t.der := by rw [h.spec.2, ht]

/-- The parts of a TBSCertificate before the extensions, with the issuer as a value. -/
def tbsPre (p : Profile) (serial x : Bytes) (v : Validity) (s : Subject cfg) : List Asn :=
  [tagged 0 [asnInt 2], asnInt (beValue serial), sigAlgorithm p, .prim 0x30 x,
    validityOf v, nameOf s.cn s.serialName, keyInfo p s.key]

theorem tbsPre_headed (p : Profile) (serial x : Bytes) (v : Validity) (s : Subject cfg) :
    ∀ t ∈ tbsPre p serial x v s, t.Headed := by
  intro t ht
  simp only [tbsPre, List.mem_cons, List.not_mem_nil, or_false] at ht
  rcases ht with rfl | rfl | rfl | rfl | rfl | rfl | rfl
  · rw [tagged, Asn.Headed]; decide
  · rw [asnInt, Asn.Headed]; decide
  · exact (headed_sigAlgorithm p).1
  · rw [Asn.Headed]; decide
  · rw [validityOf, seqOf, Asn.Headed]; decide
  · rw [nameOf, seqOf, Asn.Headed]; decide
  · rw [keyInfo, seqOf, Asn.Headed]; decide

theorem tbsParts_ders (p : Profile) (serial x : Bytes) (v : Validity) (s : Subject cfg) :
    Asn.ders (tbsParts p serial (tlv 0x30 x) v s) =
      Asn.ders (tbsPre p serial x v s ++ [tagged 3 [extensions p s.attested true]]) := by
  unfold tbsParts tbsPre
  simp only [List.cons_append, List.nil_append, Asn.ders, Asn.der]

theorem tbsParts_writtens (p : Profile) (serial x : Bytes) (v : Validity) (s : Subject cfg) :
    Asn.writtens (tbsParts p serial (tlv 0x30 x) v s) =
      Asn.ders (tbsPre p serial x v s) ++ (tagged 3 [extensions p s.attested true]).written := by
  have h : Asn.Plains [tagged 0 [asnInt 2], asnInt (beValue serial), sigAlgorithm p,
      .raw (tlv 0x30 x), validityOf v, nameOf s.cn s.serialName, keyInfo p s.key] := by
    simp [Asn.Plains, tagged, asnInt, Asn.Plain, plain_sigAlgorithm, plain_validity, plain_nameOf,
      plain_keyInfo]
  have h2 := (Asn.evens_written _ (Asn.plains_evens _ h)).2
  have e : tbsParts p serial (tlv 0x30 x) v s = [tagged 0 [asnInt 2], asnInt (beValue serial),
      sigAlgorithm p, .raw (tlv 0x30 x), validityOf v, nameOf s.cn s.serialName, keyInfo p s.key] ++
      [tagged 3 [extensions p s.attested true]] := rfl
  rw [e, Asn.writtens_append, h2]
  have e2 : Asn.ders [tagged 0 [asnInt 2], asnInt (beValue serial),
      sigAlgorithm p, .raw (tlv 0x30 x), validityOf v, nameOf s.cn s.serialName, keyInfo p s.key] =
      Asn.ders (tbsPre p serial x v s) := by
    unfold tbsPre
    simp only [Asn.ders, Asn.der]
  rw [e2]
  simp only [Asn.writtens, List.append_nil]

theorem readTbs_of {p : Profile} {serial x : Bytes} {v : Validity} {s : Subject cfg} {sig : Sig}
    (hl : (tbsCertificate p serial (tlv 0x30 x) v s).der.length < Big) :
    readTbs (Asn.ders (tbsParts p serial (tlv 0x30 x) v s)) (sigAlgorithm p).head.2
      (sigContents sig) = some (certFields p serial (tlv 0x30 x) v s sig) := by
  have h0 := ders_lt' (ps := tbsParts p serial (tlv 0x30 x) v s) hl
  have ht : tlv 0x30 (Asn.ders (tbsParts p serial (tlv 0x30 x) v s)) =
      (tbsCertificate p serial (tlv 0x30 x) v s).der := by
    rw [tbsCertificate_eq, Asn.der]
  have hx : (extensions p s.attested true).der.length < Big := by
    have : (tagged 3 [extensions p s.attested true]).der.length < Big :=
      part_lt (by simp [tbsParts]) h0
    exact part_lt (by simp) (ders_lt this)
  unfold readTbs
  rw [ht]
  rw [tbsParts_ders] at h0 ⊢
  have hh : ∀ t ∈ tbsPre p serial x v s ++ [tagged 3 [extensions p s.attested true]], t.Headed := by
    intro t ht
    rw [List.mem_append, List.mem_singleton] at ht
    rcases ht with ht | rfl
    · exact tbsPre_headed _ _ _ _ _ t ht
    · rw [tagged, Asn.Headed]; decide
  rw [fields_of hh h0 (tags := [0xA0, 0x02, 0x30, 0x30, 0x30, 0x30, 0x30, 0xA3])
    (by cases p <;> rfl)]
  have hv : single 0x02 (tagged 0 [asnInt 2]).head.2 = some [2] := by decide +kernel
  have hr := readExts_of hx
  have e3 : (tagged 3 [extensions p s.attested true]).head.2 = (extensions p s.attested true).der := by
    rw [tagged, head_node, ders_one]
  have f1 := tlv_head (t := validityOf v) (by rw [validityOf, seqOf, Asn.Headed]; decide) rfl
  have f2 := tlv_head (t := nameOf s.cn s.serialName) (by rw [nameOf, seqOf, Asn.Headed]; decide) rfl
  have f3 := tlv_head (t := keyInfo p s.key) (by rw [keyInfo, seqOf, Asn.Headed]; decide) rfl
  have f4 := tlv_head (headed_sigAlgorithm p).1 (headed_sigAlgorithm p).2
  have f5 : (asnInt (beValue serial)).head.2 = intBody (beValue serial) := rfl
  have f6 : (Asn.prim 0x30 x).head.2 = x := rfl
  simp only [tbsPre, List.cons_append, List.nil_append, List.map_cons, List.map_nil, e3, hr, hv,
    and_self, if_true, f1, f2, f3, f4, f5, f6]
  rfl

theorem readCert_of {p : Profile} {serial x : Bytes} {v : Validity} {s : Subject cfg} {sig : Sig}
    (hl : (certificate p (tbsCertificate p serial (tlv 0x30 x) v s) sig).der.length < Big) :
    readCert (certificate p (tbsCertificate p serial (tlv 0x30 x) v s) sig).der =
      some (certFields p serial (tlv 0x30 x) v s sig) := by
  have hs := single_of (t := certificate p (tbsCertificate p serial (tlv 0x30 x) v s) sig)
    (by rw [certificate, Asn.Headed]; decide) hl
  have h0 := ders_lt' (ps := [tbsCertificate p serial (tlv 0x30 x) v s, sigAlgorithm p, sigBits sig]) hl
  have hh : ∀ t ∈ [tbsCertificate p serial (tlv 0x30 x) v s, sigAlgorithm p, sigBits sig],
      t.Headed := by
    intro t ht
    simp only [List.mem_cons, List.not_mem_nil, or_false] at ht
    rcases ht with rfl | rfl | rfl
    · rw [tbsCertificate, Asn.Headed]; decide
    · exact (headed_sigAlgorithm p).1
    · exact (sigBits_head sig).1
  have e : (certificate p (tbsCertificate p serial (tlv 0x30 x) v s) sig).head = (0x30,
      Asn.ders [tbsCertificate p serial (tlv 0x30 x) v s, sigAlgorithm p, sigBits sig]) := rfl
  rw [e] at hs
  unfold readCert
  rw [hs]
  simp only
  rw [fields_of hh h0 (tags := [0x30, 0x30, 0x03])
    (by cases p <;> cases sig <;> rfl)]
  simp only [List.map_cons, List.map_nil, (sigBits_head sig).2]
  exact readTbs_of (part_lt (by simp) h0)

/-! ### Only DER can be read -/

/-- A value whose contents are one value ends where it says. -/
theorem node_single {tag : UInt8} {ps : List Asn} {y : Bytes} (hs : Asn.Shorts ps)
    (hl : (Asn.node tag [] ps).written.length < 33554432)
    (h : (Asn.node tag [] ps).written = tlv tag y) (hy : y.length < Big) :
    Asn.foreseens ps = (Asn.writtens ps).length := by
  rw [Asn.written] at hl
  simp only [List.nil_append, List.length_cons, List.length_append] at hl
  have h0 := (Asn.wrs_le ps).1
  have h1 := Asn.shorts_fs ps hs
  have h2 := (Asn.shorts_written ps hs (by omega)).2
  rw [Asn.written, tlv] at h
  simp only [List.nil_append, List.length_nil, Nat.zero_add] at h
  injection h with _ h
  have r1 := readLen_derLen (n := Asn.foreseens ps) (by omega) (Asn.writtens ps)
  have r2 := readLen_derLen hy y
  rw [h, r2] at r1
  injection r1 with r1
  injection r1 with r1 r3
  rw [← r1, r3]

theorem fields_last {tags : List UInt8} {tag : UInt8} {pre : List Asn} {bs : Bytes}
    {xs : List Bytes} (hh : ∀ t ∈ pre, t.Headed) (hb : (Asn.ders pre).length < Big)
    (hn : pre.length = tags.length) (h : fields (tags ++ [tag]) (Asn.ders pre ++ bs) = some xs) :
    ∃ y, bs = tlv tag y ∧ y.length < Big := by
  obtain ⟨vs, h1, h2, h3⟩ := fields_iff.1 h
  rw [values_ders hh hb] at h1
  obtain ⟨us, hu, rfl⟩ := Option.map_eq_some_iff.1 h1
  have hus : us.map (·.1) = [tag] := by
    have := congrArg (List.drop tags.length) h2
    rw [List.drop_left, List.map_append, List.drop_append, List.drop_eq_nil_of_le (by simp [hn])] at this
    simpa [hn] using this
  obtain ⟨e, hall⟩ := values_sound hu
  match us, hus with
  | [(t, y)], hus =>
    simp only [List.map_cons, List.map_nil, List.cons.injEq, and_true] at hus
    subst hus
    exact ⟨y, by rw [e]; simp [unread], (hall (t, y) (List.mem_singleton.2 rfl)).2⟩

theorem readCert_regular {p : Profile} {serial x : Bytes} {v : Validity} {s : Subject cfg} {sig : Sig}
    {c : Cert} (hc : s.attested.chain.length ≤ 64)
    (hl : (certificate p (tbsCertificate p serial (tlv 0x30 x) v s) sig).written.length < 33554432)
    (h : readCert (certificate p (tbsCertificate p serial (tlv 0x30 x) v s) sig).written = some c) :
    Regular p s.attested := by
  have hlt : (tbsCertificate p serial (tlv 0x30 x) v s).written.length < 33554432 :=
    Nat.lt_of_le_of_lt inner_length hl
  have hlx : (tagged 3 [extensions p s.attested true]).written.length < 33554432 ∧
      (Asn.ders (tbsPre p serial x v s)).length < Big ∧
      (Asn.writtens (tbsParts p serial (tlv 0x30 x) v s)).length < Big := by
    have := hlt
    rw [tbsCertificate_eq, Asn.written, tlv_length] at this
    have h2 := tbsParts_writtens p serial x v s
    have h3 := congrArg List.length h2
    rw [List.length_append] at h3
    unfold tlvLen at this
    have hB : Big = 4294967296 := rfl
    omega
  have e1 : (certificate p (tbsCertificate p serial (tlv 0x30 x) v s) sig).written =
      tlv 0x30 ((tbsCertificate p serial (tlv 0x30 x) v s).written ++
        Asn.writtens [sigAlgorithm p, sigBits sig]) := by
    rw [certificate, Asn.written, Asn.writtens]
  have e2 : (tbsCertificate p serial (tlv 0x30 x) v s).written =
      tlv 0x30 (Asn.writtens (tbsParts p serial (tlv 0x30 x) v s)) := by
    rw [tbsCertificate_eq, Asn.written]
  unfold readCert at h
  rw [e1, e2] at h
  cases hs : single 0x30 (tlv 0x30 (tlv 0x30 (Asn.writtens (tbsParts p serial (tlv 0x30 x) v s)) ++
      Asn.writtens [sigAlgorithm p, sigBits sig])) with
  | none => rw [hs] at h; cases h
  | some body =>
    rw [hs] at h
    simp only at h
    have hb := tlv_inj (single_sound hs)
    subst hb
    split at h
    · next tbs alg sg hf =>
      obtain ⟨vs, h1, _, h3⟩ := fields_iff.1 hf
      rw [values_tlv (by decide) hlx.2.2] at h1
      obtain ⟨us, hu, rfl⟩ := Option.map_eq_some_iff.1 h1
      simp only [List.map_cons, List.cons.injEq] at h3
      obtain ⟨rfl, _⟩ := h3
      unfold readTbs at h
      split at h
      · next hf =>
        rw [tbsParts_writtens] at hf
        obtain ⟨y, hy, hyl⟩ := fields_last (tags := [0xA0, 0x02, 0x30, 0x30, 0x30, 0x30, 0x30])
          (tag := 0xA3) (tbsPre_headed _ _ _ _ _) hlx.2.1 rfl hf
        have hsh : Asn.Shorts [extensions p s.attested true] := by
          rw [Asn.Shorts, Asn.Shorts]; exact ⟨inherits_short.exts (short_multiTcb hc) _, trivial⟩
        exact exact_exts.1 (exact_one.1 ((exact_node (tag := 0) (lead := [])).2
          (node_single (tag := 0xA0 ||| 3) hsh hlx.1 hy hyl)))
      · cases h
    · cases h

/-! ### Requests -/

/-- What a reader finds in a request. -/
def requestFields (p : Profile) (s : Subject cfg) (sig : Sig) : Request where
  info := (requestInfo p s).der
  subject := (nameOf s.cn s.serialName).der
  key := (keyInfo p s.key).der
  exts := foundExts p s.attested false
  algorithm := (sigAlgorithm p).der
  signature := sigContents sig

/-- The parts of a CertificationRequestInfo before the attributes. -/
def criPre (p : Profile) (s : Subject cfg) : List Asn :=
  [asnInt 0, nameOf s.cn s.serialName, keyInfo p s.key]

/-- The extension request attribute. -/
def extRequest (p : Profile) (s : Subject cfg) : Asn :=
  seqOf [idExtensionRequest, setOf [extensions p s.attested false]]

theorem criPre_headed (p : Profile) (s : Subject cfg) : ∀ t ∈ criPre p s, t.Headed := by
  intro t ht
  simp only [criPre, List.mem_cons, List.not_mem_nil, or_false] at ht
  rcases ht with rfl | rfl | rfl
  · rw [asnInt, Asn.Headed]; decide
  · rw [nameOf, seqOf, Asn.Headed]; decide
  · rw [keyInfo, seqOf, Asn.Headed]; decide

theorem criParts_writtens (p : Profile) (s : Subject cfg) : Asn.writtens (criParts p s) =
    Asn.ders (criPre p s) ++ (tagged 0 [extRequest p s]).written := by
  have h : Asn.Plains (criPre p s) := by
    simp [criPre, Asn.Plains, asnInt, Asn.Plain, plain_nameOf, plain_keyInfo]
  have h2 := (Asn.evens_written _ (Asn.plains_evens _ h)).2
  have e : criParts p s = criPre p s ++ [tagged 0 [extRequest p s]] := rfl
  rw [e, Asn.writtens_append, h2]
  simp only [Asn.writtens, List.append_nil]

theorem readAttributes_of {p : Profile} {s : Subject cfg}
    (hl : (extRequest p s).der.length < Big) :
    readAttributes (extRequest p s).der = some (foundExts p s.attested false) := by
  have hs := single_of (t := extRequest p s) (by rw [extRequest, seqOf, Asn.Headed]; decide) hl
  have h0 := ders_lt (ps := [idExtensionRequest, setOf [extensions p s.attested false]]) hl
  have hh : ∀ t ∈ [idExtensionRequest, setOf [extensions p s.attested false]], t.Headed := by
    simp [idExtensionRequest, oidOf, setOf, Asn.Headed]; decide
  have h1 : (setOf [extensions p s.attested false]).der.length < Big := part_lt (by simp) h0
  have h2 : (extensions p s.attested false).der.length < Big := part_lt (by simp) (ders_lt h1)
  have e : (extRequest p s).head = (0x30,
      Asn.ders [idExtensionRequest, setOf [extensions p s.attested false]]) := rfl
  have e2 : (setOf [extensions p s.attested false]).head.2 = (extensions p s.attested false).der := by
    rw [setOf, head_node, ders_one]
  have e3 : idExtensionRequest.head.2 = oidBody [1, 2, 840, 113549, 1, 9, 14] := rfl
  rw [e] at hs
  unfold readAttributes
  rw [hs]
  simp only
  rw [fields_of hh h0 (tags := [0x06, 0x31]) rfl]
  simp only [List.map_cons, List.map_nil, e2, e3, if_true]
  exact readExts_of h2

theorem readRequest_of {p : Profile} {s : Subject cfg} {sig : Sig}
    (hl : (request p (requestInfo p s) sig).der.length < Big) :
    readRequest (request p (requestInfo p s) sig).der = some (requestFields p s sig) := by
  have hs := single_of (t := request p (requestInfo p s) sig)
    (by rw [request, Asn.Headed]; decide) hl
  have h0 := ders_lt' (ps := [requestInfo p s, sigAlgorithm p, sigBits sig]) hl
  have hh : ∀ t ∈ [requestInfo p s, sigAlgorithm p, sigBits sig], t.Headed := by
    intro t ht
    simp only [List.mem_cons, List.not_mem_nil, or_false] at ht
    rcases ht with rfl | rfl | rfl
    · rw [requestInfo, Asn.Headed]; decide
    · exact (headed_sigAlgorithm p).1
    · exact (sigBits_head sig).1
  have e : (request p (requestInfo p s) sig).head = (0x30,
      Asn.ders [requestInfo p s, sigAlgorithm p, sigBits sig]) := rfl
  have hi : (requestInfo p s).der.length < Big := part_lt (by simp) h0
  have h1 := ders_lt' (ps := criParts p s) hi
  have hh1 : ∀ t ∈ criParts p s, t.Headed := by
    intro t ht
    have ht : t ∈ criPre p s ++ [tagged 0 [extRequest p s]] := ht
    rw [List.mem_append, List.mem_singleton] at ht
    rcases ht with ht | rfl
    · exact criPre_headed _ _ t ht
    · rw [tagged, Asn.Headed]; decide
  have hx : (extRequest p s).der.length < Big := by
    have : (tagged 0 [extRequest p s]).der.length < Big := part_lt (by simp [criParts, attributes, extRequest]) h1
    exact part_lt (by simp) (ders_lt this)
  have ei : (requestInfo p s).head.2 = Asn.ders (criParts p s) := rfl
  have ht : tlv 0x30 (Asn.ders (criParts p s)) = (requestInfo p s).der := by
    rw [requestInfo_eq, Asn.der]
  rw [e] at hs
  unfold readRequest
  rw [hs]
  simp only
  rw [fields_of hh h0 (tags := [0x30, 0x30, 0x03]) (by cases p <;> cases sig <;> rfl)]
  simp only [List.map_cons, List.map_nil, (sigBits_head sig).2, ei]
  rw [fields_of hh1 h1 (tags := [0x02, 0x30, 0x30, 0xA0]) rfl, ht]
  have e3 : (tagged 0 [extRequest p s]).head.2 = (extRequest p s).der := by
    rw [tagged, head_node, ders_one]
  have f2 := tlv_head (t := nameOf s.cn s.serialName) (by rw [nameOf, seqOf, Asn.Headed]; decide) rfl
  have f3 := tlv_head (t := keyInfo p s.key) (by rw [keyInfo, seqOf, Asn.Headed]; decide) rfl
  have f4 := tlv_head (headed_sigAlgorithm p).1 (headed_sigAlgorithm p).2
  have f5 : (asnInt 0).head.2 = [0] := by decide
  have ec : criParts p s = [asnInt 0, nameOf s.cn s.serialName, keyInfo p s.key,
    tagged 0 [extRequest p s]] := rfl
  rw [ec]
  simp only [List.map_cons, List.map_nil, e3, readAttributes_of hx, f2, f3, f4, f5, if_true]
  rfl

theorem readRequest_regular {p : Profile} {s : Subject cfg} {sig : Sig} {c : Request}
    (hc : s.attested.chain.length ≤ 64)
    (hl : (request p (requestInfo p s) sig).written.length < 33554432)
    (h : readRequest (request p (requestInfo p s) sig).written = some c) :
    Regular p s.attested := by
  have hlt : (requestInfo p s).written.length < 33554432 := Nat.lt_of_le_of_lt inner_length hl
  have hlx : (tagged 0 [extRequest p s]).written.length < 33554432 ∧
      (Asn.ders (criPre p s)).length < Big ∧ (Asn.writtens (criParts p s)).length < Big := by
    have := hlt
    rw [requestInfo_eq, Asn.written, tlv_length] at this
    have h2 := criParts_writtens p s
    have h3 := congrArg List.length h2
    rw [List.length_append] at h3
    unfold tlvLen at this
    have hB : Big = 4294967296 := rfl
    omega
  have e1 : (request p (requestInfo p s) sig).written = tlv 0x30 ((requestInfo p s).written ++
        Asn.writtens [sigAlgorithm p, sigBits sig]) := by
    rw [request, Asn.written, Asn.writtens]
  have e2 : (requestInfo p s).written = tlv 0x30 (Asn.writtens (criParts p s)) := by
    rw [requestInfo_eq, Asn.written]
  unfold readRequest at h
  rw [e1, e2] at h
  cases hs : single 0x30 (tlv 0x30 (tlv 0x30 (Asn.writtens (criParts p s)) ++
      Asn.writtens [sigAlgorithm p, sigBits sig])) with
  | none => rw [hs] at h; cases h
  | some body =>
    rw [hs] at h
    simp only at h
    have hb := tlv_inj (single_sound hs)
    subst hb
    split at h
    · next tbs alg sg hf =>
      obtain ⟨vs, h1, _, h3⟩ := fields_iff.1 hf
      rw [values_tlv (by decide) hlx.2.2] at h1
      obtain ⟨us, hu, rfl⟩ := Option.map_eq_some_iff.1 h1
      simp only [List.map_cons, List.cons.injEq] at h3
      obtain ⟨rfl, _⟩ := h3
      split at h
      · next hf =>
        rw [criParts_writtens] at hf
        obtain ⟨y, hy, hyl⟩ := fields_last (tags := [0x02, 0x30, 0x30])
          (tag := 0xA0) (criPre_headed _ _) hlx.2.1 rfl hf
        have hsh : Asn.Shorts [extRequest p s] := by
          have := inherits_short.exts (short_multiTcb (p := p) hc) false
          simp [extRequest, seqOf, setOf, Asn.Short, Asn.Shorts, this, idExtensionRequest, oidOf]
        have hb : (extRequest p s).Exact := exact_one.1 ((exact_node (tag := 0) (lead := [])).2
          (node_single (tag := 0xA0 ||| 0) hsh hlx.1 hy hyl))
        have hx := (exact_parts (pre := [idExtensionRequest]) (post := [])
          (by simp [Asn.Evens, Asn.Even, idExtensionRequest, oidOf]) (by rw [Asn.Evens]; trivial)).1
          (exact_node.1 hb)
        exact exact_exts.1 (exact_one.1 hx)
      · cases h
    · cases h

/-! ### Messages -/

/-- What a reader finds in the message around a request. -/
def messageFields (p : Profile) (sid : SignerId) (csr : Bytes) (sig : Sig) : Message where
  version := [UInt8.ofNat (cmsVersionOf sid)]
  content := csr
  signerVersion := [UInt8.ofNat (cmsVersionOf sid)]
  signer := (signerIdentifier' sid).der
  digestAlgorithm := (hashAlgorithm p).der
  algorithm := (sigAlgorithm p).der
  signature := sigContents sig

theorem signerId_head (sid : SignerId) : (signerIdentifier' sid).Headed ∧
    ((signerIdentifier' sid).head.1 = 0x30 ∨ (signerIdentifier' sid).head.1 = 0x80) := by
  cases sid
  · exact ⟨by rw [signerIdentifier', seqOf, Asn.Headed]; decide, .inl rfl⟩
  · exact ⟨by rw [signerIdentifier', Asn.Headed]; decide, .inr rfl⟩

/-- The message around octets that were encoded elsewhere. -/
def wrapOf (p : Profile) (sid : SignerId) (csr : Bytes) (sig : Sig) : Asn :=
  cmsOf p sid (.raw csr) sig

theorem cms_written (p : Profile) (sid : SignerId) (t : Asn) (sig : Sig) :
    (cmsOf p sid t sig).written = (wrapOf p sid t.written sig).der := by
  have e1 : ∀ n us, (Asn.outer n us).written = tlv n (Asn.writtens us) := fun n u => by
    rw [Asn.written]
  have e2 : ∀ n us, (Asn.outer n us).der = tlv n (Asn.ders us) := fun n u => by
    rw [Asn.der]
  have pw : ∀ t : Asn, t.Plain → t.written = t.der := fun t h =>
    (Asn.even_written t (Asn.plain_even t h)).2
  have p1 : (setOf [hashAlgorithm p]).Plain := by
    simp [setOf, Asn.Plain, Asn.Plains, plain_hashAlgorithm]
  have p2 : (setOf [signerInfo p (cmsVersionOf sid) (signerIdentifier' sid) sig]).Plain := by
    simp [setOf, Asn.Plain, Asn.Plains, plain_signerInfo]
  unfold wrapOf cmsOf sdParts encapOf
  simp only [Asn.writtens, Asn.ders, List.append_nil, e1, e2]
  have q1 : idSignedData.written = idSignedData.der := pw _ (plain_oid _)
  have q2 : idData.written = idData.der := pw _ (plain_oid _)
  have q3 : (asnInt (cmsVersionOf sid)).written = (asnInt (cmsVersionOf sid)).der :=
    pw _ (plain_prim _ _)
  have q4 : (Asn.raw t.written).der = t.written := by rw [Asn.der]
  rw [q1, q2, q3, q4, pw _ p1, pw _ p2]

theorem version_body (sid : SignerId) :
    intBody (cmsVersionOf sid) = [UInt8.ofNat (cmsVersionOf sid)] := by
  cases sid <;> simp only [cmsVersionOf] <;> decide

theorem readSigner_of {p : Profile} {sid : SignerId} {sig : Sig} {csr : Bytes}
    (hl : (signerInfo p (cmsVersionOf sid) (signerIdentifier' sid) sig).der.length < Big) :
    readSigner [UInt8.ofNat (cmsVersionOf sid)] csr
      (signerInfo p (cmsVersionOf sid) (signerIdentifier' sid) sig).head.2 =
      some (messageFields p sid csr sig) := by
  have h0 := ders_lt (ps := [asnInt (cmsVersionOf sid), signerIdentifier' sid, hashAlgorithm p,
    sigAlgorithm p, sigOctets sig]) hl
  have hh : ∀ t ∈ [asnInt (cmsVersionOf sid), signerIdentifier' sid, hashAlgorithm p,
    sigAlgorithm p, sigOctets sig], t.Headed := by
    intro t ht
    simp only [List.mem_cons, List.not_mem_nil, or_false] at ht
    rcases ht with rfl | rfl | rfl | rfl | rfl
    · rw [asnInt, Asn.Headed]; decide
    · exact (signerId_head sid).1
    · rw [hashAlgorithm, seqOf, Asn.Headed]; decide
    · exact (headed_sigAlgorithm p).1
    · exact (sigOctets_head sig).1
  have e : (signerInfo p (cmsVersionOf sid) (signerIdentifier' sid) sig).head.2 =
    Asn.ders [asnInt (cmsVersionOf sid), signerIdentifier' sid, hashAlgorithm p,
      sigAlgorithm p, sigOctets sig] := rfl
  have f1 : (asnInt (cmsVersionOf sid)).head = (0x02, [UInt8.ofNat (cmsVersionOf sid)]) := by
    rw [asnInt, Asn.head, version_body]
  have f3 : (hashAlgorithm p).head.1 = 0x30 := rfl
  have f3' := tlv_head (t := hashAlgorithm p) (by rw [hashAlgorithm, seqOf, Asn.Headed]; decide) f3
  have f4' := tlv_head (headed_sigAlgorithm p).1 (headed_sigAlgorithm p).2
  unfold readSigner
  rw [e, values_of hh h0]
  simp only [List.map_cons, List.map_nil, f1, f3, (headed_sigAlgorithm p).2, (sigOctets_head sig).2,
    f3', f4', (signerId_head sid).1.spec.2.symm, and_self, and_true, true_and]
  rw [if_pos (signerId_head sid).2]
  rfl

theorem readMessage_of {p : Profile} {sid : SignerId} {csr : Bytes} {sig : Sig}
    (hl : (wrapOf p sid csr sig).der.length < Big) :
    readMessage (wrapOf p sid csr sig).der = some (messageFields p sid csr sig) := by
  let sd : Asn := .outer 0x30 (sdParts p sid (.raw csr) sig)
  have hs := single_of (t := wrapOf p sid csr sig) (by rw [wrapOf, cmsOf, Asn.Headed]; decide) hl
  have h0 := ders_lt' (ps := [idSignedData, .outer 0xA0 [sd]]) hl
  have hh : ∀ t ∈ [idSignedData, .outer 0xA0 [sd]], t.Headed := by
    simp [idSignedData, oidOf, Asn.Headed]; decide
  have h1 : (Asn.outer 0xA0 [sd]).der.length < Big := part_lt (by simp) h0
  have h2 : sd.der.length < Big := part_lt (by simp) (ders_lt' h1)
  have hs2 := single_of (t := sd) (by simp only [sd]; rw [Asn.Headed]; decide) h2
  have h3 := ders_lt' (ps := sdParts p sid (.raw csr) sig) h2
  have hh3 : ∀ t ∈ sdParts p sid (.raw csr) sig, t.Headed := by
    simp [sdParts, asnInt, setOf, encapOf, Asn.Headed]; decide
  have h4 : (encapOf (.raw csr)).der.length < Big := part_lt (by simp [sdParts]) h3
  have h5 := ders_lt' (ps := [idData, .outer 0xA0 [.outer 0x04 [.raw csr]]]) h4
  have hh5 : ∀ t ∈ [idData, .outer 0xA0 [.outer 0x04 [.raw csr]]], t.Headed := by
    simp [idData, oidOf, Asn.Headed]; decide
  have h6 : (Asn.outer 0xA0 [.outer 0x04 [.raw csr]]).der.length < Big := part_lt (by simp) h5
  have h7 : (Asn.outer 0x04 [.raw csr]).der.length < Big := part_lt (by simp) (ders_lt' h6)
  have hs7 := single_of (t := .outer 0x04 [.raw csr]) (by rw [Asn.Headed]; decide) h7
  have h8 : (setOf [signerInfo p (cmsVersionOf sid) (signerIdentifier' sid) sig]).der.length < Big :=
    part_lt (by simp [sdParts]) h3
  have h9 : (signerInfo p (cmsVersionOf sid) (signerIdentifier' sid) sig).der.length < Big :=
    part_lt (by simp) (ders_lt h8)
  have hs9 := single_of (t := signerInfo p (cmsVersionOf sid) (signerIdentifier' sid) sig)
    (by rw [signerInfo, seqOf, Asn.Headed]; decide) h9
  have en : readEncap (encapOf (.raw csr)).head.2 = some csr := by
    have e : (encapOf (.raw csr)).head.2 = Asn.ders [idData, .outer 0xA0 [.outer 0x04 [.raw csr]]] := rfl
    have e2 : (Asn.outer 0xA0 [.outer 0x04 [.raw csr]]).head.2 = (Asn.outer 0x04 [.raw csr]).der := by
      rw [Asn.head, ders_one]
    have e3 : (Asn.outer 0x04 [.raw csr]).head = (0x04, csr) := by
      rw [Asn.head, ders_one, Asn.der]
    have e4 : idData.head.2 = oidBody [1, 2, 840, 113549, 1, 7, 1] := rfl
    rw [e3] at hs7
    unfold readEncap
    rw [e, fields_of hh5 h5 (tags := [0x06, 0xA0]) rfl]
    simp only [List.map_cons, List.map_nil, e2, e4, if_true]
    exact hs7
  have e : (wrapOf p sid csr sig).head = (0x30, Asn.ders [idSignedData, .outer 0xA0 [sd]]) := rfl
  have e2 : (Asn.outer 0xA0 [sd]).head.2 = sd.der := by rw [Asn.head, ders_one]
  have e3 : idSignedData.head.2 = oidBody [1, 2, 840, 113549, 1, 7, 2] := rfl
  have e4 : sd.head = (0x30, Asn.ders (sdParts p sid (.raw csr) sig)) := rfl
  have e5 : (setOf [signerInfo p (cmsVersionOf sid) (signerIdentifier' sid) sig]).head.2 =
      (signerInfo p (cmsVersionOf sid) (signerIdentifier' sid) sig).der := by
    rw [setOf, head_node, ders_one]
  have e6 : (asnInt (cmsVersionOf sid)).head.2 = [UInt8.ofNat (cmsVersionOf sid)] := by
    rw [asnInt, Asn.head, version_body]
  have e7 : (signerInfo p (cmsVersionOf sid) (signerIdentifier' sid) sig).head.1 = 0x30 := rfl
  rw [e] at hs
  rw [e4] at hs2
  rw [e7] at hs9
  unfold readMessage
  rw [hs]
  simp only
  rw [fields_of hh h0 (tags := [0x06, 0xA0]) rfl]
  simp only [List.map_cons, List.map_nil, e2, e3, if_true, hs2]
  unfold readSignedData
  rw [fields_of hh3 h3 (tags := [0x02, 0x31, 0x30, 0x31]) rfl]
  simp only [sdParts, List.map_cons, List.map_nil, e5, e6, en, hs9]
  exact readSigner_of h9

end Dpe
