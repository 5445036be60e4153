import Verif.Proofs.X509Create
import Verif.Spec.Report
/-
When the octets of an issued tree are its DER encoding, and when that is well formed.
-/
namespace Dpe
variable {cfg : Cfg} {σ : Type} {ops : Ops σ}

theorem tlvLen_inj {a b : Nat} (h : tlvLen a = tlvLen b) : a = b := by
  rcases Nat.lt_trichotomy a b with hl | rfl | hl
  · have := derLen_mono (Nat.le_of_lt hl); unfold tlvLen at h; omega
  · rfl
  · have := derLen_mono (Nat.le_of_lt hl); unfold tlvLen at h; omega

theorem tlv_inj {t : UInt8} {a b : Bytes} (h : tlv t a = tlv t b) : a = b := by
  have hl : a.length = b.length := by
    have := congrArg List.length h
    rw [tlv_len, tlv_len] at this
    exact tlvLen_inj this
  unfold tlv at h
  rw [hl] at h
  injection h with _ h
  exact List.append_cancel_left h

theorem foreseens_append (a b : List Asn) :
    Asn.foreseens (a ++ b) = Asn.foreseens a + Asn.foreseens b := by
  induction a with
  | nil => simp [Asn.foreseens]
  | cons t ts ih => simp only [List.cons_append, Asn.foreseens, ih]; omega

/-- The foreseen length is the number of octets. -/
def Asn.Exact (t : Asn) : Prop := t.foreseen = t.written.length

theorem exact_node {tag : UInt8} {lead : Bytes} {ps : List Asn} :
    (Asn.node tag lead ps).Exact ↔ Asn.foreseens ps = (Asn.writtens ps).length := by
  rw [Asn.Exact, Asn.foreseen, Asn.written]
  simp only [tlvLen, List.length_cons, List.length_append]
  omega

theorem exact_parts {pre post : List Asn} {t : Asn} (h1 : Asn.Evens pre) (h2 : Asn.Evens post) :
    Asn.foreseens (pre ++ t :: post) = (Asn.writtens (pre ++ t :: post)).length ↔ t.Exact := by
  have e1 := Asn.evens_written pre h1
  have e2 := Asn.evens_written post h2
  rw [foreseens_append, Asn.writtens_append, Asn.foreseens, Asn.writtens, List.length_append,
    List.length_append, Asn.Exact, e1.2, e2.2]
  omega

theorem exact_multi {p : Profile} {a : Attested cfg} : (multiTcbInfo p a).Exact ↔ Regular p a := by
  have hw : Asn.writtens (a.chain.map (tcbInfo p a.recursive)) =
      Asn.ders (a.chain.map (tcbInfo p a.recursive)) := by
    refine (Asn.evens_written _ (Asn.Evens.of_forall fun t ht => ?_)).2
    obtain ⟨c, _, rfl⟩ := List.mem_map.1 ht
    exact Asn.plain_even _ (plain_tcbInfo _ _ _)
  have hh : Asn.foreseenHead (a.chain.map (tcbInfo p a.recursive)) =
      if a.chain = [] then 0 else
        ((a.chain.map (tcbInfo p a.recursive)).headD (.raw [])).der.length := by
    cases a.chain with
    | nil => rw [if_pos rfl, List.map_nil, Asn.foreseenHead]
    | cons t ts =>
      rw [if_neg (by simp), List.map_cons, Asn.foreseenHead, List.headD_cons]
      exact (Asn.even_written _ (Asn.plain_even _ (plain_tcbInfo _ _ _))).1
  rw [multiTcbInfo, Asn.Exact, Asn.foreseen, Asn.written, Regular, List.length_map, hw, hh]
  simp only [tlvLen, List.length_cons, List.length_append]
  by_cases hc : a.chain = []
  · rw [hc]; simp [Asn.ders, Nat.add_comm]
  · rw [if_neg hc]
    omega

theorem exact_extension {id v : Asn} {c : Bool} (h : id.Even) : (extension id c v).Exact ↔ v.Exact := by
  have ho : (octetsOf [v]).Exact ↔ v.Exact := by
    rw [octetsOf, exact_node]
    exact exact_parts (pre := []) (post := []) (by rw [Asn.Evens]; trivial)
      (by rw [Asn.Evens]; trivial)
  rw [extension, seqOf, exact_node, ← List.cons_append, ← ho]
  refine exact_parts (post := []) ?_ (by rw [Asn.Evens]; trivial)
  cases c <;> simp [Asn.Evens, Asn.Even, asnTrue, h]

theorem exact_exts {p : Profile} {a : Attested cfg} {cert : Bool} :
    (extensions p a cert).Exact ↔ Regular p a := by
  rw [extensions, seqOf, exact_node]
  refine (exact_parts (pre := []) (by rw [Asn.Evens]; trivial) ?_).trans ?_
  · exact Asn.Evens.of_forall fun t ht => Asn.plain_even _ (plain_other a cert t ht)
  · exact (exact_extension (id := idMultiTcbInfo) (Asn.plain_even _ (plain_oid _))).trans exact_multi

/-- In an `outer`, what is between evenly encoded parts is encoded as in DER if the whole is. -/
theorem outer_der {tag : UInt8} {pre post : List Asn} {t : Asn} (h1 : Asn.Evens pre)
    (h2 : Asn.Evens post)
    (h : (Asn.outer tag (pre ++ t :: post)).written = (Asn.outer tag (pre ++ t :: post)).der) :
    t.written = t.der := by
  rw [Asn.written, Asn.der] at h
  have h := tlv_inj h
  rw [Asn.writtens_append, Asn.ders_append, (Asn.evens_written pre h1).2, Asn.writtens, Asn.ders,
    (Asn.evens_written post h2).2] at h
  exact List.append_cancel_right (List.append_cancel_left h)

theorem node_der {tag : UInt8} {ps : List Asn} (hs : Asn.Shorts ps)
    (hl : (Asn.node tag [] ps).written.length < 33554432)
    (h : (Asn.node tag [] ps).written = (Asn.node tag [] ps).der) :
    Asn.foreseens ps = (Asn.writtens ps).length := by
  have hd : (Asn.node tag [] ps).der.length < 33554432 := by rw [← h]; exact hl
  rw [Asn.der, tlv_len] at hd
  rw [Asn.written] at hl
  simp only [List.nil_append, List.length_cons, List.length_append] at hl
  have h0 := (Asn.wrs_le ps).1
  have h1 := Asn.shorts_fs ps hs
  have h2 := (Asn.shorts_written ps hs (by omega)).2
  rw [Asn.written, Asn.der, tlv] at h
  simp only [List.nil_append, List.length_nil, Nat.zero_add] at h hd
  injection h with _ h
  unfold tlvLen at hd
  have r1 := readLen_derLen (n := Asn.foreseens ps) (by omega) (Asn.writtens ps)
  have r2 := readLen_derLen (n := (Asn.ders ps).length) (by omega) (Asn.ders ps)
  rw [h, r2] at r1
  injection r1 with r1
  injection r1 with r1 r3
  rw [← r1, r3]

theorem exact_one {tag : UInt8} {t : Asn} : (Asn.node tag [] [t]).Exact ↔ t.Exact := by
  rw [exact_node]
  exact exact_parts (pre := []) (post := []) (by rw [Asn.Evens]; trivial)
      (by rw [Asn.Evens]; trivial)

theorem evens_of_plain {ts : List Asn} (h : Asn.Plains ts) : Asn.Evens ts := Asn.plains_evens ts h

/-- A part of an `outer` is no longer than the whole. -/
theorem part_length {tag : UInt8} {pre post : List Asn} {t : Asn} :
    t.written.length ≤ (Asn.outer tag (pre ++ t :: post)).written.length := by
  rw [Asn.written, tlv, Asn.writtens_append, Asn.writtens]
  simp only [List.length_cons, List.length_append]
  omega

theorem tbs_regular {p : Profile} {sn iss : Bytes} {v : Validity} {s : Subject cfg}
    (hc : s.attested.chain.length ≤ 64)
    (hl : (tbsCertificate p sn iss v s).written.length < 33554432)
    (h : (tbsCertificate p sn iss v s).written = (tbsCertificate p sn iss v s).der) :
    Regular p s.attested := by
  have hpre : Asn.Plains [tagged 0 [asnInt 2], asnInt (beValue sn), sigAlgorithm p, .raw iss,
      validityOf v, nameOf s.cn s.serialName, keyInfo p s.key] := by
    simp [Asn.Plains, tagged, asnInt, Asn.Plain, plain_sigAlgorithm, plain_validity, plain_nameOf,
      plain_keyInfo]
  have h3 := outer_der (pre := [tagged 0 [asnInt 2], asnInt (beValue sn), sigAlgorithm p, .raw iss,
      validityOf v, nameOf s.cn s.serialName, keyInfo p s.key]) (post := [])
    (t := tagged 3 [extensions p s.attested true]) (evens_of_plain hpre)
    (by rw [Asn.Evens]; trivial) h
  have hl3 := Nat.lt_of_le_of_lt (part_length (tag := 0x30)
    (pre := [tagged 0 [asnInt 2], asnInt (beValue sn), sigAlgorithm p, .raw iss,
      validityOf v, nameOf s.cn s.serialName, keyInfo p s.key]) (post := [])
    (t := tagged 3 [extensions p s.attested true])) hl
  have hs : Asn.Shorts [extensions p s.attested true] := by
    rw [Asn.Shorts, Asn.Shorts]; exact ⟨inherits_short.exts (short_multiTcb hc) _, trivial⟩
  exact exact_exts.1 (exact_one.1 ((exact_node (tag := 0) (lead := [])).2 (node_der (tag := 0xA0 ||| 3) hs hl3 h3)))

theorem info_regular {p : Profile} {s : Subject cfg} (hc : s.attested.chain.length ≤ 64)
    (hl : (requestInfo p s).written.length < 33554432)
    (h : (requestInfo p s).written = (requestInfo p s).der) : Regular p s.attested := by
  have hpre : Asn.Plains [asnInt 0, nameOf s.cn s.serialName, keyInfo p s.key] := by
    simp [Asn.Plains, asnInt, Asn.Plain, plain_nameOf, plain_keyInfo]
  let body : Asn := seqOf [idExtensionRequest, setOf [extensions p s.attested false]]
  have h3 := outer_der (pre := [asnInt 0, nameOf s.cn s.serialName, keyInfo p s.key]) (post := [])
    (t := tagged 0 [body]) (evens_of_plain hpre) (by rw [Asn.Evens]; trivial) h
  have hl3 := Nat.lt_of_le_of_lt (part_length (tag := 0x30)
    (pre := [asnInt 0, nameOf s.cn s.serialName, keyInfo p s.key]) (post := [])
    (t := tagged 0 [body])) hl
  have hs : Asn.Shorts [body] := by
    have := inherits_short.exts (short_multiTcb (p := p) hc) false
    simp [body, seqOf, setOf, Asn.Short, Asn.Shorts, this, idExtensionRequest, oidOf]
  have hb : body.Exact := exact_one.1 ((exact_node (tag := 0) (lead := [])).2 (node_der (tag := 0xA0 ||| 0) hs hl3 h3))
  have hx := (exact_parts (pre := [idExtensionRequest]) (post := [])
    (by simp [Asn.Evens, Asn.Even, idExtensionRequest, oidOf]) (by rw [Asn.Evens]; trivial)).1
    (exact_node.1 hb)
  exact exact_exts.1 (exact_one.1 hx)

theorem signed_der {p : Profile} {t : Asn} {sig : Sig}
    (h : (signedOf p t sig).written = (signedOf p t sig).der) : t.written = t.der :=
  outer_der (pre := []) (post := [sigAlgorithm p, sigBits sig]) (by rw [Asn.Evens]; trivial)
    (evens_of_plain (by simp [Asn.Plains, plain_sigAlgorithm, plain_sigBits])) h

theorem inner_length {p : Profile} {t : Asn} {sig : Sig} :
    t.written.length ≤ (signedOf p t sig).written.length :=
  part_length (pre := []) (post := [sigAlgorithm p, sigBits sig])

theorem cms_spine {p : Profile} {sid : SignerId} {t : Asn} {sig : Sig} :
    ((cmsOf p sid t sig).written = (cmsOf p sid t sig).der → t.written = t.der) ∧
    t.written.length ≤ (cmsOf p sid t sig).written.length := by
  have nl : Asn.Evens [] := by rw [Asn.Evens]; trivial
  have e1 : Asn.Evens [idSignedData] := by simp [Asn.Evens, Asn.Even, idSignedData, oidOf]
  have e2 : Asn.Evens [idData] := by simp [Asn.Evens, Asn.Even, idData, oidOf]
  have e3 : Asn.Evens [asnInt (cmsVersionOf sid), setOf [hashAlgorithm p]] :=
    evens_of_plain (by simp [Asn.Plains, asnInt, setOf, Asn.Plain, plain_hashAlgorithm])
  have e4 : Asn.Evens [setOf [signerInfo p (cmsVersionOf sid) (signerIdentifier' sid) sig]] :=
    evens_of_plain (by simp [Asn.Plains, setOf, Asn.Plain, plain_signerInfo])
  constructor
  · intro h
    have h := outer_der (pre := [idSignedData]) (post := []) e1 nl h
    have h := outer_der (pre := []) (post := []) nl nl h
    have h := outer_der (pre := [asnInt (cmsVersionOf sid), setOf [hashAlgorithm p]])
      (t := encapOf t) e3 e4 h
    have h := outer_der (pre := [idData]) (post := []) (t := .outer 0xA0 [.outer 0x04 [t]]) e2 nl h
    have h := outer_der (pre := []) (post := []) nl nl h
    exact outer_der (pre := []) (post := []) nl nl h
  · refine Nat.le_trans (part_length (pre := []) (post := []) (tag := 0x04)) ?_
    refine Nat.le_trans (part_length (pre := []) (post := []) (tag := 0xA0)) ?_
    refine Nat.le_trans (part_length (pre := [idData]) (post := []) (tag := 0x30)) ?_
    refine Nat.le_trans (part_length (tag := 0x30)
      (pre := [asnInt (cmsVersionOf sid), setOf [hashAlgorithm p]])
      (post := [setOf [signerInfo p (cmsVersionOf sid) (signerIdentifier' sid) sig]])) ?_
    refine Nat.le_trans (part_length (pre := []) (post := []) (tag := 0xA0)) ?_
    exact part_length (pre := [idSignedData]) (post := []) (tag := 0x30)

/-- An issued tree comes out as DER exactly if the TcbInfos are as long as foreseen. -/
theorem Issued.der_iff {a : CertArgs} {st : State cfg} {D : Draft} {kind : CertKind} {w w' : σ}
    {t : Asn} (h : Issued ops a st D kind w t w') (hp : D.path.length ≤ 64)
    (hl : t.written.length < 33554432) :
    t.written = t.der ↔ Regular cfg.profile (D.subject kind a st).attested := by
  have hc : ∀ k, (D.subject k a st).attested.chain.length ≤ 64 := fun k => by
    simpa [Draft.subject] using hp
  cases h with
  | certificate h1 h2 h3 h4 =>
    constructor
    · intro h
      exact tbs_regular (hc _) (Nat.lt_of_le_of_lt inner_length hl) (signed_der h)
    · intro h
      exact (Asn.even_written _ (inherits_even.signed (inherits_even.tbs (even_multiTcb h)))).2
  | request h1 h2 h3 h4 =>
    constructor
    · intro h
      have hl' := Nat.lt_of_le_of_lt cms_spine.2 hl
      exact info_regular (hc _) (Nat.lt_of_le_of_lt inner_length hl')
        (signed_der (cms_spine.1 h))
    · intro h
      exact (Asn.even_written _ (inherits_even.cms (inherits_even.signed
        (inherits_even.info (even_multiTcb h))))).2

/-! ### Proper tags -/

theorem proper_prim {tag : UInt8} {b : Bytes} (h : lowTag tag = true ∧ constructed tag = false) :
    (Asn.prim tag b).Proper := by rw [Asn.Proper]; exact h

theorem proper_node {tag : UInt8} {ps : List Asn} (h : lowTag tag = true)
    (hp : ∀ t ∈ ps, t.Proper) : (Asn.node tag [] ps).Proper := by
  rw [Asn.Proper]; exact ⟨h, fun _ => ⟨rfl, Asn.Propers.of_forall hp⟩⟩

theorem proper_string {tag : UInt8} {l : Bytes} {ps : List Asn} (h : lowTag tag = true)
    (hc : constructed tag = false) : (Asn.node tag l ps).Proper := by
  rw [Asn.Proper]; exact ⟨h, fun h => by rw [hc] at h; cases h⟩

theorem proper_list {tag : UInt8} {ps : List Asn} (h : lowTag tag = true)
    (hp : ∀ t ∈ ps, t.Proper) : (Asn.list tag ps).Proper := by
  rw [Asn.Proper]; exact ⟨h, fun _ => Asn.Propers.of_forall hp⟩

theorem proper_outer {tag : UInt8} {ps : List Asn} (h : lowTag tag = true)
    (hp : ∀ t ∈ ps, t.Proper) : (Asn.outer tag ps).Proper := by
  rw [Asn.Proper]; exact ⟨h, fun _ => Asn.Propers.of_forall hp⟩

theorem proper_oid (b : Bytes) : (oidOf b).Proper := proper_prim (by decide)
theorem proper_int (n : Nat) : (asnInt n).Proper := proper_prim (by decide)

theorem proper_hashId (p : Profile) : (hashId p).Proper := by cases p <;> exact proper_oid _

theorem proper_sigAlgorithm (p : Profile) : (sigAlgorithm p).Proper := by
  cases p <;> exact proper_node (by decide) (by intro t ht; rw [List.mem_singleton] at ht; subst ht; exact proper_oid _)

theorem proper_hashAlgorithm (p : Profile) : (hashAlgorithm p).Proper :=
  proper_node (by decide) (by intro t ht; rw [List.mem_singleton] at ht; subst ht; exact proper_hashId p)

/-- Every element of a literal list. -/
theorem forall_two {Q : Asn → Prop} {a b : Asn} (ha : Q a) (hb : Q b) : ∀ t ∈ [a, b], Q t := by
  intro t ht; simp only [List.mem_cons, List.not_mem_nil, or_false] at ht
  rcases ht with rfl | rfl
  · exact ha
  · exact hb

theorem forall_one {Q : Asn → Prop} {a : Asn} (ha : Q a) : ∀ t ∈ [a], Q t := by
  intro t ht; rw [List.mem_singleton] at ht; subst ht; exact ha

theorem forall_more {Q : Asn → Prop} {a : Asn} {l : List Asn} (ha : Q a) (h : ∀ t ∈ l, Q t) :
    ∀ t ∈ a :: l, Q t := by
  intro t ht; rw [List.mem_cons] at ht
  rcases ht with rfl | ht
  · exact ha
  · exact h t ht

theorem proper_keyInfo (p : Profile) (k : PubKey) : (keyInfo p k).Proper := by
  refine proper_node (by decide) (forall_two ?_ (proper_prim (by decide)))
  cases p
  · exact proper_node (by decide) (forall_two (proper_oid _) (proper_oid _))
  · exact proper_node (by decide) (forall_two (proper_oid _) (proper_oid _))
  · exact proper_node (by decide) (forall_one (proper_oid _))

theorem proper_sigBits (s : Sig) : (sigBits s).Proper := by
  cases s
  · exact proper_string (by decide) (by decide)
  · exact proper_string (by decide) (by decide)
  · exact proper_prim (by decide)

theorem proper_sigOctets (s : Sig) : (sigOctets s).Proper := by
  cases s
  · exact proper_string (by decide) (by decide)
  · exact proper_string (by decide) (by decide)
  · exact proper_prim (by decide)

theorem proper_nameOf (a b : Bytes) : (nameOf a b).Proper := by
  refine proper_node (by decide) (forall_two (proper_node (by decide) (forall_one ?_))
    (proper_node (by decide) (forall_one ?_))) <;>
  exact proper_node (by decide) (forall_two (proper_oid _) (proper_prim (by decide)))

theorem proper_validity (v : Validity) : (validityOf v).Proper :=
  proper_node (by decide) (forall_two (proper_prim (by decide)) (proper_prim (by decide)))

theorem proper_extension (oid : Bytes) (c : Bool) (v : Asn) : (extension (oidOf oid) c v).Proper := by
  have ho : (octetsOf [v]).Proper := proper_string (by decide) (by decide)
  cases c
  · exact proper_node (by decide) (forall_two (proper_oid _) ho)
  · exact proper_node (by decide) (forall_more (proper_oid _) (forall_two (proper_prim (by decide)) ho))

theorem proper_exts (p : Profile) (a : Attested cfg) (cert : Bool) : (extensions p a cert).Proper := by
  refine proper_node (by decide) (forall_more (proper_extension _ _ _) ?_)
  intro t ht
  unfold otherExtensions at ht
  rw [List.mem_append, List.mem_append, List.mem_append] at ht
  rcases ht with ((ht | ht) | ht) | ht
  · simp only [List.mem_cons, List.not_mem_nil, or_false] at ht
    rcases ht with rfl | rfl | rfl | rfl <;> exact proper_extension _ _ _
  · split at ht
    · rw [List.mem_singleton] at ht; subst ht; exact proper_extension _ _ _
    · cases ht
  · split at ht
    · rw [List.mem_singleton] at ht; subst ht; exact proper_extension _ _ _
    · cases ht
  · split at ht
    · rw [List.mem_singleton] at ht; subst ht; exact proper_extension _ _ _
    · cases ht

theorem proper_tbs {p : Profile} {sn iss : Bytes} {v : Validity} {s : Subject cfg}
    (h : WellFormed iss) : (tbsCertificate p sn iss v s).Proper :=
  proper_outer (by decide) <|
    forall_more (proper_node (by decide) (forall_one (proper_int _))) <|
    forall_more (proper_int _) <| forall_more (proper_sigAlgorithm _) <|
    forall_more (by rw [Asn.Proper]; exact h) <| forall_more (proper_validity _) <|
    forall_more (proper_nameOf _ _) <|
    forall_two (proper_keyInfo _ _) (proper_node (by decide) (forall_one (proper_exts _ _ _)))

theorem proper_info {p : Profile} {s : Subject cfg} : (requestInfo p s).Proper :=
  proper_outer (by decide) <| forall_more (proper_int _) <| forall_more (proper_nameOf _ _) <|
    forall_two (proper_keyInfo _ _) <| proper_node (by decide) <| forall_one <|
    proper_node (by decide) <| forall_two (proper_oid _) <| proper_node (by decide) <|
    forall_one (proper_exts _ _ _)

theorem proper_signed {p : Profile} {t : Asn} {sig : Sig} (h : t.Proper) : (signedOf p t sig).Proper :=
  proper_outer (by decide) <| forall_more h <|
    forall_two (proper_sigAlgorithm _) (proper_sigBits _)

/-- The issuer name in a signer identifier is well formed. -/
def SignerId.Named : SignerId → Prop
  | .issuerAndSerial i _ => WellFormed i
  | .subjectKeyId _ => True

theorem proper_signerId {sid : SignerId} (h : sid.Named) : (signerIdentifier' sid).Proper := by
  cases sid with
  | issuerAndSerial i sn =>
    exact proper_node (by decide) (forall_two (by rw [Asn.Proper]; exact h) (proper_int _))
  | subjectKeyId k => exact proper_string (by decide) (by decide)

theorem proper_cms {p : Profile} {sid : SignerId} {t : Asn} {sig : Sig} (hs : sid.Named) :
    (cmsOf p sid t sig).Proper :=
  proper_outer (by decide) <| forall_two (proper_oid _) <| proper_outer (by decide) <| forall_one <|
    proper_outer (by decide) <| forall_more (proper_int _) <|
    forall_more (proper_node (by decide) (forall_one (proper_hashAlgorithm _))) <|
    forall_two
      (proper_outer (by decide) <| forall_two (proper_oid _) <| proper_outer (by decide) <|
        forall_one <| by rw [Asn.Proper]; exact ⟨by decide, fun h => absurd h (by decide)⟩)
      (proper_node (by decide) <| forall_one <| proper_node (by decide) <|
        forall_more (proper_int _) <| forall_more (proper_signerId hs) <|
        forall_more (proper_hashAlgorithm _) <|
        forall_two (proper_sigAlgorithm _) (proper_sigOctets _))

end Dpe
