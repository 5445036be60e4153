import Verif.Proofs.X509Sign
/-
The trees of certificates and requests: short lists, proper tags, and equally long TcbInfos.
-/
namespace Dpe
variable {cfg : Cfg}

theorem Asn.Plains.of_forall : ∀ {ts : List Asn}, (∀ t ∈ ts, t.Plain) → Asn.Plains ts
  | [], _ => by rw [Asn.Plains]; trivial
  | t :: ts, h => by
    rw [Asn.Plains]
    exact ⟨h t (by simp), Asn.Plains.of_forall fun t ht => h t (by simp [ht])⟩

theorem Asn.Shorts.of_forall : ∀ {ts : List Asn}, (∀ t ∈ ts, t.Short) → Asn.Shorts ts
  | [], _ => by rw [Asn.Shorts]; trivial
  | t :: ts, h => by
    rw [Asn.Shorts]
    exact ⟨h t (by simp), Asn.Shorts.of_forall fun t ht => h t (by simp [ht])⟩

theorem Asn.Propers.of_forall : ∀ {ts : List Asn}, (∀ t ∈ ts, t.Proper) → Asn.Propers ts
  | [], _ => by rw [Asn.Propers]; trivial
  | t :: ts, h => by
    rw [Asn.Propers]
    exact ⟨h t (by simp), Asn.Propers.of_forall fun t ht => h t (by simp [ht])⟩

theorem Asn.Evens.of_forall : ∀ {ts : List Asn}, (∀ t ∈ ts, t.Even) → Asn.Evens ts
  | [], _ => by rw [Asn.Evens]; trivial
  | t :: ts, h => by
    rw [Asn.Evens]
    exact ⟨h t (by simp), Asn.Evens.of_forall fun t ht => h t (by simp [ht])⟩

mutual
theorem Asn.plain_short : ∀ t : Asn, t.Plain → t.Short
  | .prim .., _ => by rw [Asn.Short]; trivial
  | .node _ _ parts, h => by
    rw [Asn.Plain] at h; rw [Asn.Short]; exact Asn.plains_shorts parts h
  | .list .., h => by rw [Asn.Plain] at h; exact h.elim
  | .outer _ parts, h => by
    rw [Asn.Plain] at h; rw [Asn.Short]; exact Asn.plains_shorts parts h
  | .raw _, _ => by rw [Asn.Short]; trivial
theorem Asn.plains_shorts : ∀ ts : List Asn, Asn.Plains ts → Asn.Shorts ts
  | [], _ => by rw [Asn.Shorts]; trivial
  | t :: ts, h => by
    rw [Asn.Plains] at h; rw [Asn.Shorts]
    exact ⟨Asn.plain_short t h.1, Asn.plains_shorts ts h.2⟩
end

mutual
theorem Asn.plain_even : ∀ t : Asn, t.Plain → t.Even
  | .prim .., _ => by rw [Asn.Even]; trivial
  | .node _ _ parts, h => by
    rw [Asn.Plain] at h; rw [Asn.Even]; exact Asn.plains_evens parts h
  | .list .., h => by rw [Asn.Plain] at h; exact h.elim
  | .outer _ parts, h => by
    rw [Asn.Plain] at h; rw [Asn.Even]; exact Asn.plains_evens parts h
  | .raw _, _ => by rw [Asn.Even]; trivial
theorem Asn.plains_evens : ∀ ts : List Asn, Asn.Plains ts → Asn.Evens ts
  | [], _ => by rw [Asn.Evens]; trivial
  | t :: ts, h => by
    rw [Asn.Plains] at h; rw [Asn.Evens]
    exact ⟨Asn.plain_even t h.1, Asn.plains_evens ts h.2⟩
end

/-! ### Plain trees -/

theorem plain_oid (b : Bytes) : (oidOf b).Plain := by rw [oidOf, Asn.Plain]; trivial
theorem plain_prim (n : UInt8) (b : Bytes) : (Asn.prim n b).Plain := by rw [Asn.Plain]; trivial

theorem plain_hashId (p : Profile) : (hashId p).Plain := by
  cases p <;> exact plain_oid _

theorem plain_fwid (p : Profile) (b : Bytes) : (fwid p b).Plain := by
  have := plain_hashId p
  simp [fwid, seqOf, octets, Asn.Plain, Asn.Plains, this]

theorem plain_tcbInfo (p : Profile) (r : Bool) (t : Tci cfg) : (tcbInfo p r t).Plain := by
  have h := plain_fwid p
  cases r <;> simp [tcbInfo, seqOf, implicit, tagged, Asn.Plain, Asn.Plains, h]

theorem plain_sigAlgorithm (p : Profile) : (sigAlgorithm p).Plain := by
  cases p <;> simp [sigAlgorithm, seqOf, Asn.Plain, Asn.Plains, plain_oid, idEcdsaSha256,
    idEcdsaSha384, idMldsa87]

theorem plain_hashAlgorithm (p : Profile) : (hashAlgorithm p).Plain := by
  simp [hashAlgorithm, seqOf, Asn.Plain, Asn.Plains, plain_hashId]

theorem plain_keyInfo (p : Profile) (k : PubKey) : (keyInfo p k).Plain := by
  cases p <;> simp [keyInfo, keyAlgorithm, seqOf, bits, Asn.Plain, Asn.Plains, plain_oid, idMldsa87,
    idEcPublicKey, idPrime256v1, idSecp384r1]

theorem plain_ecdsaSig (r s : Bytes) : (ecdsaSig r s).Plain := by
  simp [ecdsaSig, seqOf, asnInt, Asn.Plain, Asn.Plains]

theorem plain_sigBits (s : Sig) : (sigBits s).Plain := by
  cases s <;> simp [sigBits, bitsOf, bits, Asn.Plain, Asn.Plains, plain_ecdsaSig]

theorem plain_sigOctets (s : Sig) : (sigOctets s).Plain := by
  cases s <;> simp [sigOctets, octetsOf, octets, Asn.Plain, Asn.Plains, plain_ecdsaSig]

theorem plain_nameOf (a b : Bytes) : (nameOf a b).Plain := by
  simp [nameOf, seqOf, setOf, Asn.Plain, Asn.Plains, plain_oid, idCommonName, idSerialNumber]

theorem plain_validity (v : Validity) : (validityOf v).Plain := by
  simp [validityOf, seqOf, Asn.Plain, Asn.Plains]

theorem plain_extension {id value : Asn} (c : Bool) (h1 : id.Plain) (h2 : value.Plain) :
    (extension id c value).Plain := by
  cases c <;> simp [extension, seqOf, octetsOf, asnTrue, Asn.Plain, Asn.Plains, h1, h2]

theorem plain_other (a : Attested cfg) (cert : Bool) : ∀ t ∈ otherExtensions a cert, t.Plain := by
  have hb : ∀ b, (basicConstraints b).Plain := by
    intro b; cases b <;> simp [basicConstraints, seqOf, asnTrue, Asn.Plain, Asn.Plains]
  have hx : ∀ b, (extKeyUsage b).Plain := by
    intro b
    cases b <;> simp [extKeyUsage, seqOf, Asn.Plain, Asn.Plains, idEca, idAttestLoc, plain_oid]
  have h4 : ∀ t ∈ [extension idUeid a.critical (seqOf [octets a.label]),
      extension idBasicConstraints true (basicConstraints a.ca),
      extension idKeyUsage true (keyUsage a.ca),
      extension idExtKeyUsage true (extKeyUsage a.ca)], t.Plain := by
    intro t ht
    simp only [List.mem_cons, List.not_mem_nil, or_false] at ht
    rcases ht with rfl | rfl | rfl | rfl
    · exact plain_extension _ (plain_oid _) (by simp [seqOf, octets, Asn.Plain, Asn.Plains])
    · exact plain_extension _ (plain_oid _) (hb _)
    · exact plain_extension _ (plain_oid _) (plain_prim _ _)
    · exact plain_extension _ (plain_oid _) (hx _)
  intro t ht
  unfold otherExtensions at ht
  rw [List.mem_append, List.mem_append, List.mem_append] at ht
  rcases ht with ((ht | ht) | ht) | ht
  · exact h4 t ht
  · split at ht
    · rw [List.mem_singleton] at ht; subst ht
      exact plain_extension _ (plain_oid _) (plain_prim _ _)
    · cases ht
  · split at ht
    · rw [List.mem_singleton] at ht; subst ht
      exact plain_extension _ (plain_oid _) (by simp [seqOf, implicit, Asn.Plain, Asn.Plains])
    · cases ht
  · split at ht
    · rw [List.mem_singleton] at ht; subst ht
      exact plain_extension _ (plain_oid _)
        (by simp [altNames, seqOf, tagged, oidOf, Asn.Plain, Asn.Plains])
    · cases ht

theorem plain_signerId (s : SignerId) : (signerIdentifier' s).Plain := by
  cases s <;> simp [signerIdentifier', seqOf, asnInt, octets, Asn.Plain, Asn.Plains]

theorem plain_signerInfo (p : Profile) (v : Nat) (sid : SignerId) (s : Sig) :
    (signerInfo p v (signerIdentifier' sid) s).Plain := by
  simp [signerInfo, seqOf, asnInt, Asn.Plain, Asn.Plains, plain_signerId, plain_hashAlgorithm,
    plain_sigAlgorithm, plain_sigOctets]

/-! ### A property of trees that only depends on the list -/

/-- `Q` is inherited by everything built without lists from parts that have it. -/
structure Inherits (Q : Asn → Prop) (Qs : List Asn → Prop) : Prop where
  plain : ∀ t, t.Plain → Q t
  node : ∀ n l ps, Qs ps → Q (.node n l ps)
  outer : ∀ n ps, Qs ps → Q (.outer n ps)
  all : ∀ ps, (∀ t ∈ ps, Q t) → Qs ps

variable {Q : Asn → Prop} {Qs : List Asn → Prop}

theorem Inherits.exts (h : Inherits Q Qs) {p : Profile} {a : Attested cfg} (hm : Q (multiTcbInfo p a))
    (cert : Bool) : Q (extensions p a cert) := by
  refine h.node _ _ _ (h.all _ fun t ht => ?_)
  rw [List.mem_cons] at ht
  rcases ht with rfl | ht
  · refine h.node _ _ _ (h.all _ fun t ht => ?_)
    cases hc : a.critical
    · rw [hc] at ht
      simp only [Bool.false_eq_true, if_false, List.nil_append, List.mem_cons, List.not_mem_nil,
        or_false] at ht
      rcases ht with rfl | rfl
      · exact h.plain _ (plain_oid _)
      · exact h.node _ _ _ (h.all _ fun t ht => by
          rw [List.mem_singleton] at ht; subst ht; exact hm)
    · rw [hc] at ht
      simp only [if_true, List.mem_cons, List.cons_append, List.nil_append, List.not_mem_nil,
        or_false] at ht
      rcases ht with rfl | rfl | rfl
      · exact h.plain _ (plain_oid _)
      · exact h.plain _ (plain_prim _ _)
      · exact h.node _ _ _ (h.all _ fun t ht => by
          rw [List.mem_singleton] at ht; subst ht; exact hm)
  · exact h.plain _ (plain_other a cert t ht)

theorem Inherits.tbs (h : Inherits Q Qs) {p : Profile} {sn iss : Bytes} {v : Validity}
    {s : Subject cfg} (hm : Q (multiTcbInfo p s.attested)) : Q (tbsCertificate p sn iss v s) := by
  refine h.outer _ _ (h.all _ fun t ht => ?_)
  simp only [List.mem_cons, List.not_mem_nil, or_false] at ht
  rcases ht with rfl | rfl | rfl | rfl | rfl | rfl | rfl | rfl
  · exact h.plain _ (by simp [tagged, asnInt, Asn.Plain, Asn.Plains])
  · exact h.plain _ (plain_prim _ _)
  · exact h.plain _ (plain_sigAlgorithm _)
  · exact h.plain _ (by rw [Asn.Plain]; trivial)
  · exact h.plain _ (plain_validity _)
  · exact h.plain _ (plain_nameOf _ _)
  · exact h.plain _ (plain_keyInfo _ _)
  · refine h.node _ _ _ (h.all _ fun t ht => ?_)
    rw [List.mem_singleton] at ht; subst ht
    exact h.exts hm _

theorem Inherits.info (h : Inherits Q Qs) {p : Profile} {s : Subject cfg}
    (hm : Q (multiTcbInfo p s.attested)) : Q (requestInfo p s) := by
  refine h.outer _ _ (h.all _ fun t ht => ?_)
  simp only [List.mem_cons, List.not_mem_nil, or_false] at ht
  rcases ht with rfl | rfl | rfl | rfl
  · exact h.plain _ (plain_prim _ _)
  · exact h.plain _ (plain_nameOf _ _)
  · exact h.plain _ (plain_keyInfo _ _)
  · refine h.node _ _ _ (h.all _ fun t ht => ?_)
    rw [List.mem_singleton] at ht; subst ht
    refine h.node _ _ _ (h.all _ fun t ht => ?_)
    simp only [List.mem_cons, List.not_mem_nil, or_false] at ht
    rcases ht with rfl | rfl
    · exact h.plain _ (plain_oid _)
    · refine h.node _ _ _ (h.all _ fun t ht => ?_)
      rw [List.mem_singleton] at ht; subst ht
      exact h.exts hm _

theorem Inherits.signed (h : Inherits Q Qs) {p : Profile} {t : Asn} {sig : Sig} (ht : Q t) :
    Q (signedOf p t sig) := by
  refine h.outer _ _ (h.all _ fun u hu => ?_)
  simp only [List.mem_cons, List.not_mem_nil, or_false] at hu
  rcases hu with rfl | rfl | rfl
  · exact ht
  · exact h.plain _ (plain_sigAlgorithm _)
  · exact h.plain _ (plain_sigBits _)

theorem Inherits.cms (h : Inherits Q Qs) {p : Profile} {sid : SignerId} {t : Asn} {sig : Sig}
    (ht : Q t) : Q (cmsOf p sid t sig) := by
  have one : ∀ {n : UInt8} {u : Asn}, Q u → Q (.outer n [u]) := fun hu =>
    h.outer _ _ (h.all _ fun t ht => by rw [List.mem_singleton] at ht; subst ht; exact hu)
  refine h.outer _ _ (h.all _ fun u hu => ?_)
  simp only [List.mem_cons, List.not_mem_nil, or_false] at hu
  rcases hu with rfl | rfl
  · exact h.plain _ (plain_oid _)
  refine one (h.outer _ _ (h.all _ fun u hu => ?_))
  simp only [sdParts, List.mem_cons, List.not_mem_nil, or_false] at hu
  rcases hu with rfl | rfl | rfl | rfl
  · exact h.plain _ (plain_prim _ _)
  · exact h.plain _ (by simp [setOf, Asn.Plain, Asn.Plains, plain_hashAlgorithm])
  · refine h.outer _ _ (h.all _ fun u hu => ?_)
    simp only [List.mem_cons, List.not_mem_nil, or_false] at hu
    rcases hu with rfl | rfl
    · exact h.plain _ (plain_oid _)
    · exact one (one ht)
  · exact h.plain _ (by simp [setOf, Asn.Plain, Asn.Plains, plain_signerInfo])

theorem inherits_short : Inherits Asn.Short Asn.Shorts where
  plain := Asn.plain_short
  node _ _ _ h := by rw [Asn.Short]; exact h
  outer _ _ h := by rw [Asn.Short]; exact h
  all _ h := Asn.Shorts.of_forall h

theorem inherits_even : Inherits Asn.Even Asn.Evens where
  plain := Asn.plain_even
  node _ _ _ h := by rw [Asn.Even]; exact h
  outer _ _ h := by rw [Asn.Even]; exact h
  all _ h := Asn.Evens.of_forall h

theorem short_multiTcb {p : Profile} {a : Attested cfg} (h : a.chain.length ≤ 64) :
    (multiTcbInfo p a).Short := by
  have hp : ∀ t ∈ a.chain.map (tcbInfo p a.recursive), t.Plain := by
    intro t ht
    obtain ⟨c, _, rfl⟩ := List.mem_map.1 ht
    exact plain_tcbInfo _ _ _
  rw [multiTcbInfo, Asn.Short]
  exact ⟨by rwa [List.length_map], Asn.Plains.of_forall hp,
    Asn.Shorts.of_forall fun t ht => Asn.plain_short t (hp t ht)⟩

/-! ### Equally long TcbInfos -/

theorem tlv_len (n : UInt8) (b : Bytes) : (tlv n b).length = tlvLen b.length := by
  simp only [tlv, tlvLen, List.length_cons, List.length_append]; omega

theorem tcbInfo_length (p : Profile) (r : Bool) (t u : Tci cfg)
    (h : (intBody t.svn.toNat).length = (intBody u.svn.toNat).length) :
    (tcbInfo p r t).der.length = (tcbInfo p r u).der.length := by
  have l32 : ∀ x : U32, (le32 x).length = 4 := fun x => by simp [le32]
  cases r <;> simp [tcbInfo, seqOf, implicit, tagged, fwid, octets, Asn.der, Asn.ders, tlv_len, h, l32]

theorem SvnsAlike.regular {p : Profile} {a : Attested cfg} (h : SvnsAlike a.chain) :
    Regular p a := by
  have := Asn.ders_length_same (a.chain.map (tcbInfo p a.recursive))
      (n := ((a.chain.map (tcbInfo p a.recursive)).headD (.raw [])).der.length) (by
    intro t ht
    obtain ⟨c, hc, rfl⟩ := List.mem_map.1 ht
    cases hch : a.chain with
    | nil => rw [hch] at hc; cases hc
    | cons d ds =>
      rw [List.map_cons, List.headD_cons]
      exact tcbInfo_length p _ c d (h c hc d (by rw [hch]; simp)))
  rw [Regular, this, List.length_map]

theorem even_multiTcb {p : Profile} {a : Attested cfg} (h : Regular p a) :
    (multiTcbInfo p a).Even := by
  have hp : ∀ t ∈ a.chain.map (tcbInfo p a.recursive), t.Plain := by
    intro t ht
    obtain ⟨c, _, rfl⟩ := List.mem_map.1 ht
    exact plain_tcbInfo _ _ _
  rw [multiTcbInfo, Asn.Even]
  refine ⟨Asn.Evens.of_forall fun t ht => Asn.plain_even t (hp t ht), ?_⟩
  rw [h, List.length_map]

end Dpe
