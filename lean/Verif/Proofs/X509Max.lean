import Verif.Spec.Limits
import Verif.Proofs.X509Size
import Verif.Proofs.CertIssued
/-
Upper bounds for the lengths of certificates and requests.
-/
namespace Dpe
variable {cfg : Cfg} {σ : Type}

/-- The encoding is at most this long, and so is the length foreseen for it. -/
def Asn.Max (t : Asn) (n : Nat) : Prop := t.written.length ≤ n ∧ t.foreseen ≤ n

/-- The encodings together are at most this long. -/
def Asn.Maxs (ts : List Asn) (n : Nat) : Prop :=
  (Asn.writtens ts).length ≤ n ∧ Asn.foreseens ts ≤ n

theorem tlvLen_mono {a b : Nat} (h : a ≤ b) : tlvLen a ≤ tlvLen b := by
  have := derLen_mono h
  unfold tlvLen
  omega

theorem Asn.Max.mono {t : Asn} {a b : Nat} (h : t.Max a) (hab : a ≤ b) : t.Max b :=
  ⟨Nat.le_trans h.1 hab, Nat.le_trans h.2 hab⟩

theorem Asn.Maxs.mono {t : List Asn} {a b : Nat} (h : Asn.Maxs t a) (hab : a ≤ b) : Asn.Maxs t b :=
  ⟨Nat.le_trans h.1 hab, Nat.le_trans h.2 hab⟩

theorem max_prim {tag : UInt8} {body : Bytes} {n : Nat} (h : body.length ≤ n) :
    (Asn.prim tag body).Max (tlvLen n) := by
  have h1 := tlvLen_mono h
  have h2 := derLen_mono h
  refine ⟨?_, h1⟩
  rw [Asn.written, tlv, tlvLen]
  simp only [List.length_cons, List.length_append]
  omega

theorem max_node' {tag : UInt8} {lead : Bytes} {parts : List Asn} {k n : Nat}
    (h : Asn.Maxs parts n) (hk : lead.length = k) : (Asn.node tag lead parts).Max (tlvLen (k + n)) := by
  obtain ⟨h1, h2⟩ := h
  have h3 : lead.length + Asn.foreseens parts ≤ k + n := by omega
  have h4 := derLen_mono h3
  refine ⟨?_, tlvLen_mono h3⟩
  rw [Asn.written, tlvLen]
  simp only [List.length_cons, List.length_append]
  omega

theorem max_node {tag : UInt8} {parts : List Asn} {n : Nat} (h : Asn.Maxs parts n) :
    (Asn.node tag [] parts).Max (tlvLen n) := by
  have := max_node' (tag := tag) (lead := []) h rfl
  rwa [List.length_nil, Nat.zero_add] at this

theorem max_outer {tag : UInt8} {parts : List Asn} {n : Nat} (h : Asn.Maxs parts n) :
    (Asn.outer tag parts).Max (tlvLen n) := by
  have h4 := derLen_mono h.1
  refine ⟨?_, tlvLen_mono h.2⟩
  rw [Asn.written, tlv, tlvLen]
  simp only [List.length_cons, List.length_append]
  have := h.1
  omega

theorem max_raw {bs : Bytes} {n : Nat} (h : bs.length ≤ n) : (Asn.raw bs).Max n := ⟨h, h⟩

theorem maxs_nil {n : Nat} : Asn.Maxs [] n := ⟨Nat.zero_le _, Nat.zero_le _⟩

theorem maxs_cons {t : Asn} {ts : List Asn} {n : Nat} {ns : List Nat} (h : t.Max n)
    (hs : Asn.Maxs ts ns.sum) : Asn.Maxs (t :: ts) (n :: ns).sum := by
  obtain ⟨h1, h2⟩ := h
  obtain ⟨h3, h4⟩ := hs
  rw [List.sum_cons]
  exact ⟨by rw [Asn.writtens, List.length_append]; omega, by rw [Asn.foreseens]; omega⟩

theorem writtens_append (a b : List Asn) : Asn.writtens (a ++ b) = Asn.writtens a ++ Asn.writtens b := by
  induction a with
  | nil => rfl
  | cons t ts ih => rw [List.cons_append, Asn.writtens, Asn.writtens, ih, List.append_assoc]

theorem maxs_append {a b : List Asn} {m n : List Nat} (h : Asn.Maxs a m.sum) (h' : Asn.Maxs b n.sum) :
    Asn.Maxs (a ++ b) (m ++ n).sum := by
  obtain ⟨h1, h2⟩ := h
  obtain ⟨h3, h4⟩ := h'
  rw [List.sum_append]
  exact ⟨by rw [writtens_append, List.length_append]; omega, by rw [foreseens_append]; omega⟩

theorem maxs_all {k : Nat} : ∀ {ts : List Asn}, (∀ t ∈ ts, t.Max k) → Asn.Maxs ts (ts.length * k)
  | [], _ => maxs_nil
  | t :: ts, h => by
    obtain ⟨h1, h2⟩ := h t (List.mem_cons_self ..)
    obtain ⟨h3, h4⟩ := maxs_all (ts := ts) fun u hu => h u (List.mem_cons_of_mem _ hu)
    rw [List.length_cons, Nat.succ_mul]
    exact ⟨by rw [Asn.writtens, List.length_append]; omega, by rw [Asn.foreseens]; omega⟩

theorem max_list {tag : UInt8} {ts : List Asn} {k c : Nat} (h : ∀ t ∈ ts, t.Max k) (hc : ts.length ≤ c) :
    (Asn.list tag ts).Max (tlvLen (c * k)) := by
  have h1 : ts.length * k ≤ c * k := Nat.mul_le_mul hc (Nat.le_refl _)
  obtain ⟨h2, _⟩ := (maxs_all h).mono h1
  have h3 : ts.length * Asn.foreseenHead ts ≤ c * k := by
    refine Nat.le_trans (Nat.mul_le_mul (Nat.le_refl _) ?_) h1
    cases ts with
    | nil => exact Nat.zero_le _
    | cons t ts => exact (h t (List.mem_cons_self ..)).2
  have h4 := derLen_mono h3
  refine ⟨?_, tlvLen_mono h3⟩
  rw [Asn.written, tlvLen]
  simp only [List.length_cons, List.length_append]
  omega

/-! ### Integers -/

theorem intBody_length_le {n k : Nat} (h : n < 256 ^ k) : (intBody n).length ≤ k + 1 := by
  have h1 := digits256_length_le h
  unfold intBody
  split
  · simp
  · rename_i d ds e
    rw [e] at h1
    split <;> simp only [List.length_cons] at h1 ⊢ <;> omega

theorem intBody_length_low {n k : Nat} (h : n < 128 * 256 ^ k) : (intBody n).length ≤ k + 1 := by
  have h1 : (digits256 n).length ≤ k + 1 := digits256_length_le (by rw [Nat.pow_succ]; omega)
  unfold intBody
  split
  · simp
  · rename_i d ds e
    rw [e] at h1
    simp only [List.length_cons] at h1
    split
    · simp only [List.length_cons]; omega
    · rename_i hd
      simp only [List.length_cons]
      rcases Nat.lt_or_ge ds.length k with hk | hk
      · omega
      · exfalso
        have hk : ds.length = k := by omega
        have hv := beValue_digits n
        rw [e, beValue_cons, hk] at hv
        have : 128 * 256 ^ k ≤ d.toNat * 256 ^ k := Nat.mul_le_mul (by omega) (Nat.le_refl _)
        omega

theorem beValue_low {b : UInt8} {bs : Bytes} (h : b.toNat < 128) :
    beValue (b :: bs) < 128 * 256 ^ bs.length := by
  have h1 := beValue_lt bs
  have h2 : (b.toNat + 1) * 256 ^ bs.length ≤ 128 * 256 ^ bs.length :=
    Nat.mul_le_mul (by omega) (Nat.le_refl _)
  rw [beValue_cons]
  rw [Nat.add_mul, Nat.one_mul] at h2
  omega

theorem intBody_arr {k : Nat} (v : BArr k) : (intBody (beValue v.toList)).length ≤ k + 1 := by
  have := beValue_lt v.toList
  rw [Vector.length_toList] at this
  exact intBody_length_le this

theorem intBody_u32 (v : U32) : (intBody v.toNat).length ≤ 5 :=
  intBody_length_le (k := 4) (by have := v.isLt; omega)

theorem hexText_low : ∀ (d : Bytes), ∀ b ∈ hexText d, b.toNat < 128 := by
  have key : ∀ n, ((ascii "0123456789ABCDEF").getD n 0).toNat < 128 := by
    intro n
    rcases Nat.lt_or_ge n 16 with h | h
    · have : ∀ n, n < 16 → ((ascii "0123456789ABCDEF").getD n 0).toNat < 128 := by decide +kernel
      exact this n h
    · rw [List.getD_eq_getElem?_getD, List.getElem?_eq_none (by exact h)]; decide
  intro d b hb
  rw [hexText, List.mem_flatMap] at hb
  obtain ⟨x, _, hb⟩ := hb
  rcases List.mem_cons.1 hb with rfl | hb
  · exact key _
  · rcases List.mem_cons.1 hb with rfl | hb
    · exact key _
    · cases hb

theorem serial_max (d : Bytes) : (intBody (beValue ((serialText d).take 20))).length ≤ 20 := by
  have hl : ((serialText d).take 20).length = 20 := by
    rw [List.length_take, serialText_length]; rfl
  have hlow : ∀ b ∈ (serialText d).take 20, b.toNat < 128 := by
    intro b hb
    have hb := List.mem_of_mem_take (List.mem_of_mem_take hb)
    rcases List.mem_append.1 hb with hb | hb
    · exact hexText_low d b hb
    · rw [(List.mem_replicate.1 hb).2]; decide
  cases h : (serialText d).take 20 with
  | nil => rw [h] at hl; cases hl
  | cons b bs =>
    rw [h] at hl hlow
    have := beValue_low (bs := bs) (hlow b (List.mem_cons_self ..))
    rw [List.length_cons] at hl
    rw [show bs.length = 19 by omega] at this
    exact intBody_length_low this

/-! ### Pieces -/

theorem max_oid {arcs : List Nat} {n : Nat} (h : tlvLen (oidBody arcs).length = n) :
    (oidOf (oidBody arcs)).Max n := h ▸ max_prim (Nat.le_refl _)

theorem max_hash (p : Profile) : (hashId p).Max 11 := by
  cases p <;> exact max_oid (by decide +kernel)

theorem max_sigAlg (p : Profile) : (sigAlgorithm p).Max (sigAlgLen p) := by
  cases p <;> exact max_node (maxs_cons (max_oid (by decide +kernel)) maxs_nil)

theorem max_hashAlg (p : Profile) : (hashAlgorithm p).Max (partsLen [11]) :=
  max_node (maxs_cons (max_hash p) maxs_nil)

theorem max_key {p : Profile} {k : PubKey} (h : KeyOf p k) : (keyInfo p k).Max (keyLen p) := by
  cases p <;> cases k <;> first
    | exact h.elim
    | refine max_node (maxs_cons (max_node (maxs_cons (max_oid (by decide +kernel))
        (maxs_cons (max_oid (by decide +kernel)) maxs_nil))) (maxs_cons (max_prim ?_) maxs_nil))
      simp [keyOctets]
    | refine max_node (maxs_cons (max_node (maxs_cons (max_oid (by decide +kernel)) maxs_nil))
        (maxs_cons (max_prim ?_) maxs_nil))
      simp [keyOctets]

theorem max_ecdsa {k : Nat} (r s : BArr k) :
    (ecdsaSig r.toList s.toList).Max (partsLen [tlvLen (k + 1), tlvLen (k + 1)]) :=
  max_node (maxs_cons (max_prim (intBody_arr r)) (maxs_cons (max_prim (intBody_arr s)) maxs_nil))

theorem max_one {t : Asn} {n : Nat} (h : t.Max n) : Asn.Maxs [t] n := by
  have := maxs_cons h (maxs_nil (n := List.sum []))
  rwa [List.sum_cons, List.sum_nil, Nat.add_zero] at this

theorem max_sigBits {p : Profile} {s : Sig} (h : SigOf p s) : (sigBits s).Max (sigLen 1 p) := by
  cases s with
  | p256 r s =>
    cases p <;> first | exact h.elim | exact max_node' (max_one (max_ecdsa r s)) rfl
  | p384 r s =>
    cases p <;> first | exact h.elim | exact max_node' (max_one (max_ecdsa r s)) rfl
  | mldsa s =>
    cases p <;> first | exact h.elim | skip
    have : (sigBits (.mldsa s)).Max (tlvLen (1 + 4627)) := max_prim (by simp)
    exact this

theorem max_sigOctets {p : Profile} {s : Sig} (h : SigOf p s) : (sigOctets s).Max (sigLen 0 p) := by
  cases s with
  | p256 r s =>
    cases p <;> first | exact h.elim | exact max_node' (max_one (max_ecdsa r s)) rfl
  | p384 r s =>
    cases p <;> first | exact h.elim | exact max_node' (max_one (max_ecdsa r s)) rfl
  | mldsa s =>
    cases p <;> first | exact h.elim | skip
    have : (sigOctets (.mldsa s)).Max (tlvLen (0 + 4627)) := max_prim (by simp)
    exact this

theorem max_name (ca : Bool) {cn sn : Bytes} (h1 : cn.length ≤ if ca then 16 else 8)
    (h2 : sn.length ≤ 64) : (nameOf cn sn).Max (nameLen ca) :=
  max_node (maxs_cons (max_node (maxs_cons (max_node (maxs_cons (max_oid (by decide +kernel))
    (maxs_cons (max_prim h1) maxs_nil))) maxs_nil))
    (maxs_cons (max_node (maxs_cons (max_node (maxs_cons (max_oid (by decide +kernel))
    (maxs_cons (max_prim h2) maxs_nil))) maxs_nil)) maxs_nil))

theorem max_fwid {p : Profile} {d : Bytes} {n : Nat} (h : d.length ≤ n) : (fwid p d).Max (fwidLen n) :=
  max_node (maxs_cons (max_hash p) (maxs_cons (max_prim h) maxs_nil))

theorem max_tcb {p : Profile} {r : Bool} {t : Tci cfg} {z : Sizes} (ht : cfg.tciSize ≤ z.tci)
    (hs : (intBody t.svn.toNat).length ≤ z.svn) : (tcbInfo p r t).Max (tcbLen z r) := by
  have h6 : ∀ tag v, (Asn.prim tag (le32 v)).Max 6 := fun tag v => max_prim (n := 4) (Nat.le_refl 4)
  have h6' : ∀ tag v, (Asn.prim tag (le32 v).reverse).Max 6 :=
    fun tag v => max_prim (n := 4) (by rw [List.length_reverse]; exact Nat.le_refl 4)
  have hc : t.current.toList.length ≤ z.tci := by rw [Vector.length_toList]; exact ht
  have hu : t.cumulative.toList.length ≤ z.tci := by rw [Vector.length_toList]; exact ht
  refine max_node (maxs_append (maxs_cons (max_prim hs) (maxs_cons (max_node (maxs_cons (max_fwid hc)
    maxs_nil)) (maxs_cons (h6' ..) (maxs_cons (h6 ..) maxs_nil)))) ?_)
  cases r
  · exact maxs_nil
  · refine maxs_cons (max_node (maxs_cons (max_node (maxs_cons ?_ (maxs_cons (max_node (maxs_cons
      (max_fwid hu) maxs_nil)) maxs_nil))) maxs_nil)) maxs_nil
    exact max_prim (n := 1) (by decide)

theorem max_ext {id value : Asn} {c crit : Bool} {m n : Nat} (h1 : id.Max m) (h2 : value.Max n)
    (hc : c = true → crit = true) : (extension id c value).Max (extLen m crit n) := by
  have h3 : asnTrue.Max 3 := max_prim (n := 1) (by decide)
  refine max_node (maxs_cons h1 (maxs_append ?_ (maxs_cons (max_node (maxs_cons h2 maxs_nil)) maxs_nil)))
  cases c
  · exact maxs_nil
  · rw [hc rfl]
    exact maxs_cons h3 maxs_nil

theorem max_exts {p : Profile} {a : Attested cfg} {cert : Bool} {z : Sizes}
    (hn : a.chain.length ≤ z.chain) (ht : cfg.tciSize ≤ z.tci)
    (hs : ∀ t ∈ a.chain, (intBody t.svn.toNat).length ≤ z.svn) (hl : a.label.length ≤ z.label)
    (hr : a.recursive = true → a.ca = false) (h1 : a.subjectKeyId.length ≤ 20)
    (h2 : a.authorityKeyId.length ≤ 20)
    (ho : ∀ o, a.altName = some o → ∃ x, z.alt = some x ∧ o.oid.length ≤ x.1 ∧ o.name.length ≤ x.2) :
    (extensions p a cert).Max (extsLen z a.ca cert) := by
  have tcb : ∀ t ∈ a.chain.map (tcbInfo p a.recursive), t.Max (tcbLen z (!a.ca)) := by
    intro t ht'
    obtain ⟨x, hx, rfl⟩ := List.mem_map.1 ht'
    have := max_tcb (p := p) (r := a.recursive) ht (hs x hx)
    cases hca : a.ca with
    | true =>
      cases hre : a.recursive with
      | true => rw [hr hre] at hca; cases hca
      | false => rw [hre] at this; exact this
    | false =>
      cases hre : a.recursive with
      | true => rw [hre] at this; exact this
      | false =>
        rw [hre] at this
        refine this.mono (tlvLen_mono ?_)
        simp
        omega
  refine max_node (maxs_cons (max_ext (max_oid (by decide +kernel))
    (max_list tcb (by rw [List.length_map]; exact hn)) (fun _ => rfl)) ?_)
  refine maxs_append (maxs_append (maxs_append (maxs_cons ?_ (maxs_cons ?_ (maxs_cons ?_ (maxs_cons ?_
    maxs_nil)))) ?_) ?_) ?_
  · exact max_ext (max_oid (by decide +kernel)) (max_node (maxs_cons (max_prim hl) maxs_nil))
      (fun _ => rfl)
  · refine max_ext (max_oid (by decide +kernel)) (max_node ?_) (fun _ => rfl)
    cases a.ca
    · exact maxs_nil
    · exact maxs_cons (max_prim (n := 1) (by decide)) maxs_nil
  · refine max_ext (max_oid (by decide +kernel)) (max_prim (n := 2) ?_) (fun _ => rfl)
    cases a.ca <;> decide
  · refine max_ext (max_oid (by decide +kernel)) (max_node (maxs_cons ?_ maxs_nil)) (fun _ => rfl)
    cases a.ca <;> exact (max_oid rfl).mono (by decide +kernel)
  · cases h : a.ca && cert
    · exact maxs_nil
    · exact maxs_cons (max_ext (max_oid (by decide +kernel)) (max_prim (n := 20) h1) (by simp)) maxs_nil
  · cases cert
    · exact maxs_nil
    · exact maxs_cons (max_ext (max_oid (by decide +kernel)) (max_node (maxs_cons
        (max_prim (n := 20) h2) maxs_nil)) (by simp)) maxs_nil
  · cases h : a.altName with
    | none => exact maxs_nil
    | some o =>
      obtain ⟨⟨x, y⟩, hx, g1, g2⟩ := ho o h
      rw [hx]
      exact maxs_cons (max_ext (max_oid (by decide +kernel)) (max_node (maxs_cons (max_node (maxs_cons
        (max_prim g1) (maxs_cons (max_node (maxs_cons (max_prim g2) maxs_nil)) maxs_nil))) maxs_nil))
        (by simp)) maxs_nil

theorem max_signer (s : SignerId) : (signerIdentifier' s).Max (signerIdentifier' s).der.length := by
  cases s with
  | issuerAndSerial i n =>
    have h : (signerIdentifier' (.issuerAndSerial i n)).der.length =
        tlvLen [i.length, tlvLen (intBody (beValue n)).length].sum := by
      simp only [signerIdentifier', seqOf, asnInt, Asn.der, Asn.ders, List.nil_append, List.append_nil,
        tlv_length, List.length_append, List.sum_cons, List.sum_nil, Nat.add_zero]
    rw [h]
    exact max_node (maxs_cons (max_raw (Nat.le_refl _)) (maxs_cons (max_prim (Nat.le_refl _)) maxs_nil))
  | subjectKeyId k =>
    have h : (signerIdentifier' (.subjectKeyId k)).der.length = tlvLen [tlvLen k.length].sum := by
      simp only [signerIdentifier', octets, Asn.der, Asn.ders, List.nil_append, List.append_nil,
        tlv_length, List.sum_cons, List.sum_nil, Nat.add_zero]
    rw [h]
    exact max_node (maxs_cons (max_prim (Nat.le_refl _)) maxs_nil)

/-! ### Whole certificates and requests -/

variable {ops : Ops σ} {kind : CertKind} {a : CertArgs} {st : State cfg} {w w1 w2 : σ} {D : Draft}
  {t : Asn} {z : Sizes}

theorem drafted_exts (hp : PlatformData ops z) (hD : Drafted ops kind a st w D w1)
    (hc : D.path.length ≤ z.chain) (ht : cfg.tciSize ≤ z.tci) (hl : a.ueid.length ≤ z.label)
    (hs : ∀ i ∈ D.path, (intBody (st.at i).tci.svn.toNat).length ≤ z.svn) (p : Profile) (cert : Bool) :
    (extensions p (D.subject kind a st).attested cert).Max
      (extsLen z (decide (kind = .exportedX509)) cert) := by
  obtain ⟨key, w1, w2, w3, w4, w5, w6, w7, w8, h1, h2, h3, h4, h5, h6, h7, h8, h9, h10, h11, h12, h13,
    h14, h15⟩ := hD
  refine max_exts (a := (D.subject kind a st).attested) ?_ ht ?_ hl ?_ ?_ ?_ ?_
  · show (D.path.reverse.map _).length ≤ _
    rw [List.length_map, List.length_reverse]; exact hc
  · intro t ht
    obtain ⟨i, hi, rfl⟩ := List.mem_map.1 ht
    exact hs i (List.mem_reverse.1 hi)
  · intro hr
    have := of_decide_eq_true hr
    exact decide_eq_false this.1
  · show (D.idHash.take 20).length ≤ 20
    rw [List.length_take]; exact Nat.min_le_left ..
  · show D.issuerKeyId.toList.length ≤ 20
    rw [Vector.length_toList]; exact Nat.le_refl _
  · intro o ho
    have ho : D.altName = some o := ho
    rw [ho] at h13
    exact hp.alt _ _ _ h13

theorem drafted_name (kind : CertKind) (a : CertArgs) (st : State cfg) (D : Draft) :
    (nameOf (D.subject kind a st).cn (D.subject kind a st).serialName).Max
      (nameLen (decide (kind = .exportedX509))) := by
  refine max_name _ ?_ (Nat.le_of_eq (serialText_length _))
  show (if kind = .exportedX509 then ascii "DPE Exported CDI" else ascii "DPE Leaf").length ≤ _
  cases kind <;> decide

/-- What is issued is at most as long as computed from the lengths of its ingredients. -/
theorem issued_max (hg : Genuine cfg.profile ops) (hp : PlatformData ops z)
    (hD : Drafted ops kind a st w D w1) (hI : Issued ops a st D kind w1 t w2)
    (hc : D.path.length ≤ z.chain) (ht : cfg.tciSize ≤ z.tci) (hl : a.ueid.length ≤ z.label)
    (hs : ∀ i ∈ D.path, (intBody (st.at i).tci.svn.toNat).length ≤ z.svn) :
    t.Max (issuedLen cfg.profile z kind) := by
  have he := drafted_exts hp hD hc ht hl hs cfg.profile
  have hn := drafted_name kind a st D
  obtain ⟨key, w1, w2, w3, w4, w5, w6, w7, w8, h1, h2, h3, h4, h5, h6, h7, h8, h9, h10, h11, h12, h13,
    h14, h15⟩ := hD
  have hk := max_key (hg.key _ _ _ _ h5)
  cases hI with
  | certificate hkind hi hn' hsig =>
    rename_i n name sig _
    have htbs : ∀ ca, ca = decide (kind = .exportedX509) → (certificate cfg.profile
        (D.tbs kind a st (name.toList.take n)) sig).Max (certLen cfg.profile z ca) := by
      rintro ca rfl
      have hv := hp.validity _ _ _ h14
      refine max_outer (maxs_cons (max_outer (maxs_cons ?_ (maxs_cons ?_ (maxs_cons (max_sigAlg _)
        (maxs_cons (max_raw ?_) (maxs_cons ?_ (maxs_cons hn (maxs_cons hk
        (maxs_cons (max_node (maxs_cons (he true) maxs_nil)) maxs_nil))))))))) (maxs_cons (max_sigAlg _)
        (maxs_cons (max_sigBits (hg.signAlias _ _ _ _ hsig)) maxs_nil)))
      · have h2 : (asnInt 2).Max 3 := max_prim (n := 1) (by decide)
        exact (max_node (max_one h2)).mono (by decide)
      · exact max_prim (n := 20) (serial_max _)
      · rw [List.length_take]
        exact Nat.le_trans (Nat.min_le_left ..) (hp.issuer _ _ _ _ hi)
      · exact max_node (maxs_cons (max_prim hv.1) (maxs_cons (max_prim hv.2) maxs_nil))
    cases kind with
    | leafX509 => exact htbs false rfl
    | leafCsr => exact absurd rfl hkind
    | exportedX509 => exact htbs true rfl
  | request hcdi hkey hsig hsig' =>
    rename_i cdi key sig sig' _ _ _
    have hreq : (request cfg.profile (D.info a st) sig).Max (requestLen cfg.profile z) := by
      refine max_outer (maxs_cons (max_outer (maxs_cons ?_ (maxs_cons hn (maxs_cons hk (maxs_cons
        (max_node (maxs_cons (max_node (maxs_cons (max_oid (by decide +kernel)) (maxs_cons
        (max_node (maxs_cons (he false) maxs_nil)) maxs_nil))) maxs_nil)) maxs_nil)))))
        (maxs_cons (max_sigAlg _) (maxs_cons (max_sigBits (hg.sign _ _ _ _ _ hsig)) maxs_nil)))
      exact max_prim (n := 1) (by decide)
    have hver : (asnInt (cmsVersionOf D.signer)).Max 3 := by
      have h1 : (asnInt 1).Max 3 := max_prim (n := 1) (by decide)
      have h3 : (asnInt 3).Max 3 := max_prim (n := 1) (by decide)
      cases D.signer
      · exact h1
      · exact h3
    have hsid : (signerIdentifier' D.signer).Max z.signer :=
      (max_signer D.signer).mono (hp.signer _ _ _ h15)
    exact max_outer (maxs_cons (max_oid (by decide +kernel)) (maxs_cons (max_outer (maxs_cons
      (max_outer (maxs_cons hver (maxs_cons (max_node (maxs_cons (max_hashAlg _) maxs_nil))
      (maxs_cons (max_outer (maxs_cons (max_oid (by decide +kernel)) (maxs_cons (max_outer (maxs_cons
      (max_outer (maxs_cons hreq maxs_nil)) maxs_nil)) maxs_nil))) (maxs_cons (max_node (maxs_cons
      (max_node (maxs_cons hver (maxs_cons hsid (maxs_cons (max_hashAlg _) (maxs_cons (max_sigAlg _)
      (maxs_cons (max_sigOctets (hg.signAlias _ _ _ _ hsig')) maxs_nil)))))) maxs_nil)) maxs_nil)))))
      maxs_nil)) maxs_nil))

end Dpe
