import Verif.Spec.Crates
import Verif.Proofs.DeviceAble
/-
The calls and commands of the reference device in terms of the functions of the crates.
-/
namespace Dpe

/-! ### Functions -/
section
variable {L : Lib} {p : Profile}

theorem std_hash : (L.crypto p).hash = stdHash L p := by
  cases p <;> rfl

theorem std_cdi {m i out : Bytes} : (L.crypto p).hkdfCdi m i = .ok out ↔ StdKdf L p i m m out := by
  cases p
  · simp only [Lib.crypto, Lib.ecc256, Lib.prims, Lib.deriveCdi, Lib.kdfHash, Lib.secretSize, StdKdf]
    cases h : L.expand .sha256 (L.extract .sha256 i m) m 32 <;> simp [eq_comm]
  · simp only [Lib.crypto, Lib.ecc384, Lib.prims, Lib.deriveCdi, Lib.kdfHash, Lib.secretSize, StdKdf]
    cases h : L.expand .sha384 (L.extract .sha384 i m) m 48 <;> simp [eq_comm]
  · simp only [Lib.crypto, Lib.mldsa87, Lib.prims, Lib.deriveCdi, Lib.kdfHash, Lib.secretSize, StdKdf]
    cases h : L.expand .sha256 (L.extract .sha256 i m) m 32 <;> simp [eq_comm]

theorem std_key {c l i out : Bytes} : (L.crypto p).hkdfKey c l i = .ok out ↔ StdKdf L p i c l out := by
  cases p
  · simp only [Lib.crypto, Lib.ecc256, Lib.prims, Lib.privKey, Lib.kdfHash, Lib.secretSize, StdKdf]
    cases h : L.expand .sha256 (L.extract .sha256 i c) l 32 <;> simp [eq_comm]
  · simp only [Lib.crypto, Lib.ecc384, Lib.prims, Lib.privKey, Lib.kdfHash, Lib.secretSize, StdKdf]
    cases h : L.expand .sha384 (L.extract .sha384 i c) l 48 <;> simp [eq_comm]
  · simp only [Lib.crypto, Lib.mldsa87, Lib.prims, Lib.privKey, Lib.kdfHash, Lib.secretSize, StdKdf]
    cases h : L.expand .sha256 (L.extract .sha256 i c) l 32 <;> simp [eq_comm]

theorem seed87_iff {k : Bytes} {x : BArr 32} : Lib.seed87 k = some x ↔ k = x.toList := by
  unfold Lib.seed87
  constructor
  · intro h
    split at h
    · have h := Option.some.inj h
      rw [← h]
      simp [Vector.toList]
    · cases h
  · rintro rfl
    rw [dif_pos (by simp)]
    congr 1

theorem std_public {k : Bytes} {pk : PubKey} : (L.crypto p).pub k = .ok pk ↔ StdPublic L p k pk := by
  cases p
  · simp only [Lib.crypto, Lib.ecc256, Lib.prims, Lib.publicKey, StdPublic]
    cases h : L.key256 k <;> simp [eq_comm]
  · simp only [Lib.crypto, Lib.ecc384, Lib.prims, Lib.publicKey, StdPublic]
    cases h : L.key384 k <;> simp [eq_comm]
  · simp only [Lib.crypto, Lib.mldsa87, Lib.prims, Lib.publicKey, StdPublic, ← seed87_iff]
    cases h : Lib.seed87 k <;> simp [eq_comm]

theorem std_prehash256 {k d : Bytes} {sig : Sig} : L.signPrehash .p256 k d = .ok sig ↔
    ∃ x r s, L.key256 k = some x ∧ L.sign256 x d = some (r, s) ∧ sig = .p256 r s := by
  unfold Lib.signPrehash
  cases h : L.key256 k with
  | none => simp
  | some x =>
    cases h2 : L.sign256 x d with
    | none => simp [h2]
    | some y =>
      obtain ⟨r, s⟩ := y
      simp only [Option.bind_some, h2]
      constructor
      · intro e
        exact ⟨x, r, s, rfl, h2, (Except.ok.inj e).symm⟩
      · rintro ⟨y, r', s', h3, h4, rfl⟩
        obtain rfl := Option.some.inj h3
        rw [h2] at h4
        obtain ⟨rfl, rfl⟩ := Prod.mk.inj (Option.some.inj h4)
        rfl

theorem std_prehash384 {k d : Bytes} {sig : Sig} : L.signPrehash .p384 k d = .ok sig ↔
    ∃ x r s, L.key384 k = some x ∧ L.sign384 x d = some (r, s) ∧ sig = .p384 r s := by
  unfold Lib.signPrehash
  cases h : L.key384 k with
  | none => simp
  | some x =>
    cases h2 : L.sign384 x d with
    | none => simp [h2]
    | some y =>
      obtain ⟨r, s⟩ := y
      simp only [Option.bind_some, h2]
      constructor
      · intro e
        exact ⟨x, r, s, rfl, h2, (Except.ok.inj e).symm⟩
      · rintro ⟨y, r', s', h3, h4, rfl⟩
        obtain rfl := Option.some.inj h3
        rw [h2] at h4
        obtain ⟨rfl, rfl⟩ := Prod.mk.inj (Option.some.inj h4)
        rfl

theorem std_signed {k : Bytes} {d : SignData} {sig : Sig} :
    signData (L.crypto p) k d = .ok sig ↔ StdSigned L p k d sig := by
  cases p
  · cases d <;> simp only [Lib.crypto, Lib.ecc256, Lib.prims, signData, StdSigned, Lib.signMessage]
    · exact std_prehash256
    · simp [mu256]
    · exact std_prehash256
    · exact std_prehash256
  · cases d <;> simp only [Lib.crypto, Lib.ecc384, Lib.prims, signData, StdSigned, Lib.signMessage]
    · exact std_prehash384
    · simp [mu384]
    · exact std_prehash384
    · exact std_prehash384
  · cases d <;> simp only [Lib.crypto, Lib.mldsa87, Lib.prims, signData, StdSigned, Lib.signMessage,
      Lib.signMu, ← seed87_iff]
    · simp [prehash87]
    · cases h : Lib.seed87 k <;> simp [eq_comm]
    · cases h : Lib.seed87 k <;> simp [eq_comm]
    · cases h : Lib.seed87 k <;> simp [eq_comm]

theorem std_alias {k : Bytes} : (L.crypto p).aliasKey = .ok k ↔ stdAlias L p = some k := by
  cases p
  · simp only [Lib.crypto, Lib.ecc256, Lib.prims, Lib.aliasKey, stdAlias]
    cases h : L.alias256 <;> simp
  · simp only [Lib.crypto, Lib.ecc384, Lib.prims, Lib.aliasKey, stdAlias]
    cases h : L.alias384 <;> simp
  · simp only [Lib.crypto, Lib.mldsa87, Lib.prims, Lib.aliasKey, stdAlias]
    cases h : L.alias87 <;> simp

theorem std_aliasSigned {a : Artifact} {m : Bytes} {sig : Sig} {w w' : Soft (L.crypto p) × Unit} :
    (deviceOps (L.crypto p) a).signAlias (.buffer m) w = (.ok sig, w') ↔ AliasSigned L p m sig ∧ w' = w := by
  show ((L.crypto p).aliasKey.bind fun k => signData (L.crypto p) k (.buffer m), w) = (.ok sig, w') ↔ _
  unfold AliasSigned
  rw [Prod.mk.injEq]
  constructor
  · rintro ⟨h1, rfl⟩
    cases h : (L.crypto p).aliasKey with
    | error e => rw [h] at h1; cases h1
    | ok k =>
      rw [h] at h1
      exact ⟨⟨k, std_alias.1 h, std_signed.1 h1⟩, rfl⟩
  · rintro ⟨⟨k, h1, h2⟩, rfl⟩
    rw [std_alias.2 h1]
    exact ⟨std_signed.2 h2, rfl⟩

end

/-! ### Keys and handles -/
section
variable {cfg : Cfg} {L : Lib} {a : Artifact} {st : State cfg} {loc : U32}

theorem std_leafKey {path : List Nat} {label cdi priv : Bytes} :
    LeafKey (L.crypto cfg.profile) cfg.profile (measuredBytes a st path) label cdi priv ↔
      StdLeafKey L a st path label cdi priv := by
  constructor
  · rintro ⟨h1, h2⟩
    rw [std_hash] at h1
    exact ⟨_, rfl, std_cdi.1 h1, std_key.1 h2⟩
  · rintro ⟨_, rfl, h1, h2⟩
    exact ⟨by rw [std_hash]; exact std_cdi.2 h1, std_key.2 h2⟩

theorem std_exportedKey {path : List Nat} {cdi priv : Bytes} :
    ExportedKey (L.crypto cfg.profile) cfg.profile (measuredBytes a st path) cdi priv ↔
      StdExportedKey L a st path cdi priv := by
  constructor
  · rintro ⟨h1, h2⟩
    rw [std_hash] at h1
    exact ⟨_, rfl, std_cdi.1 h1, std_key.1 h2⟩
  · rintro ⟨_, rfl, h1, h2⟩
    exact ⟨by rw [std_hash]; exact std_cdi.2 h1, std_key.2 h2⟩

end
section
variable {cfg : Cfg} {P : Prims} {a : Artifact} {st : State cfg} {loc : U32}

theorem std_chosen {asked : Prop} {w w' : Soft P × Unit} {h : Handle} :
    Chosen (deviceOps P a) st asked w h w' ↔
      ∃ r, StdChosen P st asked w.1.rng h r ∧ w' = ({ w.1 with rng := r }, ()) := by
  unfold Chosen StdChosen
  rw [lands_iff]
  constructor
  · rintro (⟨h1, h2, rfl⟩ | ⟨h1, r, h2, rfl⟩)
    · exact ⟨w'.1.rng, .inl ⟨h1, h2, rfl⟩, rfl⟩
    · exact ⟨r, .inr ⟨h1, h2⟩, rfl⟩
  · rintro ⟨r, ⟨h1, h2, rfl⟩ | ⟨h1, h2⟩, rfl⟩
    · exact .inl ⟨h1, h2, rfl⟩
    · exact .inr ⟨h1, r, h2, rfl⟩

theorem std_redrawn {old : Handle} {w w' : Soft P × Unit} {h : Handle} :
    Redrawn (deviceOps P a) st old w h w' ↔
      ∃ r, StdChosen P st (old = Handle.default) w.1.rng h r ∧ w' = ({ w.1 with rng := r }, ()) :=
  std_chosen

theorem std_parent {c : DeriveCmd cfg} {i : Nat} {w w' : Soft P × Unit} {h : Handle} {s : CtxState} :
    ParentUsed (deviceOps P a) st c (st.at i).handle w h s w' ↔
      ∃ r, StdParent P st c i w.1.rng h s r ∧ w' = ({ w.1 with rng := r }, ()) := by
  unfold ParentUsed StdParent
  rw [std_redrawn]
  constructor
  · rintro (⟨h1, h2, r, h3, rfl⟩ | ⟨h1, h2, h3, rfl⟩)
    · exact ⟨r, .inl ⟨h1, h2, h3⟩, rfl⟩
    · exact ⟨w'.1.rng, .inr ⟨h1, h2, h3, rfl⟩, rfl⟩
  · rintro ⟨r, ⟨h1, h2, h3⟩ | ⟨h1, h2, h3, rfl⟩, rfl⟩
    · exact .inl ⟨h1, h2, r, h3, rfl⟩
    · exact .inr ⟨h1, h2, h3, rfl⟩

/-! ### Certificates -/

theorem draft_ext {D E : Draft} (h1 : D.slot = E.slot) (h2 : D.path = E.path) (h3 : D.digest = E.digest)
    (h4 : D.key = E.key) (h5 : D.exportedCdi = E.exportedCdi) (h6 : D.nameHash = E.nameHash)
    (h7 : D.idHash = E.idHash) (h8 : D.issuerKeyId = E.issuerKeyId) (h9 : D.altName = E.altName)
    (h10 : D.validity = E.validity) (h11 : D.signer = E.signer) : D = E := by
  cases D; cases E; simp_all

end
section
variable {cfg : Cfg} {L : Lib} {a : Artifact} {st : State cfg} {loc : U32}

theorem std_baseDraft (ha : a.Fit) {i : Nat} {path : List Nat} {pk : PubKey} {x : Option (BArr 32)} {D : Draft} :
    (StdDraft L a st i path pk D ∧ D.exportedCdi = x) ↔ D = baseDraft (L.crypto cfg.profile) a st i path pk x := by
  constructor
  · rintro ⟨h, hx⟩
    refine draft_ext h.slot h.ancestry ?_ h.key hx ?_ ?_ ?_ h.altName h.validity h.signer
    · rw [h.digest]; simp only [baseDraft, std_hash]
    · rw [h.nameHash]; simp only [baseDraft, std_hash]
    · rw [h.idHash]; simp only [baseDraft, std_hash]
    · apply Vector.toList_inj.1
      rw [h.issuerKeyId]
      exact (zeroPadded_all ha.keyId).symm
  · rintro rfl
    exact ⟨⟨rfl, rfl, by rw [← std_hash]; rfl, rfl, by rw [← std_hash]; rfl, by rw [← std_hash]; rfl,
      zeroPadded_all ha.keyId, rfl, rfl, rfl⟩, rfl⟩


/-- The drafts of leaf certificates and requests. -/
theorem std_leafDrafted (ha : a.Fit) (hb : Built cfg a) (hL : L.Total) {kind : CertKind}
    (hk : kind ≠ .exportedX509) {h : Handle} {label : Bytes} {D : Draft} {w w' : Soft (L.crypto cfg.profile) × Unit} :
    Drafted (deviceOps (L.crypto cfg.profile) a) kind (leafArgs st h loc label) st w D w' ↔
      ∃ path cdi priv pk, Resolves st h loc D.slot ∧ Path st D.slot path ∧ StdLeafKey L a st path label cdi priv ∧
        StdPublic L cfg.profile priv pk ∧ StdDraft L a st D.slot path pk D ∧ D.exportedCdi = none ∧
        w' = ({ w.1 with hasher := none, cdi := cdi, priv := priv }, ()) := by
  have hP := hL.sound cfg.profile
  constructor
  · intro hD
    obtain ⟨hr, ⟨cdi, priv, hp, hl, hv⟩, _⟩ := device_leaf_drafted ha hb hP hk hD
    obtain ⟨E, hE, hE'⟩ := device_leaf_draft ha hb hP hk hr hp hl hv w
    obtain ⟨rfl, rfl⟩ := hD.det hE'
    obtain ⟨h1, h2⟩ := (std_baseDraft ha).2 hE
    exact ⟨_, cdi, priv, _, hr, hp, std_leafKey.1 hl, std_public.1 hv, h1, h2, rfl⟩
  · rintro ⟨path, cdi, priv, pk, hr, hp, hl, hv, hs, hx, rfl⟩
    obtain ⟨E, rfl, hE'⟩ := device_leaf_draft ha hb hP hk hr hp (std_leafKey.2 hl) (std_public.2 hv) w
    rw [← (std_baseDraft ha).1 ⟨hs, hx⟩] at hE'
    exact hE'

/-- The drafts of certificates for exported CDIs. -/
theorem std_exportDrafted (ha : a.Fit) (hb : Built cfg a) (hL : L.Total) {h : Handle} {ueid : Bytes} {D : Draft}
    {w w' : Soft (L.crypto cfg.profile) × Unit} :
    Drafted (deviceOps (L.crypto cfg.profile) a) .exportedX509 (exportedArgs st h loc ueid) st w D w' ↔
      ∃ path cdi priv pk, Resolves st h loc D.slot ∧ Path st D.slot path ∧ w.1.slots = [] ∧
        StdExportedKey L a st path cdi priv ∧
        StdPublic L cfg.profile priv pk ∧ StdDraft L a st D.slot path pk D ∧
        D.exportedCdi = some ((L.crypto cfg.profile).fill32 w.1.rng).1 ∧
        w' = ({ w.1 with
          hasher := none
          rng := ((L.crypto cfg.profile).fill32 w.1.rng).2
          cdi := cdi
          priv := priv
          slots := [(cdi, ((L.crypto cfg.profile).fill32 w.1.rng).1)] }, ()) := by
  have hP := hL.sound cfg.profile
  constructor
  · intro hD
    obtain ⟨hs, path, cdi, priv, hp, hl, pk, hv⟩ := device_export_drafted ha hb hP hD
    have hr : Resolves st h loc D.slot := by obtain ⟨_, _, _, _, _, _, _, _, _, h, _⟩ := hD; exact h
    obtain ⟨E, w2, hE, rfl, hE'⟩ := device_export_draft ha hb hP hr hp hl hv w hs (ueid := ueid)
    obtain ⟨rfl, rfl⟩ := hD.det hE'
    obtain ⟨h1, h2⟩ := (std_baseDraft ha).2 hE
    exact ⟨_, cdi, priv, _, hr, hp, hs, std_exportedKey.1 hl, std_public.1 hv, h1, h2, rfl⟩
  · rintro ⟨path, cdi, priv, pk, hr, hp, hs, hl, hv, hd, hx, rfl⟩
    obtain ⟨E, w2, rfl, rfl, hE'⟩ := device_export_draft ha hb hP hr hp (std_exportedKey.2 hl) (std_public.2 hv) w hs
      (ueid := ueid)
    rw [← (std_baseDraft ha).1 ⟨hd, hx⟩] at hE'
    exact hE'

theorem std_certificate (ha : a.Fit) {kind : CertKind} (hk : kind ≠ .leafCsr) {args : CertArgs} {D : Draft}
    {w w' : Soft (L.crypto cfg.profile) × Unit} {cert : Bytes} :
    (∃ t, Issued (deviceOps (L.crypto cfg.profile) a) args st D kind w t w' ∧ t.written = cert) ↔
      StdCertificate L a st args kind D cert ∧ w' = w := by
  constructor
  · rintro ⟨t, h, rfl⟩
    cases h with
    | certificate _ h1 _ h2 =>
      rw [device_issuer ha] at h1
      obtain ⟨g1, rfl⟩ := Prod.mk.inj h1
      obtain ⟨rfl, rfl⟩ := Prod.mk.inj (Except.ok.inj g1)
      rw [zeroPadded_take ha.issuer] at h2 ⊢
      obtain ⟨g2, rfl⟩ := std_aliasSigned.1 h2
      exact ⟨⟨_, g2, rfl⟩, rfl⟩
    | request => exact absurd rfl hk
  · rintro ⟨⟨sig, h1, rfl⟩, rfl⟩
    refine ⟨_, .certificate hk (device_issuer ha w') ha.issuer (sig := sig) ?_, ?_⟩
    · rw [zeroPadded_take ha.issuer]
      exact std_aliasSigned.2 ⟨h1, rfl⟩
    · rw [zeroPadded_take ha.issuer]

theorem std_request {args : CertArgs} {D : Draft} {path : List Nat} {h : Handle} {label cdi priv : Bytes}
    (hargs : args = leafArgs st h loc label)
    (hd : D.digest = stdHash L cfg.profile (measuredBytes a st path))
    (hl : StdLeafKey L a st path label cdi priv)
    {w w' : Soft (L.crypto cfg.profile) × Unit} {msg : Bytes} :
    (∃ t, Issued (deviceOps (L.crypto cfg.profile) a) args st D .leafCsr w t w' ∧ t.written = msg) ↔
      StdRequest L st args priv D msg ∧ w' = ({ w.1 with cdi := cdi, priv := priv }, ()) := by
  subst hargs
  have hl' := std_leafKey.2 hl
  rw [← std_hash] at hd
  constructor
  · rintro ⟨t, h, rfl⟩
    cases h with
    | certificate h => exact absurd rfl h
    | request h1 h2 h3 h4 =>
      rw [hd] at h1
      obtain ⟨c, g1, rfl⟩ := soft_cdi.1 h1
      obtain rfl := Except.ok.inj (g1.symm.trans hl'.cdiIs)
      obtain ⟨k, g2, rfl⟩ := soft_pair.1 h2
      obtain rfl := Except.ok.inj (g2.symm.trans hl'.privIs)
      obtain ⟨g3, rfl⟩ := device_sign.1 h3
      obtain ⟨g4, rfl⟩ := std_aliasSigned.1 h4
      exact ⟨⟨_, _, std_signed.1 g3, g4, rfl⟩, rfl⟩
  · rintro ⟨⟨sig, sig', h1, h2, rfl⟩, rfl⟩
    exact ⟨_, .request (cdi := ()) (key := ()) (soft_cdi.2 ⟨cdi, hd ▸ hl'.cdiIs, rfl⟩)
      (soft_pair.2 ⟨priv, hl'.privIs, rfl⟩) (device_sign.2 ⟨std_signed.2 h1, rfl⟩)
      (std_aliasSigned.2 ⟨h2, rfl⟩), rfl⟩

/-! ### Commands -/

/-- What serves the command on the reference device. -/
def StdIff (L : Lib) (a : Artifact) (st : State cfg) (loc : U32) (c : Cmd cfg) : Prop :=
  ∀ (w : Soft (L.crypto cfg.profile) × Unit) (reply : Bytes) (st' : State cfg)
    (w' : Soft (L.crypto cfg.profile) × Unit),
    Serves (deviceOps (L.crypto cfg.profile) a) st loc w c reply st' w' ↔ StdServes L a st loc w.1 c reply st' w'.1

theorem std_profile : StdIff L a st loc .getProfile := by
  intro w reply st' w'
  constructor
  · rintro ⟨vid, sku, w1, h1, h2, rfl, rfl⟩
    obtain ⟨g1, rfl⟩ := Prod.mk.inj h1
    obtain rfl := Except.ok.inj g1
    obtain ⟨g2, rfl⟩ := Prod.mk.inj h2
    obtain rfl := Except.ok.inj g2
    exact ⟨rfl, rfl, rfl⟩
  · rintro ⟨rfl, h, rfl⟩
    exact ⟨0, 0, w, rfl, Prod.ext rfl (Prod.ext h.symm rfl), rfl, rfl⟩

theorem std_chunk {chain : Bytes} {off n : Nat} (h : off < chain.length) (hn : n ≤ 2048) :
    (Vector.ofFn fun i : Fin 2048 => if i.1 < min n (chain.length - off) then chain.getD (off + i.1) 0 else 0).toList =
      ((chain.drop off).take n ++ List.replicate 2048 0).take 2048 := by
  generalize hm : 2048 = m at hn ⊢
  apply List.ext_getElem
  · simp
  · intro i h1 h2
    have hi : i < m := by simpa using h1
    simp only [Vector.getElem_toList, Vector.getElem_ofFn, List.getElem_take]
    rw [List.getElem_append]
    split
    · rename_i h3
      rw [dif_pos (by simpa using h3)]
      have : off + i < chain.length := by omega
      simp [this]
    · rename_i h3
      rw [dif_neg (by simpa using h3)]
      simp

theorem std_chain (ha : a.Fit) {c : ChainCmd} (hno : NoRefusal (rules st loc (.chain c))) :
    StdIff L a st loc (.chain c) := by
  intro w reply st' w'
  simp only [NoRefusal, rules, earlyRules, lateRules, List.append_nil,
    List.mem_cons, List.not_mem_nil, or_false, forall_eq] at hno
  have hno : c.size.toNat ≤ 2048 := Nat.not_lt.1 hno
  have key : c.offset.toNat < a.chain.length → ((defaultPlatform a).certChain c.offset c.size ()).1 =
      .ok (BitVec.ofNat 32 (min c.size.toNat (a.chain.length - c.offset.toNat)),
        Vector.ofFn fun i => if i.1 < min c.size.toNat (a.chain.length - c.offset.toNat)
          then a.chain.getD (c.offset.toNat + i.1) 0 else 0) := by
    intro h
    have e1 : (BitVec.ofNat 32 a.chain.length).toNat = a.chain.length :=
      Nat.mod_eq_of_lt (by have := ha.short; omega)
    have hd : defaultChain a.chain c.offset c.size = some (.ok
        (BitVec.ofNat 32 (min c.size.toNat (a.chain.length - c.offset.toNat)),
        Vector.ofFn fun i => if i.1 < min c.size.toNat (a.chain.length - c.offset.toNat)
          then a.chain.getD (c.offset.toNat + i.1) 0 else 0)) := by
      unfold defaultChain
      have e2 : min (c.offset.toNat + c.size.toNat) a.chain.length - c.offset.toNat =
          min c.size.toNat (a.chain.length - c.offset.toNat) := by omega
      simp only [e1, e2]
      rw [if_neg (by omega), if_neg (by have := ha.short; omega), if_neg (by omega)]
    rw [servesChain_default a _ _ _ _ hd]
  constructor
  · rintro ⟨len, chunk, h, rfl, rfl⟩
    obtain ⟨h1, rfl⟩ := Prod.mk.inj h
    have hlt : c.offset.toNat < a.chain.length := by
      refine Nat.not_le.1 fun ho => ?_
      rw [show w.2 = () from rfl, default_outside ha ho] at h1
      cases h1
    rw [show w.2 = () from rfl, key hlt] at h1
    obtain ⟨rfl, rfl⟩ := Prod.mk.inj (Except.ok.inj h1)
    refine ⟨hlt, rfl, rfl, ?_⟩
    rw [std_chunk hlt hno]
  · rintro ⟨hlt, rfl, h, rfl⟩
    exact ⟨_, _, Prod.ext (key hlt) (Prod.ext h.symm rfl), rfl, by rw [std_chunk hlt hno]⟩

theorem std_init {f : U32} : StdIff L a st loc (.init f) := by
  intro w reply st' w'
  constructor
  · rintro ⟨i, h, h1, h2, h3, h4, h5, h6, h7⟩
    obtain ⟨r, g2, rfl⟩ := std_chosen.1 h2
    exact ⟨i, h, r, h1, g2, h3, h4, h5, h6, rfl, h7⟩
  · rintro ⟨i, h, r, h1, h2, h3, h4, h5, h6, h, h7⟩
    exact ⟨i, _, h1, std_chosen.2 ⟨r, h2, Prod.ext h rfl⟩, h3, h4, h5, h6, h7⟩

theorem std_rotate {c : RotateCmd} : StdIff L a st loc (.rotate c) := by
  intro w reply st' w'
  constructor
  · rintro ⟨i, h, h1, h2, h3, h4⟩
    obtain ⟨r, g2, rfl⟩ := std_chosen.1 h2
    exact ⟨i, h, r, h1, g2, h3, rfl, h4⟩
  · rintro ⟨i, h, r, h1, h2, h3, h, h4⟩
    exact ⟨i, _, h1, std_chosen.2 ⟨r, h2, Prod.ext h rfl⟩, h3, h4⟩

theorem std_destroy {h : Handle} : StdIff L a st loc (.destroy h) := by
  intro w reply st' w'
  constructor
  · rintro ⟨i, h1, h2, rfl, h3⟩
    exact ⟨i, h1, h2, rfl, h3⟩
  · rintro ⟨i, h1, h2, h, h3⟩
    exact ⟨i, h1, h2, Prod.ext h rfl, h3⟩

theorem std_sign (ha : a.Fit) (hb : Built cfg a) (hL : L.Total) {c : SignCmd} : StdIff L a st loc (.sign c) := by
  intro w reply st' w'
  have hP := hL.sound cfg.profile
  constructor
  · rintro ⟨i, path, k, sig, w1, w2, h, hr, hp, h1, h2, h3, h4, h5⟩
    obtain ⟨cdi, priv, hl, rfl⟩ := (device_signingKey ha hb hP).1 h1
    obtain ⟨g2, rfl⟩ := device_sign.1 h2
    obtain ⟨r, g3, rfl⟩ := std_redrawn.1 h3
    exact ⟨i, path, cdi, priv, sig, h, r, hr, hp, std_leafKey.1 hl, std_signed.1 g2, g3, h4, rfl, h5⟩
  · rintro ⟨i, path, cdi, priv, sig, h, r, hr, hp, hl, g2, h3, h4, hw, h5⟩
    exact ⟨i, path, (), sig, _, _, h, hr, hp, (device_signingKey ha hb hP).2 ⟨cdi, priv, std_leafKey.2 hl, rfl⟩,
      device_sign.2 ⟨std_signed.2 g2, rfl⟩, std_redrawn.2 ⟨r, h3, Prod.ext hw rfl⟩, h4, h5⟩

theorem std_update (hL : L.Total) {c : UpdateCmd cfg} : StdIff L a st loc (.update c) := by
  intro w reply st' w'
  have hP := hL.sound cfg.profile
  constructor
  · rintro ⟨i, k, v, w1, hp, w2, st1, hc, hr, hk, h1, h2, h3, h4, h5, h6⟩
    obtain ⟨g1, rfl⟩ := (extended_iff hP).1 h1
    obtain ⟨r, g2, rfl⟩ := lands_iff.1 h2
    obtain ⟨r', g4, rfl⟩ := std_redrawn.1 h4
    rw [std_hash] at g1
    exact ⟨i, k, v, hp, r, st1, hc, r', hr, hk, g1, g2, h3, g4, h5, rfl, h6⟩
  · rintro ⟨i, k, v, hp, r, st1, hc, r', hr, hk, g1, h2, h3, h4, h5, hw, h6⟩
    rw [← std_hash] at g1
    exact ⟨i, k, v, _, hp, _, st1, hc, hr, hk, (extended_iff hP).2 ⟨g1, rfl⟩, lands_iff.2 ⟨r, h2, rfl⟩, h3,
      std_redrawn.2 ⟨r', h4, Prod.ext hw rfl⟩, h5, h6⟩

theorem std_certify (ha : a.Fit) (hb : Built cfg a) (hL : L.Total) {c : CertifyCmd} :
    StdIff L a st loc (.certify c) := by
  intro w reply st' w'
  have hP := hL.sound cfg.profile
  constructor
  · rintro ⟨kind, D, w1, t, w2, h, hf, hD, hI, hw, _, h3, h4, h5⟩
    have hk : kind ≠ .exportedX509 := by
      rintro rfl; rcases hf with ⟨_, h⟩ | ⟨_, h⟩ <;> cases h
    obtain ⟨path, cdi, priv, pk, hr, hp, hl, hv, hs, hx, rfl⟩ := (std_leafDrafted ha hb hL hk).1 hD
    obtain ⟨r, g3, rfl⟩ := std_redrawn.1 h3
    have hw' := (wants_iff (hP.pubOf (std_public.2 hv))).1 (hs.key ▸ hw)
    rcases hf with ⟨hf, rfl⟩ | ⟨hf, rfl⟩
    · obtain ⟨hc, rfl⟩ := (std_certificate ha (by decide)).1 ⟨t, hI, rfl⟩
      exact ⟨D.slot, path, cdi, priv, pk, D, _, h, r, hr, hp, hl, hv, hs, hw', .inl ⟨hf, hc⟩, g3, h4, rfl,
        hs.key ▸ h5⟩
    · obtain ⟨hc, rfl⟩ := (std_request rfl hs.digest hl).1 ⟨t, hI, rfl⟩
      exact ⟨D.slot, path, cdi, priv, pk, D, _, h, r, hr, hp, hl, hv, hs, hw', .inr ⟨hf, hc⟩, g3, h4, rfl,
        hs.key ▸ h5⟩
  · rintro ⟨i, path, cdi, priv, pk, D, cert, h, r, hr, hp, hl, hv, hs, hw, hc, h3, h4, hx, rfl⟩
    have hkey := hs.key
    have hslot := hs.slot
    subst hslot hkey
    have hw' := (wants_iff (hP.pubOf (std_public.2 hv))).2 hw
    -- the exported CDI of the draft plays no role
    have hs0 : StdDraft L a st D.slot path D.key { D with exportedCdi := none } := ⟨rfl, hs.ancestry, hs.digest, rfl,
      hs.nameHash, hs.idHash, hs.issuerKeyId, hs.altName, hs.validity, hs.signer⟩
    have fin : ∀ (kind : CertKind) (hk : kind ≠ .exportedX509) (hf : Format c.format kind) (t : Asn)
        (w2 : Soft (L.crypto cfg.profile) × Unit)
        (hI : Issued (deviceOps (L.crypto cfg.profile) a) (leafArgs st c.handle loc c.label) st
          { D with exportedCdi := none } kind
          ({ w.1 with hasher := none, cdi := cdi, priv := priv }, ()) t w2)
        (hw2 : w2 = ({ w.1 with hasher := none, cdi := cdi, priv := priv }, ())) (ht : t.written = cert),
        Serves (deviceOps (L.crypto cfg.profile) a) st loc w (.certify c)
          (certifyReply cfg.profile h D.key cert) st' w' := by
      intro kind hk hf t w2 hI hw2 ht
      have hD := (std_leafDrafted (D := { D with exportedCdi := none }) (w := w) ha hb hL hk).2
        ⟨path, cdi, priv, D.key, hr, hp, hl, hv, hs0, rfl, rfl⟩
      have hlen := device_short ha hb hP hD hI (by
        show c.label.length ≤ 48
        rw [CertifyCmd.label_length hw' (hP.pubOf (std_public.2 hv))]
        cases cfg.profile <;> decide)
      subst ht hw2
      exact ⟨kind, { D with exportedCdi := none }, _, t, _, h, hf, hD, hI, hw', by omega,
        std_redrawn.2 ⟨r, h3, Prod.ext hx rfl⟩, h4, rfl⟩
    rcases hc with ⟨hf, hc⟩ | ⟨hf, hc⟩
    · obtain ⟨t, hI, ht⟩ := (std_certificate (D := { D with exportedCdi := none }) (cert := cert) ha
        (kind := .leafX509) (by decide) (args := leafArgs st c.handle loc c.label)
        (w := ({ w.1 with hasher := none, cdi := cdi, priv := priv }, ()))).2 ⟨hc, rfl⟩
      exact fin .leafX509 (by decide) (.inl ⟨hf, rfl⟩) t _ hI rfl ht
    · obtain ⟨t, hI, ht⟩ := (std_request (D := { D with exportedCdi := none }) (msg := cert) (a := a)
        (args := leafArgs st c.handle loc c.label) rfl hs.digest hl
        (w := ({ w.1 with hasher := none, cdi := cdi, priv := priv }, ()))).2 ⟨hc, rfl⟩
      exact fin .leafCsr (by decide) (.inr ⟨hf, rfl⟩) t _ hI rfl ht

theorem std_derive (ha : a.Fit) (hb : Built cfg a) (hL : L.Total) {c : DeriveCmd cfg} :
    StdIff L a st loc (.derive c) := by
  intro w reply st' w'
  have hP := hL.sound cfg.profile
  have hu : (zeroPadded 48 (List.replicate 17 0x0A)).toList.take (17 : U32).toNat = List.replicate 17 0x0A := by
    have := zeroPadded_take (n := 48) (b := List.replicate 17 0x0A) (by decide)
    rw [List.length_replicate] at this
    exact this
  refine exists_congr fun i => and_congr_right fun hr => ?_
  unfold StdDerives
  split
  · constructor
    · rintro ⟨v, w1, h, h1, h2, h3, h4⟩
      obtain ⟨g1, rfl⟩ := (extended_iff hP).1 h1
      obtain ⟨r, g2, rfl⟩ := std_redrawn.1 h2
      rw [std_hash] at g1
      exact ⟨v, h, r, g1, g2, h3, rfl, h4⟩
    · rintro ⟨v, h, r, g1, h2, h3, hw, h4⟩
      rw [← std_hash] at g1
      exact ⟨v, _, h, (extended_iff hP).2 ⟨g1, rfl⟩, std_redrawn.2 ⟨r, h2, Prod.ext hw rfl⟩, h3, h4⟩
  · split
    · constructor
      · rintro ⟨hp, s, w0, u, k, w1, D, w2, t, cdi, h1, h2, _, rfl, hD, hI, _, hx, h8, h9⟩
        obtain ⟨r, g1, rfl⟩ := std_parent.1 h1
        obtain ⟨g2, rfl⟩ := Prod.mk.inj h2
        obtain ⟨rfl, rfl⟩ := Prod.mk.inj (Except.ok.inj g2)
        rw [hu] at hD hI
        obtain ⟨path, xcdi, priv, pk, _, hpath, hs, hl, hv, hd, hc, rfl⟩ := (std_exportDrafted ha hb hL).1 hD
        obtain ⟨hcert, rfl⟩ := (std_certificate ha (by decide)).1 ⟨t, hI, rfl⟩
        obtain rfl := Option.some.inj (hx.symm.trans hc)
        exact ⟨hp, s, r, path, xcdi, priv, pk, D, _, g1, hs, hpath, hl, hv, hd, hcert, h8, rfl, h9⟩
      · rintro ⟨hp, s, r, path, xcdi, priv, pk, D, cert, h1, hs, hpath, hl, hv, hd, hcert, h8, hw, rfl⟩
        have hslot := hd.slot
        subst hslot
        have hs0 : StdDraft L a st D.slot path pk
            { D with exportedCdi := some ((L.crypto cfg.profile).fill32 r).1 } :=
          ⟨rfl, hd.ancestry, hd.digest, hd.key,
            hd.nameHash, hd.idHash, hd.issuerKeyId, hd.altName, hd.validity, hd.signer⟩
        have hD := (std_exportDrafted (D := { D with exportedCdi := some ((L.crypto cfg.profile).fill32 r).1 })
          (h := c.handle) (loc := loc) (ueid := List.replicate 17 0x0A) (w := ({ w.1 with rng := r }, ())) ha hb hL).2
          ⟨path, xcdi, priv, pk, hr, hpath, hs, hl, hv, hs0, rfl, rfl⟩
        obtain ⟨t, hI, ht⟩ := (std_certificate (D := { D with exportedCdi := some ((L.crypto cfg.profile).fill32 r).1 })
          (cert := cert) ha (kind := .exportedX509) (by decide)
          (args := exportedArgs st c.handle loc (List.replicate 17 0x0A)) (w := w')).2 ⟨hcert, rfl⟩
        have hw : w' = (_, ()) := Prod.ext hw rfl
        rw [hw] at hI
        have hlen := device_short ha hb hP hD hI (by
          show (List.replicate 17 (0x0A : UInt8)).length ≤ 48
          decide)
        subst ht
        rw [← hu] at hD hI
        subst hw
        exact ⟨hp, s, ({ w.1 with rng := r }, ()), zeroPadded 48 (List.replicate 17 0x0A), 17,
          ({ w.1 with rng := r }, ()), { D with exportedCdi := some ((L.crypto cfg.profile).fill32 r).1 }, _, t, _,
          std_parent.2 ⟨r, h1, rfl⟩, rfl, by decide, rfl, hD, hI, by omega, rfl, h8, rfl⟩
    · constructor
      · rintro ⟨k, hp, s, w1, h, w2, v, kids, hk, h1, h2, h3, h4, h5, h6, h7, h8, h9⟩
        obtain ⟨r, e1, rfl⟩ := std_parent.1 h1
        obtain ⟨r', e2, rfl⟩ := std_chosen.1 h2
        obtain ⟨g1, rfl⟩ := (extended_iff hP).1 h3
        rw [std_hash, Vector.toList_replicate] at g1
        exact ⟨k, hp, s, r, h, r', v, kids, hk, e1, e2, g1, h4, h5, h6, h7, h8, rfl, h9⟩
      · rintro ⟨k, hp, s, r, h, r', v, kids, hk, h1, h2, g1, h4, h5, h6, h7, h8, hw, h9⟩
        rw [← std_hash, ← Vector.toList_replicate] at g1
        exact ⟨k, hp, s, _, h, _, v, kids, hk, std_parent.2 ⟨r, h1, rfl⟩, std_chosen.2 ⟨r', h2, rfl⟩,
          (extended_iff hP).2 ⟨g1, Prod.ext hw rfl⟩, h4, h5, h6, h7, h8, h9⟩

/-- Every command. -/
theorem std_iff (ha : a.Fit) (hb : Built cfg a) (hL : L.Total) {c : Cmd cfg}
    (hno : NoRefusal (rules st loc c)) : StdIff L a st loc c := by
  cases c with
  | getProfile => exact std_profile
  | init f => exact std_init
  | certify k => exact std_certify ha hb hL
  | sign k => exact std_sign ha hb hL
  | rotate k => exact std_rotate
  | destroy h => exact std_destroy
  | chain k => exact std_chain ha hno
  | update k => exact std_update hL
  | derive k => exact std_derive ha hb hL

end
end Dpe
