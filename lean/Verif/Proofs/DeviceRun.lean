import Verif.Proofs.Device
import Verif.Proofs.Complete
import Verif.Props.Limits
/-
The commands of the reference device: what stands in the way, and nothing else does.
-/
namespace Dpe
variable {cfg : Cfg} {P : Prims} {a : Artifact} {st : State cfg} {loc : U32}

/-- The reference device for given primitives. -/
abbrev deviceOps (P : Prims) (a : Artifact) : Ops (Soft P × Unit) := softOps P (defaultPlatform a)

/-! ### What is assumed elsewhere holds -/

theorem device_genuine {p : Profile} (hP : P.Sound p) : Genuine p (deviceOps P a) where
  key _ _ _ _ h := hP.pubOf (Prod.mk.inj h).1
  sign _ _ _ _ _ h := hP.sigOf (Prod.mk.inj h).1
  signAlias d w sig w' h := by
    obtain ⟨k, hk, _⟩ := hP.aliasOk
    have h := (Prod.mk.inj h).1
    rw [hk] at h
    exact hP.sigOf h

theorem device_fits (hP : P.Sound cfg.profile) : AlgorithmFits cfg (deviceOps P a) := hP.mldsa

theorem device_issuer (ha : a.Fit) (w : Soft P × Unit) : (deviceOps P a).issuerName w =
    (.ok (a.issuer.length, zeroPadded 128 a.issuer), w) := by
  have : ¬ 128 < a.issuer.length := Nat.not_lt.2 ha.issuer
  simp only [softOps, defaultPlatform, if_neg this]

theorem device_signer (ha : a.Fit) (w : Soft P × Unit) : (deviceOps P a).signerId w =
    (.ok (.issuerAndSerial a.issuer a.serial), w) := by
  have h1 : ¬ 128 < a.issuer.length := Nat.not_lt.2 ha.issuer
  have h2 : ¬ 20 < a.serial.length := Nat.not_lt.2 ha.serialShort
  simp only [softOps, defaultPlatform, if_neg h1, if_neg h2]

theorem device_keyId (ha : a.Fit) (w : Soft P × Unit) : (deviceOps P a).issuerKeyId w =
    (.ok (zeroPadded 20 a.keyId), w) := by
  have h1 : ¬ a.keyId.length < 20 := Nat.not_lt.2 ha.keyId
  simp only [softOps, defaultPlatform, if_neg h1]

theorem device_serial (ha : a.Fit) : SerialGiven (deviceOps P a) := by
  intro w i w' h
  rw [device_signer ha] at h
  have h := Except.ok.inj (Prod.mk.inj h).1
  injection h with _ h
  exact ha.serial h

theorem device_decent (ha : a.Fit) (hP : P.Sound cfg.profile) : Decent cfg (deviceOps P a) where
  fits := device_fits hP
  serial := device_serial ha
  issuer := by
    intro w n name w' h _
    rw [device_issuer ha] at h
    have h := Except.ok.inj (Prod.mk.inj h).1
    obtain ⟨rfl, rfl⟩ := Prod.mk.inj h
    rw [zeroPadded_take ha.issuer]
    obtain ⟨x, hx⟩ := ha.issuerSeq
    exact ⟨x, hx, ha.issuerDer⟩
  signer := by
    intro w i sn w' h
    rw [device_signer ha] at h
    have h := Except.ok.inj (Prod.mk.inj h).1
    injection h with h _
    rw [← h]
    exact ha.issuerDer

theorem device_steady : Steady (defaultPlatform a) := ⟨fun _ _ => rfl, fun _ _ => rfl, fun _ _ _ _ => rfl⟩

theorem device_der (ha : a.Fit) : ServesDer (defaultPlatform a) := by
  intro w len b w' h
  have hl := ha.short
  have hpos : 0 < a.chain.length := by
    rcases hc : a.chain with _ | ⟨x, l⟩
    · have := ha.der; rw [hc] at this; cases this
    · simp
  obtain ⟨chunk, h1, h2⟩ := defaultChain_in (size := 2048) hl hpos (Nat.le_refl _)
  change defaultChain a.chain 0 2048 = _ at h1
  rw [servesChain_default a _ _ _ _ h1] at h
  have h := Except.ok.inj (Prod.mk.inj h).1
  obtain ⟨rfl, rfl⟩ := Prod.mk.inj h
  have e2 : (BitVec.ofNat 32 (min 2048 (a.chain.length - 0))).toNat
    = min 2048 (a.chain.length - 0) := Nat.mod_eq_of_lt (by omega)
  rw [e2, h2, List.drop_zero, List.head?_take]
  simpa using ha.der

theorem device_platform (ha : a.Fit) {handles label : Nat} {p : Profile} :
    PlatformData (deviceOps P a) (platformLimits p handles label) where
  issuer w n b w' h := by
    rw [device_issuer ha] at h
    have h := Except.ok.inj (Prod.mk.inj h).1
    obtain ⟨rfl, _⟩ := Prod.mk.inj h
    exact ha.issuer
  validity w v w' h := by
    have h := Except.ok.inj (Prod.mk.inj h).1
    subst h
    exact ⟨(by decide : (15 : Nat) ≤ 24), (by decide : (15 : Nat) ≤ 24)⟩
  alt w o w' h := by cases (Prod.mk.inj h).1
  signer w sid w' h := by
    rw [device_signer ha] at h
    have h := Except.ok.inj (Prod.mk.inj h).1
    subst h
    have e : (signerIdentifier' (.issuerAndSerial a.issuer a.serial)).der.length =
        tlvLen [a.issuer.length, tlvLen (intBody (beValue a.serial)).length].sum := by
      simp only [signerIdentifier', seqOf, asnInt, Asn.der, Asn.ders, List.nil_append, List.append_nil,
        tlv_length, List.length_append, List.sum_cons, List.sum_nil, Nat.add_zero]
    rw [e]
    have h1 : (intBody (beValue a.serial)).length ≤ 21 := intBody_length_le (k := 20)
      (Nat.lt_of_lt_of_le (beValue_lt _) (Nat.pow_le_pow_right (by decide) ha.serialShort))
    have h2 := tlvLen_mono h1
    rw [show tlvLen 21 = 23 by decide] at h2
    have h3 := ha.issuer
    refine Nat.le_trans (tlvLen_mono (b := 151) ?_) (show tlvLen 151 ≤ 154 by decide)
    simp only [List.sum_cons, List.sum_nil]
    omega

/-! ### Keys -/

theorem soft_cdi {d i : Bytes} {w w' : Soft P × Unit} {c : Unit} :
    (deviceOps P a).deriveCdi d i w = (.ok c, w') ↔
      ∃ cdi, P.hkdfCdi d i = .ok cdi ∧ w' = ({ w.1 with cdi := cdi }, w.2) := by
  simp only [deviceOps, softOps, Soft.deriveCdi]
  cases h : P.hkdfCdi d i with
  | error e => simp
  | ok cdi => simp [eq_comm]

theorem soft_pair {c : Unit} {l i : Bytes} {w w' : Soft P × Unit} {k : Unit} :
    (deviceOps P a).deriveKeyPair c l i w = (.ok k, w') ↔
      ∃ priv, P.hkdfKey w.1.cdi l i = .ok priv ∧ w' = ({ w.1 with priv := priv }, w.2) := by
  simp only [deviceOps, softOps, Soft.deriveKeyPair]
  cases h : P.hkdfKey w.1.cdi l i with
  | error e => simp
  | ok priv => simp [eq_comm]

theorem device_signingKey (ha : a.Fit) (hb : Built cfg a) (hP : P.Sound cfg.profile) {path : List Nat}
    {label : Bytes} {w w' : Soft P × Unit} {k : Unit} :
    SigningKey (deviceOps P a) st path label w k w' ↔ ∃ cdi priv,
      LeafKey P cfg.profile (measuredBytes a st path) label cdi priv ∧
      w' = ({ w.1 with hasher := none, cdi := cdi, priv := priv }, w.2) := by
  constructor
  · rintro ⟨d, c, w1, w2, h1, h2, h3⟩
    obtain ⟨rfl, rfl⟩ := (device_measured ha hb hP).1 h1
    obtain ⟨cdi, h4, rfl⟩ := soft_cdi.1 h2
    obtain ⟨priv, h5, rfl⟩ := soft_pair.1 h3
    exact ⟨cdi, priv, ⟨h4, h5⟩, rfl⟩
  · rintro ⟨cdi, priv, ⟨h4, h5⟩, rfl⟩
    exact ⟨_, (), _, _, (device_measured ha hb hP).2 ⟨rfl, rfl⟩, soft_cdi.2 ⟨cdi, h4, rfl⟩,
      soft_pair.2 ⟨priv, h5, rfl⟩⟩

theorem device_exportedCdi {d i : Bytes} {w w' : Soft P × Unit} {hd : BArr 32} :
    (deviceOps P a).deriveExportedCdi d i w = (.ok hd, w') ↔
      ∃ cdi, P.hkdfCdi d i = .ok cdi ∧ w.1.slots = [] ∧ hd = (P.fill32 w.1.rng).1 ∧
        w' = ({ w.1 with rng := (P.fill32 w.1.rng).2, slots := [(cdi, hd)] }, w.2) := by
  simp only [deviceOps, softOps, Soft.deriveExportedCdi]
  cases h : P.hkdfCdi d i with
  | error e => simp
  | ok cdi =>
    simp only
    rcases hs : w.1.slots with _ | ⟨x, l⟩
    · simp only [List.any_nil, Bool.false_eq_true, if_false, maxCdiHandles, List.length_nil,
        show ¬ 1 ≤ 0 by omega, List.nil_append]
      constructor
      · intro h
        obtain ⟨h1, rfl⟩ := Prod.mk.inj h
        obtain rfl := Except.ok.inj h1
        exact ⟨cdi, rfl, trivial, rfl, rfl⟩
      · rintro ⟨_, h1, _, rfl, rfl⟩
        obtain rfl := Except.ok.inj h1
        rfl
    · constructor
      · intro h
        split at h
        · simp at h
        · split at h
          · simp at h
          · rename_i h2
            simp [maxCdiHandles] at h2
      · rintro ⟨_, _, h2, _⟩
        cases h2

theorem device_exportedPair {hd : BArr 32} {cdi l i : Bytes} {w w' : Soft P × Unit} {k : Unit}
    (hs : w.1.slots = [(cdi, hd)]) : (deviceOps P a).deriveKeyPairExported hd l i w = (.ok k, w') ↔
      ∃ priv, P.hkdfKey cdi l i = .ok priv ∧ w' = ({ w.1 with cdi := cdi, priv := priv }, w.2) := by
  simp only [deviceOps, softOps, Soft.deriveKeyPairExported, hs, List.find?_cons, beq_self_eq_true,
    Soft.deriveKeyPair]
  cases h : P.hkdfKey cdi l i with
  | error e => simp
  | ok priv => simp [eq_comm]

theorem device_public {k : Unit} {priv : Bytes} {pk : PubKey} (hv : P.pub priv = .ok pk) (w : Soft P × Unit)
    (hw : w.1.priv = priv) : (deviceOps P a).publicKey k w = (.ok pk, w) := by
  subst hw
  exact Prod.ext hv rfl

/-- Signatures. -/
theorem device_sign {k : Unit} {d : SignData} {w w' : Soft P × Unit} {sig : Sig} :
    (deviceOps P a).sign k d w = (.ok sig, w') ↔ signData P w.1.priv d = .ok sig ∧ w' = w := by
  simp [deviceOps, softOps, eq_comm]

theorem device_alias {p : Profile} (hP : P.Sound p) (d : Bytes) (w : Soft P × Unit) :
    ∃ sig, (deviceOps P a).signAlias (.buffer d) w = (.ok sig, w) := by
  obtain ⟨k, h1, h2⟩ := hP.aliasOk
  obtain ⟨sig, h3⟩ := (hP.raw k d).2 h2
  refine ⟨sig, ?_⟩
  simp only [deviceOps, softOps, h1]
  exact Prod.ext h3 rfl

theorem device_message {c : SignCmd} (hP : P.Sound cfg.profile) {priv : Bytes} :
    (∃ sig, signData P priv c.message = .ok sig) ↔ ValidKey P priv ∧ c.Suits cfg.profile := by
  cases c with
  | p256 h l f d =>
    simp only [SignCmd.message, signData, SignCmd.Suits]
    by_cases hm : cfg.profile = .mldsa87
    · simp [hm, hP.noDigest hm]
    · rw [hP.digest hm _ _ (by simp)]
      exact ⟨fun h => ⟨h, hm⟩, fun h => h.1⟩
  | p384 h l f d =>
    simp only [SignCmd.message, signData, SignCmd.Suits]
    by_cases hm : cfg.profile = .mldsa87
    · simp [hm, hP.noDigest hm]
    · rw [hP.digest hm _ _ (by simp)]
      exact ⟨fun h => ⟨h, hm⟩, fun h => h.1⟩
  | mldsa87 h l f d =>
    simp only [SignCmd.message, signData, SignCmd.Suits]
    by_cases hm : cfg.profile = .mldsa87
    · rw [hP.mu hm]
      exact ⟨fun h => ⟨h, hm⟩, fun h => h.1⟩
    · simp [hP.noMu hm, hm]
  | mldsa87Raw h l f n d =>
    simp only [SignCmd.message, signData, SignCmd.Suits]
    rw [hP.raw]
    exact ⟨fun h => ⟨h, trivial⟩, fun h => h.1⟩

/-! ### Certificates -/

/-- The ingredients of a certificate or request. -/
def baseDraft (P : Prims) (a : Artifact) (st : State cfg) (i : Nat) (path : List Nat) (pk : PubKey)
    (x : Option (BArr 32)) : Draft :=
  ⟨i, path, P.hash (measuredBytes a st path), pk, x, P.hash (keyChunks pk).flatten,
    P.hash (keyChunks pk).flatten, zeroPadded 20 a.keyId, none,
    ⟨ascii "20230227000000Z", ascii "99991231235959Z"⟩, .issuerAndSerial a.issuer a.serial⟩

/-- The ingredients of a leaf certificate or request. -/
theorem device_leaf_draft (ha : a.Fit) (hb : Built cfg a) (hP : P.Sound cfg.profile) {kind : CertKind}
    (hk : kind ≠ .exportedX509) {h : Handle} {label : Bytes} {i : Nat} {path : List Nat} {cdi priv : Bytes}
    {pk : PubKey} (hr : Resolves st h loc i) (hp : Path st i path)
    (hl : LeafKey P cfg.profile (measuredBytes a st path) label cdi priv) (hv : P.pub priv = .ok pk)
    (w : Soft P × Unit) : ∃ D, D = baseDraft P a st i path pk none ∧
      Drafted (deviceOps P a) kind (leafArgs st h loc label) st w D
        ({ w.1 with hasher := none, cdi := cdi, priv := priv }, w.2) := by
  have h48 : digestLength cfg.profile ≤ 48 := by cases cfg.profile <;> decide
  have h20 : 20 ≤ digestLength cfg.profile := by cases cfg.profile <;> decide
  let x : Soft P × Unit := ({ w.1 with hasher := none, cdi := cdi, priv := priv }, w.2)
  refine ⟨baseDraft P a st i path pk none, rfl,
    (), _, x, x, x, x, x, x, x, hr, hp, (device_measured ha hb hP).2 ⟨rfl, rfl⟩, ?_, device_public hv _ rfl, ?_, ?_,
    (hashed_iff hP).2 ⟨rfl, rfl⟩, ?_, (hashed_iff hP).2 ⟨rfl, rfl⟩, ?_, device_keyId ha _, rfl, rfl,
    device_signer ha _⟩
  · cases kind with
    | exportedX509 => exact absurd rfl hk
    | leafX509 => exact ⟨(), _, rfl, soft_cdi.2 ⟨cdi, hl.cdiIs, rfl⟩, soft_pair.2 ⟨priv, hl.privIs, rfl⟩⟩
    | leafCsr => exact ⟨(), _, rfl, soft_cdi.2 ⟨cdi, hl.cdiIs, rfl⟩, soft_pair.2 ⟨priv, hl.privIs, rfl⟩⟩
  · have hko := hP.pubOf hv
    show mldsaKey pk = P.mldsa
    apply Bool.eq_iff_iff.mpr
    rw [hP.mldsa]
    cases hpr : cfg.profile <;> rw [hpr] at hko <;> cases pk <;> simp_all [KeyOf, mldsaKey]
  · show P.digestSize ≤ 48
    rw [hP.size]; exact h48
  · show (P.hash _).length ≤ 48
    rw [hP.hash, hP.size]; exact h48
  · show 20 ≤ (P.hash _).length
    rw [hP.hash, hP.size]; exact h20

/-- What a leaf draft says about the key. -/
theorem device_leaf_drafted (ha : a.Fit) (hb : Built cfg a) (hP : P.Sound cfg.profile) {kind : CertKind}
    (hk : kind ≠ .exportedX509) {h : Handle} {label : Bytes} {D : Draft} {w w' : Soft P × Unit}
    (hD : Drafted (deviceOps P a) kind (leafArgs st h loc label) st w D w') :
    Resolves st h loc D.slot ∧ (∃ cdi priv, Path st D.slot D.path ∧
      LeafKey P cfg.profile (measuredBytes a st D.path) label cdi priv ∧ P.pub priv = .ok D.key) ∧
    w'.1.rng = w.1.rng := by
  obtain ⟨k, w1, w2, w3, w4, w5, w6, w7, w8, h1, h2, h3, h4, h5, h6, h7, h8, _, h9, _, h10, h11, h12, h13⟩ := hD
  obtain ⟨hd, rfl⟩ := (device_measured ha hb hP).1 h3
  have h4 : ∃ cdi w1', (deviceOps P a).deriveCdi D.digest (ascii "DPE") ({ w.1 with hasher := none }, w.2) =
      (.ok cdi, w1') ∧ (deviceOps P a).deriveKeyPair cdi label (keyPurpose cfg.profile) w1' = (.ok k, w2) := by
    cases kind with
    | exportedX509 => exact absurd rfl hk
    | leafX509 => obtain ⟨c, x, _, g1, g2⟩ := h4; exact ⟨c, x, g1, g2⟩
    | leafCsr => obtain ⟨c, x, _, g1, g2⟩ := h4; exact ⟨c, x, g1, g2⟩
  obtain ⟨c, x, g1, g2⟩ := h4
  obtain ⟨cdi, g3, rfl⟩ := soft_cdi.1 g1
  obtain ⟨priv, g4, rfl⟩ := soft_pair.1 g2
  have h5' := Prod.mk.inj h5
  obtain ⟨_, rfl⟩ := (hashed_iff hP).1 h8
  obtain ⟨_, rfl⟩ := (hashed_iff hP).1 h9
  rw [device_keyId ha] at h10
  have h10 := (Prod.mk.inj h10).2
  have h11 : w7.1.rng = w6.1.rng := by
    unfold AltName at h11
    split at h11
    · rw [← (Prod.mk.inj h11).2]
    · rw [← (Prod.mk.inj h11).2]
  have h12 := (Prod.mk.inj h12).2
  rw [device_signer ha] at h13
  have h13 := (Prod.mk.inj h13).2
  refine ⟨h1, ⟨cdi, priv, h2, ⟨hd ▸ g3, g4⟩, h5'.1⟩, ?_⟩
  rw [← h13, ← h12]
  show w7.1.rng = _
  rw [h11, ← h10]
  show w3.1.rng = _
  rw [← h5'.2]

/-- A certificate can be issued. -/
theorem device_certificate (ha : a.Fit) (hP : P.Sound cfg.profile) {kind : CertKind}
    (hk : kind ≠ .leafCsr) (args : CertArgs) (D : Draft) (w : Soft P × Unit) :
    ∃ t, Issued (deviceOps P a) args st D kind w t w := by
  obtain ⟨sig, h⟩ := device_alias (a := a) hP
    (D.tbs kind args st ((zeroPadded 128 a.issuer).toList.take a.issuer.length)).written w
  exact ⟨_, .certificate hk (device_issuer ha w) ha.issuer h⟩

/-- A request can be issued. -/
theorem device_request (hP : P.Sound cfg.profile) {h : Handle} {label cdi priv fed : Bytes} {pk : PubKey}
    (hl : LeafKey P cfg.profile fed label cdi priv) (hv : P.pub priv = .ok pk) {D : Draft}
    (hd : D.digest = P.hash fed) {w : Soft P × Unit} :
    ∃ t w', Issued (deviceOps P a) (leafArgs st h loc label) st D .leafCsr w t w' ∧
      w'.1.rng = w.1.rng := by
  obtain ⟨sig, h1⟩ := (hP.raw priv (D.info (leafArgs st h loc label) st).written).2 ⟨pk, hv⟩
  obtain ⟨sig', h2⟩ := device_alias (a := a) hP
    (request cfg.profile (D.info (leafArgs st h loc label) st) sig).written
    ({ w.1 with cdi := cdi, priv := priv }, w.2)
  exact ⟨_, _, .request (cdi := ()) (key := ()) (soft_cdi.2 ⟨cdi, hd ▸ hl.cdiIs, rfl⟩)
    (soft_pair.2 ⟨priv, hl.privIs, rfl⟩) (device_sign.2 ⟨h1, rfl⟩) h2, rfl⟩

/-- Issuing draws nothing. -/
theorem device_issued_rng {args : CertArgs} {D : Draft} {kind : CertKind} {w w' : Soft P × Unit} {t : Asn}
    (h : Issued (deviceOps P a) args st D kind w t w') : w'.1.rng = w.1.rng := by
  cases h with
  | certificate _ h1 _ h2 => rw [← (Prod.mk.inj h2).2, ← (Prod.mk.inj h1).2]
  | request h1 h2 h3 h4 =>
    obtain ⟨_, _, rfl⟩ := soft_cdi.1 h1
    obtain ⟨_, _, rfl⟩ := soft_pair.1 h2
    obtain ⟨_, rfl⟩ := device_sign.1 h3
    rw [← (Prod.mk.inj h4).2]

/-- The ingredients of the certificate of an exported CDI. -/
theorem device_export_draft (ha : a.Fit) (hb : Built cfg a) (hP : P.Sound cfg.profile)
    {h : Handle} {ueid : Bytes} {i : Nat} {path : List Nat} {cdi priv : Bytes}
    {pk : PubKey} (hr : Resolves st h loc i) (hp : Path st i path)
    (hl : ExportedKey P cfg.profile (measuredBytes a st path) cdi priv) (hv : P.pub priv = .ok pk)
    (w : Soft P × Unit) (hs : w.1.slots = []) : ∃ D w', D = baseDraft P a st i path pk (some (P.fill32 w.1.rng).1) ∧
      w' = ({ w.1 with
        hasher := none
        rng := (P.fill32 w.1.rng).2
        cdi := cdi
        priv := priv
        slots := [(cdi, (P.fill32 w.1.rng).1)] }, w.2) ∧
      Drafted (deviceOps P a) .exportedX509 (exportedArgs st h loc ueid) st w D w' := by
  have h48 : digestLength cfg.profile ≤ 48 := by cases cfg.profile <;> decide
  have h20 : 20 ≤ digestLength cfg.profile := by cases cfg.profile <;> decide
  let l := [(cdi, (P.fill32 w.1.rng).1)]
  let r := (P.fill32 w.1.rng).2
  let x : Soft P × Unit := ({ w.1 with hasher := none, rng := r, cdi := cdi, priv := priv, slots := l }, w.2)
  refine ⟨baseDraft P a st i path pk (some (P.fill32 w.1.rng).1), x, rfl, rfl,
    (), _, x, x, x, x, x, x, x, hr, hp, (device_measured ha hb hP).2 ⟨rfl, rfl⟩,
    ⟨_, _, rfl, device_exportedCdi.2 ⟨cdi, hl.cdiIs, hs, rfl, rfl⟩,
      (device_exportedPair rfl).2 ⟨priv, hl.privIs, rfl⟩⟩, device_public hv _ rfl, ?_, ?_,
    (hashed_iff hP).2 ⟨rfl, rfl⟩, ?_, (hashed_iff hP).2 ⟨rfl, rfl⟩, ?_, device_keyId ha _, rfl, rfl,
    device_signer ha _⟩
  · have hko := hP.pubOf hv
    show mldsaKey pk = P.mldsa
    apply Bool.eq_iff_iff.mpr
    rw [hP.mldsa]
    cases hpr : cfg.profile <;> rw [hpr] at hko <;> cases pk <;> simp_all [KeyOf, mldsaKey]
  · show P.digestSize ≤ 48
    rw [hP.size]; exact h48
  · show (P.hash _).length ≤ 48
    rw [hP.hash, hP.size]; exact h48
  · show 20 ≤ (P.hash _).length
    rw [hP.hash, hP.size]; exact h20

/-- What the draft of an exported CDI says about the key. -/
theorem device_export_drafted (ha : a.Fit) (hb : Built cfg a) (hP : P.Sound cfg.profile)
    {h : Handle} {ueid : Bytes} {D : Draft} {w w' : Soft P × Unit}
    (hD : Drafted (deviceOps P a) .exportedX509 (exportedArgs st h loc ueid) st w D w') :
    w.1.slots = [] ∧ ExportValid P a st D.slot := by
  obtain ⟨k, w1, w2, w3, w4, w5, w6, w7, w8, h1, h2, h3, h4, h5, _⟩ := hD
  obtain ⟨hd, rfl⟩ := (device_measured ha hb hP).1 h3
  obtain ⟨hh, x, _, g1, g2⟩ := h4
  obtain ⟨cdi, g3, g4, rfl, rfl⟩ := device_exportedCdi.1 g1
  obtain ⟨priv, g5, rfl⟩ := (device_exportedPair rfl).1 g2
  exact ⟨g4, D.path, cdi, priv, h2, ⟨hd ▸ g3, g5⟩, D.key, (Prod.mk.inj h5).1⟩

theorem limits_fit : ∀ p : Profile, ∀ n, n < 65 → ∀ kind : CertKind,
    issuedLen p (platformLimits p n 48) kind ≤ 32768 := by
  have h : ∀ p : Profile, ∀ n, n < 65 →
      issuedLen p (platformLimits p n 48) .leafX509 ≤ 32768 ∧
      issuedLen p (platformLimits p n 48) .leafCsr ≤ 32768 ∧
      issuedLen p (platformLimits p n 48) .exportedX509 ≤ 32768 := by
    intro p
    cases p <;> decide +kernel
  intro p n hn kind
  obtain ⟨h1, h2, h3⟩ := h p n hn
  cases kind
  · exact h1
  · exact h2
  · exact h3

theorem device_short (ha : a.Fit) (hb : Built cfg a) (hP : P.Sound cfg.profile) {kind : CertKind}
    {args : CertArgs} {D : Draft} {w w1 w2 : Soft P × Unit} {t : Asn}
    (hD : Drafted (deviceOps P a) kind args st w D w1)
    (hI : Issued (deviceOps P a) args st D kind w1 t w2) (hl : args.ueid.length ≤ 48) :
    t.written.length ≤ 32768 := by
  have hpath : Path st D.slot D.path := hD.path
  refine Nat.le_trans (C46_size (device_genuine hP) (device_platform ha (handles := cfg.maxHandles)
    (label := 48) (p := cfg.profile)) hD hI hpath.length_le (Nat.le_of_eq hb.tci) hl ?_)
    (limits_fit _ _ (by have := cfg.le64; omega) _)
  intro i _
  exact intBody_length_le (k := 4) (by have := (st.at i).tci.svn.isLt; omega)

end Dpe
