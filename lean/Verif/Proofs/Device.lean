import Verif.Spec.Reference
import Verif.Proofs.SoftContent
import Verif.Proofs.CertDet
import Verif.Props.Chain
/-
What the calls of the reference device do.
-/
namespace Dpe

/-! ### The crypto back end -/

/-- The primitives are of one piece and for the profile. -/
structure Prims.Sound (P : Prims) (p : Profile) : Prop where
  hash : ∀ b, (P.hash b).length = P.digestSize
  size : P.digestSize = digestLength p
  cdi : ∀ m i, ∃ c, P.hkdfCdi m i = .ok c
  key : ∀ c l i, ∃ k, P.hkdfKey c l i = .ok k
  mldsa : P.mldsa = true ↔ p = .mldsa87
  pubOf : ∀ {k pk}, P.pub k = .ok pk → KeyOf p pk
  sigOf : ∀ {k d sig}, signData P k d = .ok sig → SigOf p sig
  raw : ∀ k d, (∃ sig, P.signRaw k d = .ok sig) ↔ ValidKey P k
  digest : p ≠ .mldsa87 → ∀ k d, 32 ≤ d.length → ((∃ sig, P.signDigest k d = .ok sig) ↔ ValidKey P k)
  noDigest : p = .mldsa87 → ∀ k d sig, P.signDigest k d ≠ .ok sig
  mu : p = .mldsa87 → ∀ k d, ((∃ sig, P.signMu k d = .ok sig) ↔ ValidKey P k)
  noMu : p ≠ .mldsa87 → ∀ k d sig, P.signMu k d ≠ .ok sig
  aliasOk : ∃ k, P.aliasKey = .ok k ∧ ValidKey P k

theorem expand_ok {L : Lib} (hL : L.Total) (h : HashAlg) (prk info : Bytes) (alg : SigAlg) :
    ∃ x, L.expand h prk info (Lib.secretSize alg) = some x :=
  hL.expand _ _ _ _ (by cases alg <;> decide)

theorem deriveCdi_ok {L : Lib} (hL : L.Total) (alg : SigAlg) (m i : Bytes) :
    ∃ c, L.deriveCdi alg m i = .ok c := by
  obtain ⟨x, hx⟩ := expand_ok hL (Lib.kdfHash alg) (L.extract (Lib.kdfHash alg) i m) m alg
  exact ⟨x.toList, by unfold Lib.deriveCdi; rw [hx]⟩

theorem privKey_ok {L : Lib} (hL : L.Total) (alg : SigAlg) (c l i : Bytes) :
    ∃ k, L.privKey alg c l i = .ok k := by
  obtain ⟨x, hx⟩ := expand_ok hL (Lib.kdfHash alg) (L.extract (Lib.kdfHash alg) i c) l alg
  exact ⟨x.toList, by unfold Lib.privKey; rw [hx]⟩

theorem valid256 {L : Lib} {k : Bytes} : (∃ pk, L.publicKey .p256 k = .ok pk) ↔ ∃ x, L.key256 k = some x := by
  unfold Lib.publicKey
  cases h : L.key256 k <;> simp

theorem valid384 {L : Lib} {k : Bytes} : (∃ pk, L.publicKey .p384 k = .ok pk) ↔ ∃ x, L.key384 k = some x := by
  unfold Lib.publicKey
  cases h : L.key384 k <;> simp

theorem valid87 {L : Lib} {k : Bytes} :
    (∃ pk, L.publicKey .mldsa87 k = .ok pk) ↔ ∃ x, Lib.seed87 k = some x := by
  unfold Lib.publicKey
  cases h : Lib.seed87 k <;> simp

theorem prehash256 {L : Lib} (hL : L.Total) {k d : Bytes} (hd : 32 ≤ d.length) :
    (∃ sig, L.signPrehash .p256 k d = .ok sig) ↔ ∃ x, L.key256 k = some x := by
  unfold Lib.signPrehash
  cases h : L.key256 k with
  | none => simp
  | some x =>
    obtain ⟨⟨r, s⟩, hs⟩ := hL.sign256 x d hd
    simp [hs]

theorem prehash384 {L : Lib} (hL : L.Total) {k d : Bytes} (hd : 32 ≤ d.length) :
    (∃ sig, L.signPrehash .p384 k d = .ok sig) ↔ ∃ x, L.key384 k = some x := by
  unfold Lib.signPrehash
  cases h : L.key384 k with
  | none => simp
  | some x =>
    obtain ⟨⟨r, s⟩, hs⟩ := hL.sign384 x d hd
    simp [hs]

theorem prehash_sig256 {L : Lib} {k d : Bytes} {sig : Sig} (h : L.signPrehash .p256 k d = .ok sig) :
    SigOf .p256 sig := by
  unfold Lib.signPrehash at h
  simp only at h
  split at h
  · cases h; trivial
  · cases h

theorem prehash_sig384 {L : Lib} {k d : Bytes} {sig : Sig} (h : L.signPrehash .p384 k d = .ok sig) :
    SigOf .p384 sig := by
  unfold Lib.signPrehash at h
  simp only at h
  split at h
  · cases h; trivial
  · cases h

theorem prehash87 {L : Lib} {k d : Bytes} {sig : Sig} : L.signPrehash .mldsa87 k d ≠ .ok sig := by
  unfold Lib.signPrehash
  cases h : Lib.seed87 k <;> simp

theorem mu256 {L : Lib} {k : Bytes} {d : BArr 64} {sig : Sig} : L.signMu .p256 k d ≠ .ok sig := by
  unfold Lib.signMu
  cases h : L.key256 k <;> simp

theorem mu384 {L : Lib} {k : Bytes} {d : BArr 64} {sig : Sig} : L.signMu .p384 k d ≠ .ok sig := by
  unfold Lib.signMu
  cases h : L.key384 k <;> simp

theorem sound_256 {L : Lib} (hL : L.Total) : L.ecc256.Sound .p256 where
  hash b := by show ((L.sha256 b).toList).length = 32; simp
  size := rfl
  cdi := deriveCdi_ok hL .p256
  key := privKey_ok hL .p256
  mldsa := ⟨fun h => (by cases h), fun h => (by cases h)⟩
  pubOf {k pk} h := by
    have h : L.publicKey .p256 k = .ok pk := h
    unfold Lib.publicKey at h
    simp only at h
    split at h
    · cases h; trivial
    · cases h
  sigOf {k d sig} h := by
    cases d with
    | digest d => exact prehash_sig256 h
    | mu d => exact absurd h (mu256 (d := d))
    | raw d => exact prehash_sig256 h
    | buffer d => exact prehash_sig256 h
  raw k d := (prehash256 hL (by simp)).trans valid256.symm
  digest _ k d hd := (prehash256 hL hd).trans valid256.symm
  noDigest h := by cases h
  mu h := by cases h
  noMu _ _ d _ := mu256 (d := d)
  aliasOk := by
    obtain ⟨b, k, h1, h2⟩ := hL.alias256
    refine ⟨b, ?_, valid256.2 ⟨k, h2⟩⟩
    show L.aliasKey .p256 = _
    unfold Lib.aliasKey
    simp only [h1]

theorem sound_384 {L : Lib} (hL : L.Total) : L.ecc384.Sound .p384 where
  hash b := by show ((L.sha384 b).toList).length = 48; simp
  size := rfl
  cdi := deriveCdi_ok hL .p384
  key := privKey_ok hL .p384
  mldsa := ⟨fun h => (by cases h), fun h => (by cases h)⟩
  pubOf {k pk} h := by
    have h : L.publicKey .p384 k = .ok pk := h
    unfold Lib.publicKey at h
    simp only at h
    split at h
    · cases h; trivial
    · cases h
  sigOf {k d sig} h := by
    cases d with
    | digest d => exact prehash_sig384 h
    | mu d => exact absurd h (mu384 (d := d))
    | raw d => exact prehash_sig384 h
    | buffer d => exact prehash_sig384 h
  raw k d := (prehash384 hL (by simp)).trans valid384.symm
  digest _ k d hd := (prehash384 hL hd).trans valid384.symm
  noDigest h := by cases h
  mu h := by cases h
  noMu _ _ d _ := mu384 (d := d)
  aliasOk := by
    obtain ⟨b, k, h1, h2⟩ := hL.alias384
    refine ⟨b, ?_, valid384.2 ⟨k, h2⟩⟩
    show L.aliasKey .p384 = _
    unfold Lib.aliasKey
    simp only [h1]

theorem seed87_some {k : Bytes} (h : k.length = 32) : ∃ x, Lib.seed87 k = some x := by
  unfold Lib.seed87
  rw [dif_pos h]
  exact ⟨_, rfl⟩

theorem sound_87 {L : Lib} (hL : L.Total) : L.mldsa87.Sound .mldsa87 where
  hash b := by show ((L.sha384 b).toList).length = 48; simp
  size := rfl
  cdi := deriveCdi_ok hL .mldsa87
  key := privKey_ok hL .mldsa87
  mldsa := ⟨fun _ => rfl, fun _ => rfl⟩
  pubOf {k pk} h := by
    have h : L.publicKey .mldsa87 k = .ok pk := h
    unfold Lib.publicKey at h
    simp only at h
    split at h
    · cases h; trivial
    · cases h
  sigOf {k d sig} h := by
    have raw : ∀ d, L.signMessage .mldsa87 k d = .ok sig → SigOf .mldsa87 sig := by
      intro d h
      unfold Lib.signMessage at h
      simp only at h
      split at h
      · cases h; trivial
      · cases h
    cases d with
    | digest d => exact absurd h (prehash87 (L := L) (d := d))
    | mu d =>
      have h : L.signMu .mldsa87 k d = .ok sig := h
      unfold Lib.signMu at h
      simp only at h
      split at h
      · cases h; trivial
      · cases h
    | raw d => exact raw d h
    | buffer d => exact raw d h
  raw k d := by
    refine Iff.trans ?_ valid87.symm
    show (∃ sig, L.signMessage .mldsa87 k d = .ok sig) ↔ _
    unfold Lib.signMessage
    cases h : Lib.seed87 k <;> simp
  digest h := absurd rfl h
  noDigest _ _ d _ := prehash87 (L := L) (d := d)
  noMu h := absurd rfl h
  mu _ k d := by
    refine Iff.trans ?_ valid87.symm
    show (∃ sig, L.signMu .mldsa87 k d = .ok sig) ↔ _
    unfold Lib.signMu
    cases h : Lib.seed87 k <;> simp
  aliasOk := by
    obtain ⟨b, h1, h2⟩ := hL.alias87
    refine ⟨b, ?_, valid87.2 (seed87_some h2)⟩
    show L.aliasKey .mldsa87 = _
    unfold Lib.aliasKey
    simp only [h1]

theorem Lib.Total.sound {L : Lib} (hL : L.Total) : ∀ p, (L.crypto p).Sound p
  | .p256 => sound_256 hL
  | .p384 => sound_384 hL
  | .mldsa87 => sound_87 hL

/-! ### Calls -/
section
variable {cfg : Cfg} {P : Prims} {τ : Type} {plat : Ops τ} {st : State cfg}

/-- Drawing handles changes nothing but the generator. -/
theorem lands_iff {n : Nat} : ∀ {w w' : Soft P × τ} {h : Handle},
    GoodDraw (softOps P plat) st n w h w' ↔
      ∃ r, Lands P st n w.1.rng h r ∧ w' = ({ w.1 with rng := r }, w.2) := by
  induction n with
  | zero =>
    intro w w' h
    constructor
    · intro h; cases h
    · rintro ⟨r, h, _⟩; cases h
  | succ n ih =>
    intro w w' h
    constructor
    · intro hg
      cases hg with
      | hit h1 h2 =>
        have e1 := Except.ok.inj (Prod.mk.inj h1).1
        subst e1
        exact ⟨_, .hit h2, (Prod.mk.inj h1).2.symm⟩
      | miss h1 h2 h3 =>
        have e1 := Except.ok.inj (Prod.mk.inj h1).1
        have e2 := (Prod.mk.inj h1).2
        subst e1 e2
        obtain ⟨r, h4, rfl⟩ := ih.1 h3
        exact ⟨r, .miss h2 h4, rfl⟩
    · rintro ⟨r, hl, rfl⟩
      cases hl with
      | hit h2 => exact .hit rfl h2
      | miss h2 h3 =>
        exact .miss rfl h2 (ih.2 ⟨r, h3, rfl⟩)

theorem canDraw_iff {w : Soft P × τ} :
    CanDraw P st w.1.rng ↔ ∃ h w', GoodDraw (softOps P plat) st 8 w h w' := by
  constructor
  · rintro ⟨h, r, hl⟩
    exact ⟨h, _, lands_iff.2 ⟨r, hl, rfl⟩⟩
  · rintro ⟨h, w', hg⟩
    obtain ⟨r, hl, _⟩ := lands_iff.1 hg
    exact ⟨h, r, hl⟩

theorem canReplace_iff {w : Soft P × τ} {i : Nat} :
    CanReplace P st i w.1.rng ↔ ∃ h w', Redrawn (softOps P plat) st (st.at i).handle w h w' := by
  unfold CanReplace
  rw [canDraw_iff (plat := plat)]
  constructor
  · rintro (h | ⟨h, w', hg⟩)
    · exact ⟨_, _, .inl ⟨h, rfl, rfl⟩⟩
    · by_cases hd : (st.at i).handle = Handle.default
      · exact ⟨_, _, .inl ⟨hd, rfl, rfl⟩⟩
      · exact ⟨h, w', .inr ⟨hd, hg⟩⟩
  · rintro ⟨h, w', ⟨hd, _⟩ | ⟨_, hg⟩⟩
    · exact .inl hd
    · exact .inr ⟨h, w', hg⟩

theorem soft_updates {l : List Bytes} : ∀ {w : Soft P × τ} {x : Bytes}, w.1.hasher = some x →
    Updated (softOps P plat) l w ({ w.1 with hasher := some (x ++ l.flatten) }, w.2) := by
  induction l with
  | nil =>
    rintro ⟨w, v⟩ x h
    show (_, _) = (_, _)
    cases w
    simp only at h
    subst h
    simp
  | cons b l ih =>
    rintro ⟨w, v⟩ x h
    refine ⟨({ w with hasher := some (x ++ b) }, v), ?_, ?_⟩
    · simp only at h
      simp only [softOps, Soft.hashUpdate, h]
    · have := ih (w := ({ w with hasher := some (x ++ b) }, v)) (x := x ++ b) rfl
      simpa using this

/-- Hashing. -/
theorem hashed_iff {p : Profile} (hP : P.Sound p) {l : List Bytes} {w w' : Soft P × τ} {d : Bytes} :
    Hashed (softOps P plat) l w d w' ↔
      d = P.hash l.flatten ∧ w' = ({ w.1 with hasher := none }, w.2) := by
  have fwd : Hashed (softOps P plat) l w (P.hash l.flatten) ({ w.1 with hasher := none }, w.2) := by
    refine ⟨w, ({ w.1 with hasher := some [] }, w.2), _, rfl, rfl, soft_updates rfl, ?_⟩
    simp only [softOps, Soft.hashFinish, List.nil_append, hP.hash, if_true]
  constructor
  · intro h; exact h.det fwd
  · rintro ⟨rfl, rfl⟩; exact fwd

theorem extended_iff {p : Profile} (hP : P.Sound p) {old m v : BArr cfg.tciSize} {w w' : Soft P × τ} :
    Extended (softOps P plat) old m v w w' ↔
      v.toList = P.hash (old.toList ++ m.toList) ∧ w' = ({ w.1 with hasher := none }, w.2) := by
  unfold Extended
  rw [hashed_iff hP]
  simp

theorem extends_ok {a : Artifact} (hb : Built cfg a) (hP : P.Sound cfg.profile)
    (old m : BArr cfg.tciSize) (w : Soft P × τ) :
    ∃ v, Extended (softOps P plat) old m v w ({ w.1 with hasher := none }, w.2) := by
  have hl : (P.hash (old.toList ++ m.toList)).length = cfg.tciSize := by
    rw [hP.hash, hP.size, hb.tci]
  exact ⟨⟨(P.hash (old.toList ++ m.toList)).toArray, by simpa using hl⟩,
    (extended_iff hP).2 ⟨by simp [Vector.toList], rfl⟩⟩

end

/-! ### The platform -/

theorem zeroPadded_take {n : Nat} {b : Bytes} (h : b.length ≤ n) : (zeroPadded n b).toList.take b.length = b := by
  apply List.ext_getElem
  · simp [h]
  · intro i h1 h2
    simp [zeroPadded, h2]

theorem zeroPadded_all {n : Nat} {b : Bytes} (h : n ≤ b.length) : (zeroPadded n b).toList = b.take n := by
  apply List.ext_getElem
  · simp [h]
  · intro i h1 h2
    have : i < b.length := by simp at h2; omega
    simp [zeroPadded, this]

theorem default_chain {a : Artifact} (ha : a.Fit) {off size : U32} (hs : size.toNat ≤ 2048) (w : Unit) :
    some ((defaultPlatform a).certChain off size w).1 = defaultChain a.chain off size := by
  have := C38_no_overflow a.chain off size ha.short hs
  obtain ⟨x, hx⟩ := Option.isSome_iff_exists.1 this
  simp only [defaultPlatform, hx, Option.getD_some]

theorem servesChain_default (a : Artifact) : ServesChain (defaultPlatform a) a.chain := by
  intro off size w r h
  simp only [defaultPlatform, h, Option.getD_some]

theorem default_outside {a : Artifact} (ha : a.Fit) {off : U32} {size : U32} (ho : a.chain.length ≤ off.toNat) :
    ((defaultPlatform a).certChain off size ()).1 = .error .certificateChainError := by
  have hd : defaultChain a.chain off size = some (.error .certificateChainError) := by
    unfold defaultChain
    have e1 : (BitVec.ofNat 32 a.chain.length).toNat = a.chain.length :=
      Nat.mod_eq_of_lt (by have := ha.short; omega)
    simp only [e1]
    rw [if_pos ho]
  rw [servesChain_default a _ _ _ _ hd]

section
variable {cfg : Cfg} {P : Prims} {a : Artifact} {st : State cfg}

theorem device_chainFed (ha : a.Fit) : ∀ (fuel off : Nat), off ≤ a.chain.length →
    (a.chain.length - off) / 2048 + 2 ≤ fuel → ∀ {w : Soft P × Unit} {x : Bytes}, w.1.hasher = some x →
    ∃ n, n ≤ fuel ∧ ChainFed (softOps P (defaultPlatform a)) n (BitVec.ofNat 32 off) w
      ({ w.1 with hasher := some (x ++ a.chain.drop off) }, w.2) := by
  have hl := ha.short
  intro fuel
  induction fuel with
  | zero => intro off _ h; omega
  | succ fuel ih =>
    rintro off ho hf ⟨w, v⟩ x hx
    by_cases hc : off < a.chain.length
    · obtain ⟨chunk, h1, h2⟩ := defaultChain_in (size := 2048) hl hc (Nat.le_refl _)
      change defaultChain a.chain (BitVec.ofNat 32 off) 2048 = _ at h1
      have h1 := servesChain_default a _ _ v _ h1
      have e2 : (BitVec.ofNat 32 (min 2048 (a.chain.length - off))).toNat
        = min 2048 (a.chain.length - off) := Nat.mod_eq_of_lt (by omega)
      have e3 : BitVec.ofNat 32 off + BitVec.ofNat 32 (min 2048 (a.chain.length - off)) =
          BitVec.ofNat 32 (off + min 2048 (a.chain.length - off)) := by
        rw [BitVec.ofNat_add]
      have hf' : off + min 2048 (a.chain.length - off) ≤ a.chain.length := by omega
      by_cases hlast : a.chain.length - off ≤ 2048
      · -- the last piece, then the failing call
        have hfin : off + min 2048 (a.chain.length - off) = a.chain.length := by omega
        refine ⟨2, by omega, ?_⟩
        refine .piece (w1 := (w, v)) (w2 := ({ w with hasher := some (x ++ a.chain.drop off) }, v))
          (len := BitVec.ofNat 32 (min 2048 (a.chain.length - off))) (b := chunk)
          (by simp only [softOps, h1]) (by rw [e2]; omega) ?_ ?_
        · rw [e2, h2, List.take_of_length_le (by simp; omega)]
          simp only at hx
          simp only [softOps, Soft.hashUpdate, hx]
        · rw [e3, hfin]
          have hout := default_outside ha (off := BitVec.ofNat 32 a.chain.length) (size := 2048)
            (Nat.le_of_eq (Nat.mod_eq_of_lt (by omega)).symm)
          exact .stop (e := .certificateChainError) (Prod.ext hout rfl)
      · obtain ⟨n, hn, hfed⟩ := ih (off + min 2048 (a.chain.length - off)) hf' (by
          have : min 2048 (a.chain.length - off) = 2048 := by omega
          rw [this]
          have : a.chain.length - (off + 2048) = (a.chain.length - off) - 2048 := by omega
          rw [this]
          omega) (w := ({ w with hasher := some (x ++ (a.chain.drop off).take 2048) }, v)) rfl
        refine ⟨n + 1, by omega, ?_⟩
        refine .piece (w1 := (w, v))
          (w2 := ({ w with hasher := some (x ++ (a.chain.drop off).take 2048) }, v))
          (len := BitVec.ofNat 32 (min 2048 (a.chain.length - off))) (b := chunk)
          (by simp only [softOps, h1]) (by rw [e2]; omega) ?_ ?_
        · rw [e2, h2]
          simp only at hx
          simp only [softOps, Soft.hashUpdate, hx]
        · rw [e3]
          have : x ++ (a.chain.drop off).take 2048 ++ a.chain.drop (off + min 2048 (a.chain.length - off)) =
              x ++ a.chain.drop off := by
            rw [Nat.min_eq_left (by omega), ← List.drop_drop, List.append_assoc, List.take_append_drop]
          rw [this] at hfed
          exact hfed
    · refine ⟨1, by omega, ?_⟩
      have : off = a.chain.length := by omega
      subst this
      have hout := default_outside ha (off := BitVec.ofNat 32 a.chain.length) (size := 2048)
        (Nat.le_of_eq (Nat.mod_eq_of_lt (by omega)).symm)
      rw [List.drop_length, List.append_nil]
      simp only at hx
      rw [← hx]
      exact .stop (e := .certificateChainError) (Prod.ext hout rfl)

/-- The measurement digest. -/
theorem device_measured (ha : a.Fit) (hb : Built cfg a) (hP : P.Sound cfg.profile) {path : List Nat}
    {w w' : Soft P × Unit} {d : Bytes} :
    Measured (softOps P (defaultPlatform a)) st path w d w' ↔
      d = P.hash (measuredBytes a st path) ∧ w' = ({ w.1 with hasher := none }, w.2) := by
  have fwd : Measured (softOps P (defaultPlatform a)) st path w (P.hash (measuredBytes a st path))
      ({ w.1 with hasher := none }, w.2) := by
    let X : Bytes := (path.map fun i => nodeBytes (st.at i)).flatten ++
      (if path.any fun i => (st.at i).usesInfo then infoBytes cfg st.support 0 0 else [])
    have e3 := soft_updates (plat := defaultPlatform a) (l := path.flatMap fun i => nodeChunks (st.at i))
      (w := ({ w.1 with hasher := some [] }, w.2)) rfl
    rw [chunks_flatten, List.nil_append] at e3
    refine ⟨w, ({ w.1 with hasher := some [] }, w.2), _, ({ w.1 with hasher := some X }, w.2), ({ w.1 with hasher := some (measuredBytes a st path) }, w.2),
      rfl, rfl, e3, ?_, ?_, ?_⟩
    · unfold InfoFed
      split
      · rename_i hy
        refine ⟨0, 0, _, _, rfl, rfl, ?_⟩
        simp only [X, if_pos hy]
        rfl
      · rename_i hn
        show (_, _) = (_, _)
        simp only [X, if_neg hn, List.append_nil]
    · unfold DiceFed measuredBytes contentBytes
      split
      · obtain ⟨n, h1, h2⟩ := device_chainFed (P := P) ha cfg.diceFuel 0 (Nat.zero_le _)
          (by have := hb.fuel; simpa using this) (w := ({ w.1 with hasher := some X }, w.2)) rfl
        exact ⟨n, h1, h2⟩
      · rw [List.append_nil]
    · simp only [softOps, Soft.hashFinish, hP.hash, if_true]
  constructor
  · intro h; exact h.det fwd
  · rintro ⟨rfl, rfl⟩; exact fwd

end
end Dpe
