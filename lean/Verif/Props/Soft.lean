import Verif.Model.Library
import Verif.Spec.Soft
import Verif.Spec.Measure
import Verif.Proofs.Run
import Verif.Proofs.Monad
import Mathlib.Tactic.SplitIfs
/-
C48: the exported-CDI store of the software back end is faithful.
-/
namespace Dpe

section
variable {P : Prims} {τ : Type} {plat : Ops τ}

/-! ## Helper lemmas -/

theorem deriveKeyPair_slots (l i : Bytes) (w : Soft P) : (Soft.deriveKeyPair l i w).2.slots = w.slots := by
  unfold Soft.deriveKeyPair
  split <;> rfl

/-- One operation leaves the store alone or appends one entry for a CDI not yet in it. -/
theorem opCall_slots {w w' : Soft P × τ} (h : OpCall (softOps P plat) w w') :
    w'.1.slots = w.1.slots ∨
    ∃ m i cdi hd, P.hkdfCdi m i = .ok cdi ∧ (∀ e ∈ w.1.slots, e.1 ≠ cdi) ∧
      w.1.slots.length < maxCdiHandles ∧ w'.1.slots = w.1.slots ++ [(cdi, hd)] := by
  cases h with
  | hashUpdate b =>
    left
    simp only [softOps, Soft.hashUpdate]
    split <;> rfl
  | hashFinish =>
    left
    simp only [softOps, Soft.hashFinish]
    split <;> rfl
  | deriveCdi m i =>
    left
    simp only [softOps, Soft.deriveCdi]
    split <;> rfl
  | deriveKeyPair c l i => exact .inl (deriveKeyPair_slots l i w.1)
  | deriveKeyPairExported h l i =>
    left
    simp only [softOps, Soft.deriveKeyPairExported]
    split
    · exact deriveKeyPair_slots l i _
    · rfl
  | deriveExportedCdi m i =>
    simp only [softOps, Soft.deriveExportedCdi]
    split
    · exact .inl rfl
    · rename_i cdi hc
      split_ifs with h1 h2
      · exact .inl rfl
      · exact .inl rfl
      · refine .inr ⟨m, i, cdi, _, hc, ?_, by omega, rfl⟩
        intro e he heq
        apply h1
        rw [List.any_eq_true]
        exact ⟨e, he, by simp [heq]⟩
  | _ => exact .inl rfl

/-! ## C48 -/

/-- The store only grows: whatever operations are performed, every entry stays where it is, with
the same CDI and the same handle. -/
theorem C48_kept {w w' : Soft P × τ} (h : OpCalls (softOps P plat) w w') :
    ∃ new, w'.1.slots = w.1.slots ++ new := by
  induction h with
  | nil => exact ⟨[], by simp⟩
  | cons h1 _ ih =>
    obtain ⟨new, hn⟩ := ih
    rcases opCall_slots h1 with h2 | ⟨_, _, cdi, hd, _, _, _, h2⟩
    · exact ⟨new, by rw [hn, h2]⟩
    · exact ⟨(cdi, hd) :: new, by rw [hn, h2]; simp⟩

/-- Starting from a new back end, the store never holds more than one entry and never the same
CDI twice. -/
theorem C48_bounded {w : Soft P × τ} {t : τ} (h : OpCalls (softOps P plat) (Soft.new P, t) w) :
    w.1.slots.length ≤ 1 ∧ (w.1.slots.map Prod.fst).Nodup := by
  have main : ∀ {w w' : Soft P × τ}, OpCalls (softOps P plat) w w' →
      w.1.slots.length ≤ 1 ∧ (w.1.slots.map Prod.fst).Nodup →
      w'.1.slots.length ≤ 1 ∧ (w'.1.slots.map Prod.fst).Nodup := by
    intro w w' h
    induction h with
    | nil => exact id
    | cons h1 _ ih =>
      intro h0
      apply ih
      rcases opCall_slots h1 with h2 | ⟨_, _, cdi, hd, _, h3, h4, h2⟩
      · rw [h2]; exact h0
      · rw [h2]
        refine ⟨by simp [maxCdiHandles] at h4 ⊢; simp [h4], ?_⟩
        rw [List.map_append, List.nodup_append]
        refine ⟨h0.2, by simp, ?_⟩
        intro a ha b hb
        obtain ⟨e, he, rfl⟩ := List.mem_map.1 ha
        simp at hb
        rw [hb]
        exact h3 e he
  exact main h ⟨by simp [Soft.new], by simp [Soft.new]⟩

/-- Storing: a CDI already in the store is refused as a duplicate, a new one is refused when the
store is full, and in both cases nothing changes; otherwise the CDI derived from the measurement
is stored under the handle returned. -/
theorem C48_store (m info : Bytes) (w : Soft P × τ) :
    match P.hkdfCdi m info, (softOps P plat).deriveExportedCdi m info w with
    | .error e, r => r = (.error e, w)
    | .ok cdi, (r, w') =>
      ((∃ h, (cdi, h) ∈ w.1.slots) ∧ r = .error .exportedCdiHandleDuplicateCdi ∧ w' = w) ∨
      ((∀ h, (cdi, h) ∉ w.1.slots) ∧ 1 ≤ w.1.slots.length ∧
        r = .error .exportedCdiHandleLimitExceeded ∧ w' = w) ∨
      ((∀ h, (cdi, h) ∉ w.1.slots) ∧ w.1.slots = [] ∧
        ∃ h, r = .ok h ∧ w'.1.slots = [(cdi, h)] ∧ w'.2 = w.2) := by
  simp only [softOps, Soft.deriveExportedCdi]
  cases P.hkdfCdi m info with
  | error e => rfl
  | ok cdi =>
    simp only
    by_cases h1 : w.1.slots.any (fun e => e.1 == cdi) = true
    · rw [if_pos h1]
      left
      obtain ⟨e, he, h2⟩ := List.any_eq_true.1 h1
      refine ⟨⟨e.2, ?_⟩, rfl, rfl⟩
      have : e.1 = cdi := by simpa using h2
      rw [← this]; exact he
    · rw [if_neg h1]
      right
      have hno : ∀ h, (cdi, h) ∉ w.1.slots := by
        intro h hm
        apply h1
        rw [List.any_eq_true]
        exact ⟨_, hm, by simp⟩
      by_cases h2 : maxCdiHandles ≤ w.1.slots.length
      · rw [if_pos h2]
        exact .inl ⟨hno, h2, rfl, rfl⟩
      · rw [if_neg h2]
        have : w.1.slots = [] := by
          simp [maxCdiHandles] at h2
          exact h2
        exact .inr ⟨hno, this, _, rfl, by simp [this], trivial⟩

/-- Lookup: a key pair asked for by a handle handed out earlier is derived from exactly the CDI
stored under that handle, no matter what happened in between; the store is not changed. -/
theorem C48_lookup {m info label ctx : Bytes} {w0 w1 w2 w3 : Soft P × τ} {t : τ} {h : BArr 32}
    {r : Except CryptoErr Unit}
    (h0 : OpCalls (softOps P plat) (Soft.new P, t) w0)
    (hs : (softOps P plat).deriveExportedCdi m info w0 = (.ok h, w1))
    (h12 : OpCalls (softOps P plat) w1 w2)
    (hk : (softOps P plat).deriveKeyPairExported h label ctx w2 = (r, w3)) :
    ∃ cdi, P.hkdfCdi m info = .ok cdi ∧
      (match P.hkdfKey cdi label ctx with
       | .error e => r = .error e
       | .ok key => r = .ok () ∧ w3.1.priv = key) ∧ w3.1.slots = w2.1.slots := by
  have hst := C48_store (plat := plat) m info w0
  cases hc : P.hkdfCdi m info with
  | error e => rw [hc] at hst; simp only at hst; rw [hs] at hst; cases hst
  | ok cdi =>
    rw [hc, hs] at hst
    simp only at hst
    rcases hst with ⟨_, h1, _⟩ | ⟨_, _, h1, _⟩ | ⟨_, _, h', h1, h2, _⟩
    · cases h1
    · cases h1
    cases h1
    obtain ⟨new, hnew⟩ := C48_kept h12
    rw [h2] at hnew
    refine ⟨cdi, rfl, ?_⟩
    simp only [softOps, Soft.deriveKeyPairExported] at hk
    rw [hnew] at hk
    simp only [List.cons_append, List.find?_cons, beq_self_eq_true, Soft.deriveKeyPair] at hk
    cases hkd : P.hkdfKey cdi label ctx with
    | error e =>
      rw [hkd] at hk
      simp only [Prod.mk.injEq] at hk
      obtain ⟨rfl, rfl⟩ := hk
      exact ⟨rfl, hnew.symm⟩
    | ok key =>
      rw [hkd] at hk
      simp only [Prod.mk.injEq] at hk
      obtain ⟨rfl, rfl⟩ := hk
      exact ⟨⟨rfl, rfl⟩, hnew.symm⟩

/-- A handle under which nothing is stored is refused, and nothing changes. -/
theorem C48_unknown (h : BArr 32) (label ctx : Bytes) (w : Soft P × τ)
    (hno : ∀ cdi, (cdi, h) ∉ w.1.slots) :
    (softOps P plat).deriveKeyPairExported h label ctx w = (.error .invalidExportedCdiHandle, w) := by
  have : w.1.slots.find? (fun e => e.2 == h) = none := by
    rw [List.find?_eq_none]
    intro e he heq
    apply hno e.1
    have : e.2 = h := by simpa using heq
    rw [← this]; exact he
  simp only [softOps, Soft.deriveKeyPairExported, this]

/-- The running hash of the back end is the hash of the concatenation of what it was given, so
this back end meets the assumption `HashesWith` under which the measurement theorems are
stated. -/
theorem C48_hashes : HashesWith P.hash (softOps P plat) := by
  have upd : ∀ (chunks : List Bytes) (x : Bytes) (w w' : Soft P × τ), w.1.hasher = some x →
      Updated (softOps P plat) chunks w w' → w'.1.hasher = some (x ++ chunks.flatten) := by
    intro chunks
    induction chunks with
    | nil => intro x w w' hx h; cases h; simpa using hx
    | cons c cs ih =>
      rintro x w w' hx ⟨w1, h1, h2⟩
      have hu : (softOps P plat).hashUpdate c w =
          (.ok (), ({ w.1 with hasher := some (x ++ c) }, w.2)) := by
        simp only [softOps, Soft.hashUpdate, hx]
      rw [hu] at h1
      cases h1
      have := ih (x ++ c) _ _ rfl h2
      rw [this]
      simp
  rintro chunks w w' d ⟨w1, w2, w3, h1, h2, h3, h4⟩
  cases h1
  cases h2
  have hx := upd chunks [] _ _ rfl h3
  simp only [softOps, Soft.hashFinish, hx, List.nil_append] at h4
  by_cases hl : (P.hash chunks.flatten).length = P.digestSize
  · rw [if_pos hl] at h4
    simp only [Prod.mk.injEq, Except.ok.injEq] at h4
    exact h4.1.symm
  · rw [if_neg hl] at h4
    simp only [Prod.mk.injEq] at h4
    cases h4.1

/-! ## C54 -/

theorem Drawn.trans {a b c : P.Rng} (h1 : Drawn P a b) (h2 : Drawn P b c) : Drawn P a c := by
  induction h1 with
  | nil => exact h2
  | handle _ ih => exact .handle (ih h2)
  | cdi _ ih => exact .cdi (ih h2)

theorem deriveKeyPair_rng (l i : Bytes) (w : Soft P) : (Soft.deriveKeyPair l i w).2.rng = w.rng := by
  unfold Soft.deriveKeyPair
  split <;> rfl

theorem opCall_rng {w w' : Soft P × τ} (h : OpCall (softOps P plat) w w') :
    Drawn P w.1.rng w'.1.rng := by
  have same : w'.1.rng = w.1.rng → Drawn P w.1.rng w'.1.rng := fun h => by rw [h]; exact .nil _
  cases h with
  | rand => exact .handle (.nil _)
  | hashUpdate b =>
    apply same
    simp only [softOps, Soft.hashUpdate]
    split <;> rfl
  | hashFinish =>
    apply same
    simp only [softOps, Soft.hashFinish]
    split <;> rfl
  | deriveCdi m i =>
    apply same
    simp only [softOps, Soft.deriveCdi]
    split <;> rfl
  | deriveKeyPair c l i => exact same (deriveKeyPair_rng l i w.1)
  | deriveKeyPairExported h l i =>
    apply same
    simp only [softOps, Soft.deriveKeyPairExported]
    split
    · exact deriveKeyPair_rng l i _
    · rfl
  | deriveExportedCdi m i =>
    simp only [softOps, Soft.deriveExportedCdi]
    split
    · exact .nil _
    · split_ifs
      · exact .nil _
      · exact .nil _
      · exact .cdi (.nil _)
  | _ => exact same rfl

/-- Random output is never handed out twice: each context handle is the next output of the
generator, and whatever calls follow, the next handle or exported-CDI handle is drawn after it. -/
theorem C54_fresh {w1 w2 w3 : Soft P × τ} {r1 : Except CryptoErr Handle}
    (h1 : (softOps P plat).rand w1 = (r1, w2)) (h2 : OpCalls (softOps P plat) w2 w3) :
    r1 = .ok (P.fill16 w1.1.rng).1 ∧
    ∃ g, Drawn P (P.fill16 w1.1.rng).2 g ∧
      ((softOps P plat).rand w3).1 = .ok (P.fill16 g).1 ∧
      ∀ m i h, ((softOps P plat).deriveExportedCdi m i w3).1 = .ok h → h = (P.fill32 g).1 := by
  simp only [softOps, Soft.rand, Prod.mk.injEq] at h1
  obtain ⟨rfl, rfl⟩ := h1
  refine ⟨rfl, w3.1.rng, ?_, rfl, ?_⟩
  · have main : ∀ {w w' : Soft P × τ}, OpCalls (softOps P plat) w w' →
        Drawn P w.1.rng w'.1.rng := by
      intro w w' h
      induction h with
      | nil => exact .nil _
      | cons h _ ih => exact (opCall_rng h).trans ih
    exact main h2
  · intro m i h hh
    simp only [softOps, Soft.deriveExportedCdi] at hh
    split at hh
    · cases hh
    · split_ifs at hh
      injection hh with hh
      exact hh.symm

/-- Likewise after an exported CDI was stored. -/
theorem C54_fresh_cdi {w1 w2 w3 : Soft P × τ} {m i : Bytes} {hd : BArr 32}
    (h1 : (softOps P plat).deriveExportedCdi m i w1 = (.ok hd, w2))
    (h2 : OpCalls (softOps P plat) w2 w3) :
    hd = (P.fill32 w1.1.rng).1 ∧
    ∃ g, Drawn P (P.fill32 w1.1.rng).2 g ∧ ((softOps P plat).rand w3).1 = .ok (P.fill16 g).1 := by
  have hw : hd = (P.fill32 w1.1.rng).1 ∧ w2.1.rng = (P.fill32 w1.1.rng).2 := by
    simp only [softOps, Soft.deriveExportedCdi] at h1
    split at h1
    · simp only [Prod.mk.injEq] at h1; cases h1.1
    · split_ifs at h1
      · simp only [Prod.mk.injEq] at h1; cases h1.1
      · simp only [Prod.mk.injEq] at h1; cases h1.1
      · simp only [Prod.mk.injEq, Except.ok.injEq] at h1
        obtain ⟨rfl, rfl⟩ := h1
        exact ⟨rfl, rfl⟩
  refine ⟨hw.1, w3.1.rng, ?_, rfl⟩
  have main : ∀ {w w' : Soft P × τ}, OpCalls (softOps P plat) w w' →
      Drawn P w.1.rng w'.1.rng := by
    intro w w' h
    induction h with
    | nil => exact .nil _
    | cons h _ ih => exact (opCall_rng h).trans ih
  rw [← hw.2]
  exact main h2

/-- Data of the wrong kind for the key's algorithm is not signed, and signing changes nothing.  A private
key that cannot be read is reported first, as it is by `public_key`. -/
theorem C54_signable (L : Lib) (alg : SigAlg) (dig : HashAlg) (d : SignData)
    (w : Soft (L.prims alg dig) × τ) (h : ¬ Signable (decide (alg = .mldsa87)) d) :
    (∀ pk, (softOps (L.prims alg dig) plat).publicKey () w = (.ok pk, w) →
      (softOps (L.prims alg dig) plat).sign () d w = (.error .mismatchedAlgorithm, w)) ∧
    (∀ e, (softOps (L.prims alg dig) plat).publicKey () w = (.error e, w) →
      (softOps (L.prims alg dig) plat).sign () d w = (.error e, w)) ∧
    (∀ k pk, (L.prims alg dig).aliasKey = .ok k → (L.prims alg dig).pub k = .ok pk →
      (softOps (L.prims alg dig) plat).signAlias d w = (.error .mismatchedAlgorithm, w)) := by
  have hs : ∀ k, signData (L.prims alg dig) k d =
      match L.publicKey alg k with | .ok _ => .error .mismatchedAlgorithm | .error e => .error e := by
    intro k
    cases d with
    | digest d =>
      have : alg = .mldsa87 := by simpa [Signable] using h
      subst this
      show L.signPrehash .mldsa87 k d = _
      unfold Lib.signPrehash Lib.publicKey
      cases Lib.seed87 k <;> rfl
    | mu d =>
      have : alg ≠ .mldsa87 := by simpa [Signable] using h
      show L.signMu alg k d = _
      unfold Lib.signMu Lib.publicKey
      cases alg with
      | p256 => cases L.key256 k <;> rfl
      | p384 => cases L.key384 k <;> rfl
      | mldsa87 => exact absurd rfl this
    | raw d => exact absurd trivial h
    | buffer d => exact absurd trivial h
  refine ⟨fun pk hp => ?_, fun e hp => ?_, fun k pk hk hp => ?_⟩
  · have hp : L.publicKey alg w.1.priv = .ok pk := (Prod.mk.inj hp).1
    simp only [softOps, hs, hp]
  · have hp : L.publicKey alg w.1.priv = .error e := (Prod.mk.inj hp).1
    simp only [softOps, hs, hp]
  · have hp : L.publicKey alg k = .ok pk := hp
    simp only [softOps, hk, Except.bind, hs, hp]

/-- A signature or public key is made with the private key of the key pair derived last, whose CDI
is the one derived last. -/
theorem C54_key {m info label ctx cdi key : Bytes} {w w1 w2 : Soft P × τ}
    (hc : P.hkdfCdi m info = .ok cdi) (hk : P.hkdfKey cdi label ctx = .ok key)
    (h1 : (softOps P plat).deriveCdi m info w = (.ok (), w1))
    (h2 : (softOps P plat).deriveKeyPair () label ctx w1 = (.ok (), w2)) :
    (softOps P plat).publicKey () w2 = (P.pub key, w2) ∧
    ∀ b, (softOps P plat).sign () (.buffer b) w2 = (P.signRaw key b, w2) ∧
      (softOps P plat).sign () (.raw b) w2 = (P.signRaw key b, w2) ∧
      (softOps P plat).sign () (.digest b) w2 = (P.signDigest key b, w2) ∧
      ∀ mu, (softOps P plat).sign () (.mu mu) w2 = (P.signMu key mu, w2) := by
  simp only [softOps, Soft.deriveCdi, hc, Prod.mk.injEq, true_and] at h1
  subst h1
  simp only [softOps, Soft.deriveKeyPair, hk, Prod.mk.injEq, true_and] at h2
  subst h2
  exact ⟨rfl, fun b => ⟨rfl, rfl, rfl, fun mu => rfl⟩⟩

end

/-! ## Concrete cases -/

namespace Toy

/-- Primitives that make the data visible: the CDI is the measurement, the key is CDI, label and
context in a row. -/
def prims : Prims where
  Rng := Nat
  seed := 0
  hash x := x.take 2
  digestSize := 2
  hkdfCdi m _ := .ok m
  hkdfKey c l i := .ok (c ++ l ++ i)
  fill16 n := (Vector.replicate 16 (UInt8.ofNat n), n + 1)
  fill32 n := (Vector.replicate 32 (UInt8.ofNat n), n + 1)
  mldsa := false
  signDigest _ _ := .error .size
  signRaw _ _ := .error .size
  signMu _ _ := .error .size
  pub _ := .error .size
  aliasKey := .error .size

/-- Store, refused duplicate, refused second entry, lookup, unknown handle. -/
example :
    let w1 := (Soft.deriveExportedCdi [5] [] (Soft.new prims)).2
    w1.slots = [([5], Vector.replicate 32 0)] ∧
    (Soft.deriveExportedCdi [5] [] w1).1 = .error .exportedCdiHandleDuplicateCdi ∧
    (Soft.deriveExportedCdi [6] [] w1).1 = .error .exportedCdiHandleLimitExceeded ∧
    (Soft.deriveKeyPairExported (Vector.replicate 32 0) [7] [8] w1).2.priv = [5, 7, 8] ∧
    (Soft.deriveKeyPairExported (Vector.replicate 32 1) [7] [8] w1).1
      = .error .invalidExportedCdiHandle := by
  refine ⟨rfl, rfl, rfl, rfl, rfl⟩

/-- Two handles drawn in a row differ. -/
example :
    (Soft.rand (Soft.new prims)).1 = .ok (Vector.replicate 16 0) ∧
    (Soft.rand (Soft.rand (Soft.new prims)).2).1 = .ok (Vector.replicate 16 1) ∧
    ¬ Signable true (.digest []) ∧ Signable false (.digest []) := by
  refine ⟨rfl, rfl, by simp [Signable], by simp [Signable]⟩

/-- A digest is not signed with an ML-DSA key; an empty octet string is not such a key. -/
example (L : Lib) (d : Bytes) :
    signData L.mldsa87 (List.replicate 32 0) (.digest d) = .error .mismatchedAlgorithm ∧
    signData L.mldsa87 [] (.digest d) = .error (.cryptoLibError 3) := ⟨rfl, rfl⟩

end Toy

end Dpe
