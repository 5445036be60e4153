import Verif.Spec.Sign
import Verif.Model.Soft
/-
The key pair that the software back end derives depends on nothing but the evidence, the label and
the platform's identity.
-/
namespace Dpe
variable {cfg : Cfg} {P : Prims} {τ : Type} {plat : Ops τ}

theorem soft_update {b : Bytes} {w w' v v' : Soft P × τ} (h : w.1.hasher = v.1.hasher)
    (h1 : (softOps P plat).hashUpdate b w = (.ok (), w'))
    (h2 : (softOps P plat).hashUpdate b v = (.ok (), v')) : w'.1.hasher = v'.1.hasher := by
  simp only [softOps, Soft.hashUpdate] at h1 h2
  rw [← h] at h2
  cases hw : w.1.hasher with
  | none => rw [hw] at h1; simp at h1
  | some x =>
    rw [hw] at h1 h2
    simp only [Prod.mk.injEq, true_and] at h1 h2
    subst h1 h2
    rfl

theorem soft_updated {l : List Bytes} : ∀ {w w' v v' : Soft P × τ}, w.1.hasher = v.1.hasher →
    Updated (softOps P plat) l w w' → Updated (softOps P plat) l v v' → w'.1.hasher = v'.1.hasher := by
  induction l with
  | nil => rintro w w' v v' h h1 h2; cases h1; cases h2; exact h
  | cons b l ih =>
    rintro w w' v v' h ⟨x, h1, h2⟩ ⟨y, h3, h4⟩
    exact ih (soft_update h h1 h3) h2 h4

theorem soft_info {u : U32} {b : Bool} {w w' v v' : Soft P × τ} (hs : Steady plat)
    (h : w.1.hasher = v.1.hasher) (h1 : InfoFed cfg (softOps P plat) u b w w')
    (h2 : InfoFed cfg (softOps P plat) u b v v') : w'.1.hasher = v'.1.hasher := by
  unfold InfoFed at h1 h2
  cases b with
  | false => cases h1; cases h2; exact h
  | true =>
    obtain ⟨vid, sku, x1, x2, a1, a2, a3⟩ := h1
    obtain ⟨vid', sku', y1, y2, b1, b2, b3⟩ := h2
    simp only [softOps, Prod.mk.injEq] at a1 a2 b1 b2
    obtain ⟨a1, rfl⟩ := a1
    obtain ⟨a2, rfl⟩ := a2
    obtain ⟨b1, rfl⟩ := b1
    obtain ⟨b2, rfl⟩ := b2
    have e1 := a1.symm.trans ((hs.vendorId w.2 v.2).trans b1)
    have e2 := a2.symm.trans ((hs.vendorSku _ _).trans b2)
    injection e1 with e1
    injection e2 with e2
    subst e1 e2
    exact soft_update (by exact h) a3 b3

theorem soft_chain {n : Nat} {off : U32} {w w' : Soft P × τ} (hs : Steady plat)
    (h1 : ChainFed (softOps P plat) n off w w') : ∀ {m : Nat} {v v' : Soft P × τ},
    w.1.hasher = v.1.hasher → ChainFed (softOps P plat) m off v v' → w'.1.hasher = v'.1.hasher := by
  induction h1 with
  | @stop off e w w' a =>
    intro m v v' h h2
    cases h2 with
    | stop b =>
      simp only [softOps, Prod.mk.injEq] at a b
      obtain ⟨_, rfl⟩ := a
      obtain ⟨_, rfl⟩ := b
      exact h
    | piece b =>
      simp only [softOps, Prod.mk.injEq] at a b
      have e := a.1.symm.trans ((hs.certChain _ _ w.2 v.2).trans b.1)
      cases e
  | @piece n off len x w w1 w2 w' a _ c _ ih =>
    intro m v v' h h2
    cases h2 with
    | stop b =>
      simp only [softOps, Prod.mk.injEq] at a b
      have e := a.1.symm.trans ((hs.certChain _ _ w.2 v.2).trans b.1)
      cases e
    | piece b _ d g =>
      simp only [softOps, Prod.mk.injEq] at a b
      have e := a.1.symm.trans ((hs.certChain _ _ w.2 v.2).trans b.1)
      injection e with e
      obtain ⟨rfl, rfl⟩ := Prod.mk.inj e
      obtain ⟨_, rfl⟩ := a
      obtain ⟨_, rfl⟩ := b
      exact ih (soft_update (by exact h) c d) g

theorem SameEvidence.chunks {st st' : State cfg} {l l' : List Nat} (h : SameEvidence st l st' l') :
    (l.flatMap fun i => nodeChunks (st.at i)) = l'.flatMap fun i => nodeChunks (st'.at i) := by
  have key : ∀ (st : State cfg) (l : List Nat), (l.flatMap fun i => nodeChunks (st.at i)) =
      (l.map fun i => evidence (st.at i)).flatMap fun e =>
        [le32 e.1.tciType ++ e.1.cumulative.toList ++ e.1.current.toList ++ le32 e.1.locality ++
          le32 e.1.svn, [if e.2.1 then (1 : UInt8) else 0]] := by
    intro st l
    induction l with
    | nil => rfl
    | cons i l ih => rw [List.flatMap_cons, List.map_cons, List.flatMap_cons, ih]; rfl
  rw [key, key, h.2]

theorem SameEvidence.info {st st' : State cfg} {l l' : List Nat} (h : SameEvidence st l st' l') :
    (l.any fun i => (st.at i).usesInfo) = l'.any fun i => (st'.at i).usesInfo := by
  have key : ∀ (st : State cfg) (l : List Nat), (l.any fun i => (st.at i).usesInfo) =
      (l.map fun i => evidence (st.at i)).any fun e => e.2.2.1 := by
    intro st l
    rw [List.any_map]; rfl
  rw [key, key, h.2]

theorem SameEvidence.dice {st st' : State cfg} {l l' : List Nat} (h : SameEvidence st l st' l') :
    (l.any fun i => (st.at i).usesDice) = l'.any fun i => (st'.at i).usesDice := by
  have key : ∀ (st : State cfg) (l : List Nat), (l.any fun i => (st.at i).usesDice) =
      (l.map fun i => evidence (st.at i)).any fun e => e.2.2.2 := by
    intro st l
    rw [List.any_map]; rfl
  rw [key, key, h.2]

theorem soft_measured {st st' : State cfg} {l l' : List Nat} {w w' v v' : Soft P × τ} {d d' : Bytes}
    (hs : Steady plat) (he : SameEvidence st l st' l') (h1 : Measured (softOps P plat) st l w d w')
    (h2 : Measured (softOps P plat) st' l' v d' v') : d = d' := by
  obtain ⟨x1, x2, x3, x4, x5, a1, a2, a3, a4, a5, a6⟩ := h1
  obtain ⟨y1, y2, y3, y4, y5, b1, b2, b3, b4, b5, b6⟩ := h2
  have e2 : x2.1.hasher = y2.1.hasher := by
    simp only [softOps, Soft.hashInit, Prod.mk.injEq, true_and] at a2 b2
    subst a2 b2; rfl
  have e3 := soft_updated e2 a3 (he.chunks ▸ b3)
  have e4 := soft_info hs e3 a4 (by rw [he.1, he.info]; exact b4)
  have e5 : x5.1.hasher = y5.1.hasher := by
    unfold DiceFed at a5 b5
    rw [← he.dice] at b5
    split at a5
    · rename_i hn
      rw [if_pos hn] at b5
      obtain ⟨_, _, a5⟩ := a5
      obtain ⟨_, _, b5⟩ := b5
      exact soft_chain hs a5 e4 b5
    · rename_i hn
      rw [if_neg hn] at b5
      cases a5; cases b5; exact e4
  simp only [softOps, Soft.hashFinish] at a6 b6
  rw [← e5] at b6
  cases hx : x5.1.hasher with
  | none => rw [hx] at a6; simp at a6
  | some x =>
    rw [hx] at a6 b6
    simp only [Prod.mk.injEq] at a6 b6
    have := a6.1.symm.trans b6.1
    injection this

theorem soft_derived {d info label ctx : Bytes} {c k : Unit} {w w1 w' : Soft P × τ}
    (h2 : (softOps P plat).deriveCdi d info w = (.ok c, w1))
    (h3 : (softOps P plat).deriveKeyPair c label ctx w1 = (.ok k, w')) :
    ∃ cdi, P.hkdfCdi d info = .ok cdi ∧ P.hkdfKey cdi label ctx = .ok w'.1.priv := by
  simp only [softOps, Soft.deriveCdi, Soft.deriveKeyPair] at h2 h3
  cases hc : P.hkdfCdi d info with
  | error e => rw [hc] at h2; simp at h2
  | ok cdi =>
    rw [hc] at h2
    simp only [Prod.mk.injEq] at h2
    obtain ⟨_, rfl⟩ := h2
    simp only at h3
    cases hk : P.hkdfKey cdi label ctx with
    | error e => rw [hk] at h3; simp at h3
    | ok key =>
      rw [hk] at h3
      simp only [Prod.mk.injEq] at h3
      obtain ⟨_, rfl⟩ := h3
      exact ⟨cdi, rfl, hk⟩

theorem soft_derived_same {d info label ctx : Bytes} {c k c' k' : Unit} {w w1 w' v v1 v' : Soft P × τ}
    (h1 : (softOps P plat).deriveCdi d info w = (.ok c, w1))
    (h2 : (softOps P plat).deriveKeyPair c label ctx w1 = (.ok k, w'))
    (h3 : (softOps P plat).deriveCdi d info v = (.ok c', v1))
    (h4 : (softOps P plat).deriveKeyPair c' label ctx v1 = (.ok k', v')) : w'.1.priv = v'.1.priv := by
  obtain ⟨c1, p1, p2⟩ := soft_derived h1 h2
  obtain ⟨c2, q1, q2⟩ := soft_derived h3 h4
  obtain rfl := Except.ok.inj (p1.symm.trans q1)
  exact Except.ok.inj (p2.symm.trans q2)

theorem soft_key {st : State cfg} {l : List Nat} {label : Bytes} {w w' : Soft P × τ} {k : Unit}
    (h : SigningKey (softOps P plat) st l label w k w') : ∃ d cdi w1,
    Measured (softOps P plat) st l w d w1 ∧ P.hkdfCdi d (ascii "DPE") = .ok cdi ∧
      P.hkdfKey cdi label (keyPurpose cfg.profile) = .ok w'.1.priv := by
  obtain ⟨d, c, w1, w2, h1, h2, h3⟩ := h
  obtain ⟨cdi, g1, g2⟩ := soft_derived h2 h3
  exact ⟨d, cdi, w1, h1, g1, g2⟩

theorem soft_key_same {st st' : State cfg} {l l' : List Nat} {label : Bytes} {w w' v v' : Soft P × τ}
    {k k' : Unit} (hs : Steady plat) (he : SameEvidence st l st' l')
    (h1 : SigningKey (softOps P plat) st l label w k w')
    (h2 : SigningKey (softOps P plat) st' l' label v k' v') : w'.1.priv = v'.1.priv := by
  obtain ⟨d, cdi, w1, a1, a2, a3⟩ := soft_key h1
  obtain ⟨d', cdi', w1', b1, b2, b3⟩ := soft_key h2
  obtain rfl := soft_measured hs he a1 b1
  rw [a2] at b2
  injection b2 with b2
  subst b2
  rw [a3] at b3
  injection b3

end Dpe
