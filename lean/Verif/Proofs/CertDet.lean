import Verif.Proofs.CertFacts
/-
The ingredients of a certificate and the certificate are determined by state and environment.
-/
namespace Dpe
variable {cfg : Cfg} {σ : Type} {ops : Ops σ} {a : CertArgs} {st : State cfg} {kind : CertKind}

theorem call_det {ε α : Type} {x : Except ε α × σ} {r r' : α} {w w' : σ} (h : x = (.ok r, w))
    (h' : x = (.ok r', w')) : r = r' ∧ w = w' := by
  rw [h] at h'
  injection h' with h1 h2
  injection h1 with h1
  exact ⟨h1, h2⟩

theorem Updated.det {l : List Bytes} : ∀ {w w1 w2 : σ}, Updated ops l w w1 → Updated ops l w w2 →
    w1 = w2 := by
  induction l with
  | nil => intro w w1 w2 h1 h2; exact Eq.trans h1 (Eq.symm h2)
  | cons b l ih =>
    rintro w w1 w2 ⟨x, h1, h2⟩ ⟨y, h3, h4⟩
    obtain ⟨_, rfl⟩ := call_det h1 h3
    exact ih h2 h4

theorem Hashed.det {l : List Bytes} {w w1 w2 : σ} {d1 d2 : Bytes} (h : Hashed ops l w d1 w1)
    (h' : Hashed ops l w d2 w2) : d1 = d2 ∧ w1 = w2 := by
  obtain ⟨x1, x2, x3, h1, h2, h3, h4⟩ := h
  obtain ⟨y1, y2, y3, g1, g2, g3, g4⟩ := h'
  obtain ⟨_, rfl⟩ := call_det h1 g1
  obtain ⟨_, rfl⟩ := call_det h2 g2
  have := h3.det g3
  subst this
  exact call_det h4 g4

theorem InfoFed.det {s : U32} {b : Bool} {w w1 w2 : σ} (h : InfoFed cfg ops s b w w1)
    (h' : InfoFed cfg ops s b w w2) : w1 = w2 := by
  unfold InfoFed at h h'
  cases b with
  | false => exact Eq.trans h (Eq.symm h')
  | true =>
    obtain ⟨v, k, x1, x2, h1, h2, h3⟩ := h
    obtain ⟨v', k', y1, y2, g1, g2, g3⟩ := h'
    obtain ⟨rfl, rfl⟩ := call_det h1 g1
    obtain ⟨rfl, rfl⟩ := call_det h2 g2
    exact (call_det h3 g3).2

theorem ChainFed.det {n : Nat} {off : U32} {w w1 : σ} (h : ChainFed ops n off w w1) :
    ∀ {m : Nat} {w2 : σ}, ChainFed ops m off w w2 → w1 = w2 := by
  induction h with
  | stop h =>
    intro m w2 h'
    cases h' with
    | stop h' => rw [h] at h'; exact (Prod.mk.inj h').2
    | piece h' => rw [h] at h'; cases (Prod.mk.inj h').1
  | piece h1 _ h2 _ ih =>
    intro m w2 h'
    cases h' with
    | stop h' => rw [h1] at h'; cases (Prod.mk.inj h').1
    | piece g1 _ g2 g3 =>
      obtain ⟨e, rfl⟩ := call_det h1 g1
      obtain ⟨rfl, rfl⟩ := Prod.mk.inj e
      obtain ⟨_, rfl⟩ := call_det h2 g2
      exact ih g3

theorem Measured.det {l : List Nat} {w w1 w2 : σ} {d1 d2 : Bytes} (h : Measured ops st l w d1 w1)
    (h' : Measured ops st l w d2 w2) : d1 = d2 ∧ w1 = w2 := by
  obtain ⟨x1, x2, x3, x4, x5, h1, h2, h3, h4, h5, h6⟩ := h
  obtain ⟨y1, y2, y3, y4, y5, g1, g2, g3, g4, g5, g6⟩ := h'
  obtain ⟨_, rfl⟩ := call_det h1 g1
  obtain ⟨_, rfl⟩ := call_det h2 g2
  have := h3.det g3
  subst this
  have := h4.det g4
  subst this
  have : x5 = y5 := by
    unfold DiceFed at h5 g5
    split at h5
    · rename_i hn
      rw [if_pos hn] at g5
      obtain ⟨_, _, h5⟩ := h5
      obtain ⟨_, _, g5⟩ := g5
      exact h5.det g5
    · rename_i hn
      rw [if_neg hn] at g5
      exact Eq.trans h5 (Eq.symm g5)
  subst this
  exact call_det h6 g6

theorem KeyPair.det {d : Bytes} {w w1 w2 : σ} {k1 k2 : ops.Key} {o1 o2 : Option (BArr 32)}
    (h : KeyPair ops kind a d w k1 o1 w1) (h' : KeyPair ops kind a d w k2 o2 w2) :
    k1 = k2 ∧ o1 = o2 ∧ w1 = w2 := by
  cases kind <;>
  · obtain ⟨x1, x2, h1, h2, h3⟩ := h
    obtain ⟨y1, y2, g1, g2, g3⟩ := h'
    obtain ⟨rfl, rfl⟩ := call_det h2 g2
    obtain ⟨rfl, rfl⟩ := call_det h3 g3
    exact ⟨rfl, h1.trans g1.symm, rfl⟩

theorem AltName.det {w w1 w2 : σ} {o1 o2 : Option OtherName} (h : AltName ops w o1 w1)
    (h' : AltName ops w o2 w2) : o1 = o2 ∧ w1 = w2 := by
  unfold AltName at h h'
  cases o1 <;> cases o2 <;> simp only at h h' <;> rw [h] at h' <;> injection h' with e1 e2
  · exact ⟨rfl, e2⟩
  · cases e1
  · cases e1
  · injection e1 with e1
    exact ⟨congrArg some e1, e2⟩

theorem Drafted.det {w w1 w2 : σ} {D E : Draft} (h : Drafted ops kind a st w D w1)
    (h' : Drafted ops kind a st w E w2) : D = E ∧ w1 = w2 := by
  obtain ⟨k, x1, x2, x3, x4, x5, x6, x7, x8, h1, h2, h3, h4, h5, _, _, h6, _, h7, _, h8, h9, h10,
    h11⟩ := h
  obtain ⟨k', y1, y2, y3, y4, y5, y6, y7, y8, g1, g2, g3, g4, g5, _, _, g6, _, g7, _, g8, g9, g10,
    g11⟩ := h'
  cases D with | mk s1 s2 s3 s4 s5 s6 s7 s8 s9 s10 s11 => ?_
  cases E with | mk t1 t2 t3 t4 t5 t6 t7 t8 t9 t10 t11 => ?_
  simp only at *
  obtain rfl := h1.unique g1
  obtain rfl := h2.unique g2
  obtain ⟨rfl, rfl⟩ := h3.det g3
  obtain ⟨rfl, rfl, rfl⟩ := h4.det g4
  obtain ⟨rfl, rfl⟩ := call_det h5 g5
  obtain ⟨rfl, rfl⟩ := h6.det g6
  obtain ⟨rfl, rfl⟩ := h7.det g7
  obtain ⟨rfl, rfl⟩ := call_det h8 g8
  obtain ⟨rfl, rfl⟩ := h9.det g9
  obtain ⟨rfl, rfl⟩ := call_det h10 g10
  obtain ⟨rfl, rfl⟩ := call_det h11 g11
  exact ⟨rfl, rfl⟩

theorem Issued.det {D : Draft} {w w1 w2 : σ} {t u : Asn} (h : Issued ops a st D kind w t w1)
    (h' : Issued ops a st D kind w u w2) : t = u ∧ w1 = w2 := by
  cases h with
  | certificate h1 h2 h3 h4 =>
    cases h' with
    | certificate g1 g2 g3 g4 =>
      obtain ⟨e, rfl⟩ := call_det h2 g2
      obtain ⟨rfl, rfl⟩ := Prod.mk.inj e
      obtain ⟨rfl, rfl⟩ := call_det h4 g4
      exact ⟨rfl, rfl⟩
    | request => exact absurd rfl h1
  | request h1 h2 h3 h4 =>
    cases h' with
    | certificate g1 => exact absurd rfl g1
    | request g1 g2 g3 g4 =>
      obtain ⟨rfl, rfl⟩ := call_det h1 g1
      obtain ⟨rfl, rfl⟩ := call_det h2 g2
      obtain ⟨rfl, rfl⟩ := call_det h3 g3
      obtain ⟨rfl, rfl⟩ := call_det h4 g4
      exact ⟨rfl, rfl⟩

end Dpe
