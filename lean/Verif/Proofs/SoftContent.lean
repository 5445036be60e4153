import Verif.Spec.Keys
import Verif.Props.Binding
import Verif.Proofs.SoftKey
/-
What the software back end hashes for an ancestry.
-/
namespace Dpe
variable {cfg : Cfg} {P : Prims} {τ : Type} {plat : Ops τ}

theorem Inputs.content {st : State cfg} {path : List Nat} {info chain : Bytes}
    (h : Inputs plat st path info chain) : Content st path info chain := by
  have no : ∀ {f : Nat → Bool}, path.any f ≠ true → ∀ j ∈ path, f j = false := by
    intro f h j hj
    cases hf : f j with
    | false => rfl
    | true => exact absurd (List.any_eq_true.2 ⟨j, hj, hf⟩) h
  constructor
  · have h1 := h.info
    split at h1
    · rename_i hy
      obtain ⟨vid, sku, _, _, _, _, _, h1⟩ := h1
      exact .inr ⟨⟨vid, sku, h1⟩, List.any_eq_true.1 hy⟩
    · rename_i hn
      exact .inl ⟨h1, no hn⟩
  · intro hno
    have h2 := h.chain
    rw [if_neg] at h2
    · exact h2
    · intro hy
      obtain ⟨j, hj, hd⟩ := List.any_eq_true.1 hy
      rw [hno j hj] at hd
      cases hd

theorem Inputs.der {st : State cfg} {path : List Nat} {info chain : Bytes}
    (h : Inputs plat st path info chain) (hd : ServesDer plat) : DerStart chain := by
  have h2 := h.chain
  split at h2
  · obtain ⟨w, h2⟩ := h2
    cases h2 with
    | stop => exact .inl rfl
    | piece h3 h4 h5 =>
      right
      have := hd _ _ _ _ h3
      rw [List.head?_append, this]
      rfl
  · exact .inl h2

theorem soft_update_some {b x : Bytes} {w w' : Soft P × τ} (h : w.1.hasher = some x)
    (h1 : (softOps P plat).hashUpdate b w = (.ok (), w')) :
    w'.1.hasher = some (x ++ b) ∧ w'.2 = w.2 := by
  simp only [softOps, Soft.hashUpdate, h, Prod.mk.injEq, true_and] at h1
  subst h1
  exact ⟨rfl, rfl⟩

theorem soft_updated_some {l : List Bytes} : ∀ {x : Bytes} {w w' : Soft P × τ}, w.1.hasher = some x →
    Updated (softOps P plat) l w w' → w'.1.hasher = some (x ++ l.flatten) := by
  induction l with
  | nil => rintro x w w' h h1; cases h1; simpa using h
  | cons b l ih =>
    rintro x w w' h ⟨y, h1, h2⟩
    have := ih (soft_update_some h h1).1 h2
    simpa using this

theorem soft_chain_text {n : Nat} {off : U32} {w w' : Soft P × τ}
    (h1 : ChainFed (softOps P plat) n off w w') : ∀ {x : Bytes}, w.1.hasher = some x →
    ∃ chain, ChainText plat off w.2 chain ∧ w'.1.hasher = some (x ++ chain) := by
  induction h1 with
  | @stop off e w w' a =>
    intro x hx
    simp only [softOps, Prod.mk.injEq] at a
    obtain ⟨a1, rfl⟩ := a
    exact ⟨[], .stop (Prod.ext a1 rfl), by simpa using hx⟩
  | @piece n off len b w w1 w2 w' a hl c _ ih =>
    intro x hx
    simp only [softOps, Prod.mk.injEq] at a
    obtain ⟨a1, rfl⟩ := a
    obtain ⟨c1, c2⟩ := soft_update_some (x := x) (by exact hx) c
    obtain ⟨chain, d1, d2⟩ := ih c1
    rw [c2] at d1
    exact ⟨_, .piece (Prod.ext a1 rfl) hl d1, by rw [d2, List.append_assoc]⟩

theorem chunks_flatten (st : State cfg) (l : List Nat) :
    (l.flatMap fun i => nodeChunks (st.at i)).flatten = (l.map fun i => nodeBytes (st.at i)).flatten := by
  induction l with
  | nil => rfl
  | cons i l ih =>
    rw [List.flatMap_cons, List.flatten_append, ih, List.map_cons, List.flatten_cons]
    congr 1

theorem soft_content {st : State cfg} {l : List Nat} {w w' : Soft P × τ} {d : Bytes}
    (h : Measured (softOps P plat) st l w d w') :
    ∃ info chain, Inputs plat st l info chain ∧ d = P.hash (contentBytes st l info chain) := by
  obtain ⟨x1, x2, x3, x4, x5, a1, a2, a3, a4, a5, a6⟩ := h
  have e2 : x2.1.hasher = some [] := by
    simp only [softOps, Soft.hashInit, Prod.mk.injEq, true_and] at a2
    subst a2; rfl
  have e3 := soft_updated_some e2 a3
  rw [chunks_flatten, List.nil_append] at e3
  obtain ⟨info, i1, i2⟩ : ∃ info,
      (if l.any fun i => (st.at i).usesInfo then
        ∃ vid sku w w' w'', plat.vendorId w = (.ok vid, w') ∧ plat.vendorSku w' = (.ok sku, w'') ∧
          info = infoBytes cfg st.support vid sku
      else info = []) ∧
      x4.1.hasher = some ((l.map fun i => nodeBytes (st.at i)).flatten ++ info) := by
    unfold InfoFed at a4
    split at a4
    · rename_i hy
      obtain ⟨vid, sku, y1, y2, b1, b2, b3⟩ := a4
      simp only [softOps, Prod.mk.injEq] at b1 b2
      obtain ⟨b1, rfl⟩ := b1
      obtain ⟨b2, rfl⟩ := b2
      refine ⟨infoBytes cfg st.support vid sku, ?_, (soft_update_some (by exact e3) b3).1⟩
      rw [if_pos hy]
      exact ⟨vid, sku, _, _, _, Prod.ext b1 rfl, Prod.ext b2 rfl, rfl⟩
    · rename_i hn
      cases a4
      exact ⟨[], by rw [if_neg hn], by simpa using e3⟩
  obtain ⟨chain, c1, c2⟩ : ∃ chain,
      (if l.any fun i => (st.at i).usesDice then ∃ w, ChainText plat 0 w chain else chain = []) ∧
      x5.1.hasher = some ((l.map fun i => nodeBytes (st.at i)).flatten ++ info ++ chain) := by
    unfold DiceFed at a5
    split at a5
    · rename_i hy
      obtain ⟨n, _, a5⟩ := a5
      obtain ⟨chain, b1, b2⟩ := soft_chain_text a5 i2
      exact ⟨chain, by rw [if_pos hy]; exact ⟨_, b1⟩, b2⟩
    · rename_i hn
      cases a5
      exact ⟨[], by rw [if_neg hn], by simpa using i2⟩
  refine ⟨info, chain, ⟨i1, c1⟩, ?_⟩
  simp only [softOps, Soft.hashFinish, c2] at a6
  have := (Prod.mk.inj a6).1
  split at this
  · exact (Except.ok.inj this).symm
  · cases this

theorem soft_leaf {st : State cfg} {l : List Nat} {label : Bytes} {w w' : Soft P × τ} {k : Unit}
    (h : SigningKey (softOps P plat) st l label w k w') :
    ∃ fed cdi, Derived P plat st l label fed cdi w'.1.priv := by
  obtain ⟨d, cdi, w1, h1, h2, h3⟩ := soft_key h
  obtain ⟨info, chain, h4, rfl⟩ := soft_content h1
  exact ⟨_, cdi, info, chain, h4, rfl, h2, h3⟩

theorem soft_exported {d info label ctx : Bytes} {hd : BArr 32} {k : Unit} {w w1 w' : Soft P × τ}
    (h2 : (softOps P plat).deriveExportedCdi d info w = (.ok hd, w1))
    (h3 : (softOps P plat).deriveKeyPairExported hd label ctx w1 = (.ok k, w')) :
    ∃ cdi, P.hkdfCdi d info = .ok cdi ∧ P.hkdfKey cdi label ctx = .ok w'.1.priv := by
  simp only [softOps, Soft.deriveExportedCdi] at h2
  cases hc : P.hkdfCdi d info with
  | error e => rw [hc] at h2; simp at h2
  | ok cdi =>
    rw [hc] at h2
    simp only at h2
    split at h2
    · simp at h2
    · split at h2
      · simp at h2
      · rename_i hs
        have hs : w.1.slots = [] := by
          unfold maxCdiHandles at hs
          exact List.eq_nil_of_length_eq_zero (by omega)
        simp only [Prod.mk.injEq] at h2
        obtain ⟨h2, rfl⟩ := h2
        have h2 := Except.ok.inj h2
        simp only [softOps, Soft.deriveKeyPairExported, hs, List.nil_append, List.find?_cons, h2,
          beq_self_eq_true, Soft.deriveKeyPair] at h3
        cases hk : P.hkdfKey cdi label ctx with
        | error e => rw [hk] at h3; simp at h3
        | ok key =>
          rw [hk] at h3
          simp only [Prod.mk.injEq] at h3
          obtain ⟨_, rfl⟩ := h3
          exact ⟨cdi, rfl, hk⟩

end Dpe
