import Verif.Proofs.Validate
/-
Analysis of the second phase of the validator (depth-first search over the forest).
-/
namespace Dpe
variable {cfg : Cfg} {st : State cfg}

/-- The link rules without acyclicity. -/
structure Half (st : State cfg) : Prop where
  up : ∀ i, Live st i → (st.at i).parentIdx ≠ ROOT →
    Live st (st.at i).parentIdx ∧ Lists st (st.at i).parentIdx i
  down : ∀ i j, Lists st i j → Live st i ∧ Live st j ∧ (st.at j).parentIdx = i

theorem StateOk.half (h : StateOk st) : Half st := by
  refine ⟨fun i hi hn => ((h.slot i (lt_of_live hi)).links hi).1 hn, fun i j hl => ?_⟩
  by_cases hi : Live st i
  · exact ⟨hi, ((h.slot i (lt_of_live hi)).links hi).2 j hl⟩
  · by_cases hlt : i < cfg.maxHandles
    · exact absurd hl (((h.slot i hlt).blank hi).2.1 j)
    · rw [Lists, at_of_ge (by omega)] at hl
      simp [Context.new] at hl

/-- `k` is `i` or one of its descendants. -/
def InSub (st : State cfg) (i k : Nat) : Prop := k = i ∨ Desc st i k

theorem Half.ne_root (H : Half st) {i j : Nat} (h : Lists st i j) : (st.at j).parentIdx ≠ ROOT := by
  rw [(H.down i j h).2.2]
  intro he
  exact root_not_lt (he ▸ lt_of_live (H.down i j h).1)

theorem Half.path_child (H : Half st) {i j : Nat} {l : List Nat} (hp : Path st i l)
    (h : Lists st i j) : Path st j (j :: l) :=
  .step (H.down i j h).2.1 (H.ne_root h) (by rw [(H.down i j h).2.2]; exact hp)

theorem Half.path_sub (H : Half st) {i k : Nat} {l : List Nat} (hp : Path st i l)
    (h : InSub st i k) : ∃ t, Path st k (t ++ l) := by
  rcases h with rfl | h
  · exact ⟨[], hp⟩
  · induction h with
    | child h => exact ⟨_ :: [], H.path_child hp h⟩
    | step _ h ih => obtain ⟨t, ht⟩ := ih; exact ⟨_ :: t, H.path_child ht h⟩

theorem InSub.head {i a k : Nat} (h : Lists st i a) (h2 : InSub st a k) : Desc st i k := by
  rcases h2 with rfl | h2
  · exact .child h
  · exact Desc.head h h2

theorem InSub.cases {i k : Nat} (h : InSub st i k) :
    k = i ∨ ∃ a, Lists st i a ∧ InSub st a k := by
  rcases h with rfl | h
  · exact .inl rfl
  · induction h with
    | child h => exact .inr ⟨_, h, .inl rfl⟩
    | step _ h ih =>
      rcases ih with rfl | ⟨a, ha, hk⟩
      · exact .inr ⟨_, h, .inl rfl⟩
      · refine .inr ⟨a, ha, .inr ?_⟩
        rcases hk with rfl | hk
        · exact .child h
        · exact .step hk h

theorem Half.sub_disjoint (H : Half st) {i a b k : Nat} {l : List Nat} (hp : Path st i l)
    (ha : Lists st i a) (hb : Lists st i b) (hka : InSub st a k) (hkb : InSub st b k) : a = b := by
  obtain ⟨t, ht⟩ := H.path_sub (H.path_child hp ha) hka
  obtain ⟨t', ht'⟩ := H.path_sub (H.path_child hp hb) hkb
  have := (List.append_inj' (ht.unique ht') (by simp)).2
  injection this

theorem Half.not_sub (H : Half st) {i a : Nat} {l : List Nat} (hp : Path st i l)
    (ha : Lists st i a) : ¬ InSub st a i := by
  intro h
  obtain ⟨t, ht⟩ := H.path_sub (H.path_child hp ha) h
  have := congrArg List.length (ht.unique hp)
  simp at this
  omega

theorem Path.root_of {i : Nat} {l : List Nat} (h : Path st i l) : ∃ r, IsRoot st r ∧
    Path st r [r] ∧ l.getLast? = some r := by
  induction h with
  | @root i hl hr => exact ⟨i, ⟨hl, hr⟩, .root hl hr, rfl⟩
  | @step i l hl hn hp ih =>
    obtain ⟨r, h1, h2, h3⟩ := ih
    refine ⟨r, h1, h2, ?_⟩
    obtain ⟨t, rfl⟩ := hp.head
    rw [List.getLast?_cons_cons]; exact h3

theorem Half.sub_root (H : Half st) {r r' k : Nat} (hr : IsRoot st r) (hr' : IsRoot st r')
    (h : InSub st r k) (h' : InSub st r' k) : r = r' := by
  obtain ⟨t, ht⟩ := H.path_sub (.root hr.1 hr.2) h
  obtain ⟨t', ht'⟩ := H.path_sub (.root hr'.1 hr'.2) h'
  have := (List.append_inj' (ht.unique ht') rfl).2
  injection this

theorem Half.sub_of_path (H : Half st) {i : Nat} {l : List Nat} (h : Path st i l) :
    ∃ r, IsRoot st r ∧ InSub st r i := by
  induction h with
  | @root i hl hr => exact ⟨i, ⟨hl, hr⟩, .inl rfl⟩
  | @step i l hl hn hp ih =>
    obtain ⟨r, h1, h2⟩ := ih
    refine ⟨r, h1, .inr ?_⟩
    rcases h2 with h2 | h2
    · rw [← h2]; exact .child (H.up i hl hn).2
    · exact .step h2 (H.up i hl hn).2

/-- A live context without a path to a root sits below a cycle. -/
theorem Half.cycle (H : Half st) {i : Nat} (hi : Live st i) (hn : ¬ ∃ l, Path st i l) :
    ∃ j, Live st j ∧ Anc st j j := by
  by_contra hc
  let up : Nat → Nat := fun n => Nat.rec i (fun _ x => (st.at x).parentIdx) n
  have hup : ∀ n, up (n + 1) = (st.at (up n)).parentIdx := fun _ => rfl
  have h1 : ∀ n, Live st (up n) ∧ ¬ ∃ l, Path st (up n) l := by
    intro n
    induction n with
    | zero => exact ⟨hi, hn⟩
    | succ n ih =>
      obtain ⟨a, b⟩ := ih
      have hr : (st.at (up n)).parentIdx ≠ ROOT := fun h => b ⟨_, .root a h⟩
      rw [hup]
      exact ⟨(H.up _ a hr).1, fun ⟨l, hl⟩ => b ⟨_, .step a hr hl⟩⟩
  have h2 : ∀ n, (st.at (up n)).parentIdx ≠ ROOT := fun n h => (h1 n).2 ⟨_, .root (h1 n).1 h⟩
  have h3 : ∀ m n, Anc st (up m) (up (m + n + 1)) := by
    intro m n
    induction n with
    | zero => exact .parent (h1 m).1 (h2 m)
    | succ n ih => exact .step ih (h1 (m + n + 1)).1 (h2 (m + n + 1))
  have h4 : ((List.range (cfg.maxHandles + 1)).map up).Nodup := by
    rw [List.Nodup, List.pairwise_map]
    refine (List.pairwise_lt_range (n := cfg.maxHandles + 1)).imp ?_
    intro a b hab he
    refine hc ⟨up a, (h1 a).1, ?_⟩
    have := h3 a (b - a - 1)
    rw [show a + (b - a - 1) + 1 = b by omega, ← he] at this
    exact this
  have := length_le_of_nodup_lt (n := cfg.maxHandles) h4 (by
    intro x hx
    obtain ⟨n, _, rfl⟩ := List.mem_map.mp hx
    exact lt_of_live (h1 n).1)
  simp at this
  omega

/-! ### The search -/

/-- What one search from `i` has done. -/
def Visited (st : State cfg) (ty : CtxType) (S : Nat → Prop) (seen seen' : List Bool) : Prop :=
  seen'.length = cfg.maxHandles ∧
  (∀ k, seen'[k]? = some true ↔ seen[k]? = some true ∨ S k) ∧
  ∀ k, S k → (st.at k).ctype = ty

theorem detectSubtree_res (H : Half st) (ty : CtxType) (fuel : Nat) : ∀ (i : Nat) (l : List Nat)
    (seen : List Bool), Path st i l → cfg.maxHandles < fuel + l.length →
    seen.length = cfg.maxHandles → (∀ k, seen[k]? = some true → ¬ InSub st i k) →
    ((st.at i).ctype = ty ∨ ∃ p, Lists st p i ∧ (st.at p).ctype = ty) →
    Res st (detectSubtree st ty fuel i seen) (Visited st ty (InSub st i) seen) := by
  induction fuel with
  | zero => intro i l seen hp hf; have := hp.length_le; omega
  | succ fuel ih =>
    intro i l seen hp hf hlen hun hty
    have hi := lt_of_live hp.live
    unfold detectSubtree
    rw [getElem?_of_lt hi]
    obtain ⟨b, hb⟩ : ∃ b, seen[i]? = some b := ⟨seen[i], List.getElem?_eq_getElem (by omega)⟩
    have hbf : b = false := by
      cases b with
      | false => rfl
      | true => exact absurd (.inl rfl) (hun i hb)
    simp only [hb, hbf]
    refine .ite (fun h => ?_) fun _ => .ite (fun h => ?_) fun hct => ?_
    · simp at h
      rcases h with h | h
      · omega
      · exact absurd h hp.live
    · rcases hty with hty | ⟨p, h1, h2⟩
      · exact absurd hty h
      · exact ⟨p, i, h1, by rw [h2]; exact fun e => h e.symm⟩
    have hct : (st.at i).ctype = ty := by simpa using hct
    have key : ∀ (ks : List Nat) (seen : List Bool), seen.length = cfg.maxHandles → ks.Nodup →
        (∀ a ∈ ks, Lists st i a) →
        (∀ k, seen[k]? = some true → ∀ a ∈ ks, ¬ InSub st a k) →
        Res st (ks.foldlM (init := seen) fun seen child => detectSubtree st ty fuel child seen)
          (Visited st ty (fun k => ∃ a ∈ ks, InSub st a k) seen) := by
      intro ks
      induction ks with
      | nil =>
        intro seen hlen _ _ _
        exact .ok ⟨hlen, fun k => ⟨.inl, fun h => by simpa using h⟩, fun k h => by simp at h⟩
      | cons a ks ihk =>
        intro seen hlen hnd hls hun
        rw [List.foldlM_cons]
        have hla := hls a (by simp)
        refine (ih a (a :: l) seen (H.path_child hp hla) (by simp; omega) hlen
          (fun k hk => hun k hk a (by simp)) (.inr ⟨i, hla, hct⟩)).bind fun seen1 hv1 => ?_
        obtain ⟨hl1, hs1, ht1⟩ := hv1
        refine (ihk seen1 hl1 (List.nodup_cons.mp hnd).2 (fun b hb => hls b (by simp [hb])) ?_).mono
          fun seen2 hv2 => ?_
        · intro k hk b hb hkb
          rcases (hs1 k).mp hk with h | h
          · exact hun k h b (by simp [hb]) hkb
          · have := H.sub_disjoint hp hla (hls b (by simp [hb])) h hkb
            exact (List.nodup_cons.mp hnd).1 (this ▸ hb)
        · obtain ⟨hl2, hs2, ht2⟩ := hv2
          refine ⟨hl2, fun k => ?_, fun k hk => ?_⟩
          · rw [hs2, hs1]; simp only [List.mem_cons, exists_eq_or_imp]; tauto
          · simp only [List.mem_cons, exists_eq_or_imp] at hk
            rcases hk with hk | hk
            · exact ht1 k hk
            · exact ht2 k hk
    have hset : ∀ k, (seen.set i true)[k]? = some true ↔ seen[k]? = some true ∨ k = i := by
      intro k
      rw [List.getElem?_set]
      by_cases hk : i = k
      · subst hk; simp [hlen, hi]
      · simp [hk, Ne.symm hk]
    have hmem : ∀ a, a ∈ childList cfg (st.at i).children ↔ Lists st i a := by
      intro a
      rw [mem_childList]
      exact ⟨fun h => h.2, fun h => ⟨lt_of_live (H.down i a h).2.1, h⟩⟩
    refine (key (childList cfg (st.at i).children) (seen.set i true) (by simpa using hlen)
      (childList_nodup ..) (fun a ha => (hmem a).mp ha) ?_).mono fun seen' hv => ?_
    · intro k hk a ha hka
      have hla := (hmem a).mp ha
      rcases (hset k).mp hk with h | h
      · exact hun k h (.inr (hka.head hla))
      · subst h; exact H.not_sub hp hla hka
    · obtain ⟨hl2, hs2, ht2⟩ := hv
      refine ⟨hl2, fun k => ?_, fun k hk => ?_⟩
      · rw [hs2, hset]
        constructor
        · rintro ((h | h) | ⟨a, ha, hk⟩)
          · exact .inl h
          · exact .inr (.inl h)
          · exact .inr (.inr (hk.head ((hmem a).mp ha)))
        · rintro (h | h)
          · exact .inl (.inl h)
          · rcases h.cases with h | ⟨a, ha, hk⟩
            · exact .inl (.inr h)
            · exact .inr ⟨a, (hmem a).mpr ha, hk⟩
      · rcases hk.cases with h | ⟨a, ha, hk⟩
        · rw [h]; exact hct
        · exact ht2 k ⟨a, (hmem a).mpr ha, hk⟩

/-! ### In-degrees -/

theorem bump_res : ∀ (ks : List Nat) (deg : List Nat), ks.Nodup → (∀ a ∈ ks, a < deg.length) →
    ∃ deg', ks.foldlM (m := Except Err) (init := deg) (fun deg child =>
        match deg[child]? with
        | none => vErr .childDoesNotExist
        | some n => .ok (deg.set child (n + 1))) = .ok deg' ∧ deg'.length = deg.length ∧
      ∀ j : Nat, deg'[j]? = deg[j]?.map fun n => if j ∈ ks then n + 1 else n := by
  intro ks
  induction ks with
  | nil => intro deg _ _; exact ⟨deg, rfl, rfl, fun j => by simp⟩
  | cons a ks ih =>
    intro deg hnd hlt
    have ha : a < deg.length := hlt a (by simp)
    rw [List.foldlM_cons, List.getElem?_eq_getElem ha]
    obtain ⟨deg', h1, h2, h3⟩ := ih (deg.set a (deg[a] + 1)) (List.nodup_cons.mp hnd).2
      (fun b hb => by simpa using hlt b (by simp [hb]))
    refine ⟨deg', h1, by simpa using h2, fun j => ?_⟩
    rw [h3, List.getElem?_set]
    by_cases hj : a = j
    · subst hj
      have : a ∉ ks := (List.nodup_cons.mp hnd).1
      simp [ha, this]
    · simp [hj, Ne.symm hj]

/-- The in-degree table: one for listed slots, zero for the others. -/
def DegOk (st : State cfg) (k : Nat) (deg : List Nat) : Prop :=
  deg.length = cfg.maxHandles ∧ ∀ j n, deg[j]? = some n →
    (n = 0 ∧ ∀ i, i < k → ¬ Lists st i j) ∨ (n = 1 ∧ ∃ i, i < k ∧ Lists st i j)

theorem inDegrees_res (H : Half st) : Res st (inDegrees st) (DegOk st cfg.maxHandles) := by
  unfold inDegrees
  have := Res.fold (st := st) (l := st.contexts) (P := DegOk st) 0
    (f := fun deg c => (childList cfg c.children).foldlM (init := deg) fun deg child =>
      match deg[child]? with
      | none => vErr .childDoesNotExist
      | some n => .ok (deg.set child (n + 1))) ?_ (List.replicate cfg.maxHandles 0) ?_
  · rw [st.len_eq, Nat.zero_add] at this; exact this
  · intro i c deg hc hd
    simp only [Nat.zero_add] at hd ⊢
    have hat := at_of_getElem? hc
    obtain ⟨deg', h1, h2, h3⟩ := bump_res (childList cfg c.children) deg (childList_nodup ..)
      (fun a ha => by rw [hd.1]; exact ((mem_childList ..).mp ha).1)
    rw [h1]
    refine .ok ⟨h2.trans hd.1, fun j n hj => ?_⟩
    rw [h3] at hj
    obtain ⟨m, hm, rfl⟩ := Option.map_eq_some_iff.mp hj
    have hjlt : j < cfg.maxHandles := by
      rw [← hd.1]; exact (List.getElem?_eq_some_iff.mp hm).1
    have hmem : j ∈ childList cfg c.children ↔ Lists st i j := by
      rw [mem_childList, Lists, hat]; simp [hjlt]
    by_cases hl : Lists st i j
    · rw [if_pos (hmem.mpr hl)]
      rcases hd.2 j m hm with ⟨h0, _⟩ | ⟨_, i', hi', hl'⟩
      · exact .inr ⟨by omega, i, by omega, hl⟩
      · have := (H.down i j hl).2.2.symm.trans (H.down i' j hl').2.2
        omega
    · rw [if_neg (fun h => hl (hmem.mp h))]
      rcases hd.2 j m hm with ⟨h0, hno⟩ | ⟨h0, i', hi', hl'⟩
      · refine .inl ⟨h0, fun i' hi' => ?_⟩
        by_cases he : i' = i
        · rw [he]; exact hl
        · exact hno i' (by omega)
      · exact .inr ⟨h0, i', by omega, hl'⟩
  · refine ⟨by simp, fun j n hj => .inl ⟨?_, fun i hi => by omega⟩⟩
    rw [List.getElem?_replicate] at hj
    by_cases h : j < cfg.maxHandles
    · simp [h] at hj; exact hj.symm
    · simp [h] at hj

/-! ### The whole second phase -/

/-- What is known after the roots among the first `k` slots have been searched. -/
structure Searched (st : State cfg) (k : Nat) (r : Nat × List Bool) : Prop where
  len : r.2.length = cfg.maxHandles
  seen : ∀ j, r.2[j]? = some true ↔ ∃ i, i < k ∧ IsRoot st i ∧ InSub st i j
  types : ∀ i j, i < k → IsRoot st i → InSub st i j → (st.at j).ctype = (st.at i).ctype
  none : r.1 = 0 → ∀ i, i < k → IsRoot st i → (st.at i).ctype ≠ .normal
  one : r.1 = 1 → ∀ i j, i < k → j < k → IsRoot st i → IsRoot st j → (st.at i).ctype = .normal →
    (st.at j).ctype = .normal → i = j
  some : 1 ≤ r.1 → ∃ i, i < k ∧ IsRoot st i ∧ (st.at i).ctype = .normal
  more : 1 < r.1 → ∃ i j, i ≠ j ∧ IsRoot st i ∧ IsRoot st j ∧ (st.at i).ctype = .normal ∧
    (st.at j).ctype = .normal

theorem searchRoots_res (H : Half st) {fuel : Nat} (hf : cfg.maxHandles ≤ fuel) {deg : List Nat}
    (hd : DegOk st cfg.maxHandles deg) :
    Res st (searchRoots fuel st deg) (Searched st cfg.maxHandles) := by
  unfold searchRoots
  have := Res.foldIdx (st := st) (l := st.contexts.zip deg) (P := Searched st) 0
    (f := fun acc p =>
      if p.1.2 == 0 && p.1.1.state != .inactive then do
        let seen ← detectSubtree st p.1.1.ctype fuel p.2 acc.2
        .ok (if p.1.1.ctype == .normal then acc.1 + 1 else acc.1, seen)
      else .ok acc) ?_ (0, List.replicate cfg.maxHandles false) ?_
  · have e : 0 + (st.contexts.zip deg).length = cfg.maxHandles := by
      simp [st.len_eq, hd.1]
    rw [e] at this; exact this
  · rintro i ⟨c, n⟩ ⟨cnt, seen⟩ hz hs
    simp only [Nat.zero_add] at hs ⊢
    obtain ⟨hc, hn⟩ := List.getElem?_zip_eq_some.mp hz
    simp only at hc hn
    have hat := at_of_getElem? hc
    have hiff : (n = 0 ∧ c.state ≠ .inactive) ↔ IsRoot st i := by
      constructor
      · rintro ⟨h0, hl⟩
        have hl : Live st i := by unfold Live; rw [hat]; exact hl
        refine ⟨hl, ?_⟩
        by_contra hr
        rcases hd.2 i n hn with ⟨_, h2⟩ | ⟨h2, _⟩
        · exact h2 _ (lt_of_live (H.up i hl hr).1) (H.up i hl hr).2
        · omega
      · rintro ⟨hl, hr⟩
        refine ⟨?_, by unfold Live at hl; rw [hat] at hl; exact hl⟩
        rcases hd.2 i n hn with ⟨h2, _⟩ | ⟨_, i', _, h3⟩
        · exact h2
        · exact absurd hr (H.ne_root h3)
    by_cases hroot : IsRoot st i
    · have hcond := hiff.mpr hroot
      rw [if_pos (by simpa using hcond)]
      have hp : Path st i [i] := .root hroot.1 hroot.2
      refine (detectSubtree_res H c.ctype fuel i [i] seen hp (by simp; omega) hs.len ?_
        (.inl (by rw [hat]))).bind fun seen' hv => ?_
      · intro k hk hin
        obtain ⟨r, hr, hr2, hr3⟩ := (hs.seen k).mp hk
        have := H.sub_root hr2 hroot hr3 hin
        omega
      · obtain ⟨hl1, hs1, ht1⟩ := hv
        have hseen : ∀ j, seen'[j]? = some true ↔ ∃ r, r < i + 1 ∧ IsRoot st r ∧ InSub st r j := by
          intro j
          rw [hs1, hs.seen]
          constructor
          · rintro (⟨r, h1, h2⟩ | h)
            · exact ⟨r, by omega, h2⟩
            · exact ⟨i, by omega, hroot, h⟩
          · rintro ⟨r, h1, h2, h3⟩
            by_cases he : r = i
            · rw [he] at h3; exact .inr h3
            · exact .inl ⟨r, by omega, h2, h3⟩
        have htypes : ∀ r j, r < i + 1 → IsRoot st r → InSub st r j →
            (st.at j).ctype = (st.at r).ctype := by
          intro r j h1 h2 h3
          by_cases he : r = i
          · rw [he] at h3 ⊢; rw [ht1 j h3, hat]
          · exact hs.types r j (by omega) h2 h3
        by_cases hnorm : c.ctype = .normal
        · have hni : (st.at i).ctype = .normal := by rw [hat]; exact hnorm
          simp only [hnorm, beq_self_eq_true, if_true]
          refine .ok ⟨hl1, hseen, htypes, fun h => absurd h (by simp), fun h => ?_,
            fun _ => ⟨i, by omega, hroot, hni⟩, fun h => ?_⟩
          · have h0 : cnt = 0 := by simpa using h
            have hno := hs.none h0
            intro a b ha hb hra hrb hna hnb
            have e1 : a = i := by
              by_contra hne; exact hno a (by omega) hra hna
            have e2 : b = i := by
              by_contra hne; exact hno b (by omega) hrb hnb
            rw [e1, e2]
          · obtain ⟨r, h1, h2, h3⟩ := hs.some (by simp at h ⊢; omega)
            exact ⟨r, i, by omega, h2, hroot, h3, hni⟩
        · have hni : (st.at i).ctype ≠ .normal := by rw [hat]; exact hnorm
          have hb : (c.ctype == CtxType.normal) = false := by simpa using hnorm
          simp only [hb, Bool.false_eq_true, if_false]
          refine .ok ⟨hl1, hseen, htypes, fun h a ha hra => ?_, fun h a b ha hb hra hrb hna hnb => ?_,
            fun h => ?_, hs.more⟩
          · by_cases he : a = i
            · rw [he]; exact hni
            · exact hs.none h a (by omega) hra
          · have e1 : a ≠ i := fun e => hni (e ▸ hna)
            have e2 : b ≠ i := fun e => hni (e ▸ hnb)
            exact hs.one h a b (by omega) (by omega) hra hrb hna hnb
          · obtain ⟨r, h1, h2⟩ := hs.some h
            exact ⟨r, by omega, h2⟩
    · rw [if_neg (fun h => hroot (hiff.mp (by simpa using h)))]
      have hlt : ∀ a, a < i + 1 → IsRoot st a → a < i := by
        intro a ha hr
        have : a ≠ i := fun e => hroot (e ▸ hr)
        omega
      refine .ok ⟨hs.len, fun j => ?_, fun a j ha hr => hs.types a j (hlt a ha hr) hr,
        fun h a ha hr => hs.none h a (hlt a ha hr) hr,
        fun h a b ha hb hra hrb => hs.one h a b (hlt a ha hra) (hlt b hb hrb) hra hrb,
        fun h => ?_, hs.more⟩
      · rw [hs.seen]
        constructor
        · rintro ⟨r, h1, h2⟩; exact ⟨r, by omega, h2⟩
        · rintro ⟨r, h1, h2, h3⟩; exact ⟨r, hlt r h1 h2, h2, h3⟩
      · obtain ⟨r, h1, h2⟩ := hs.some h
        exact ⟨r, by omega, h2⟩
  · refine ⟨by simp, fun j => ⟨fun h => ?_, fun ⟨i, hi, _⟩ => by omega⟩, fun i j hi => by omega,
      fun _ i hi => by omega, fun h => by simp at h, fun h => by simp at h, fun h => by simp at h⟩
    rw [List.getElem?_replicate] at h
    split at h <;> simp at h

/-- The second phase establishes the rest of the rules. -/
structure ForestOk (st : State cfg) : Prop where
  path : ∀ i, Live st i → ∃ l, Path st i l
  types : ∀ i j, Lists st i j → (st.at i).ctype = (st.at j).ctype
  normal : ∀ i j, IsRoot st i → IsRoot st j → (st.at i).ctype = .normal →
    (st.at j).ctype = .normal → i = j

theorem validateForest_res (H : Half st) {fuel : Nat} (hf : cfg.maxHandles ≤ fuel) :
    Res st (validateForest fuel st) fun _ => ForestOk st := by
  unfold validateForest
  refine (inDegrees_res H).bind fun deg hd => ?_
  refine (Res.forM (P := fun _ => True) fun n hn => .ite (fun h => ?_) fun _ => .ok trivial).bind
    fun _ _ => (searchRoots_res H hf hd).bind fun r hs => .ite (fun h => hs.more h) fun h1 => ?_
  · obtain ⟨j, hj⟩ := List.getElem?_of_mem hn
    rcases hd.2 j n hj with ⟨h0, _⟩ | ⟨h0, _⟩ <;> omega
  have hno : ∀ i, Live st i → r.2[i]? ≠ some true → ¬ ∃ l, Path st i l := by
    rintro i hi hn ⟨l, hl⟩
    obtain ⟨a, h1, h2⟩ := H.sub_of_path hl
    exact hn ((hs.seen i).mpr ⟨a, lt_of_live h1.1, h1, h2⟩)
  refine (Res.forM (P := fun p => p.1.state ≠ .inactive → p.2 = true) fun p hp => ?_).mono
    fun _ hall => ?_
  · obtain ⟨c, b⟩ := p
    refine .ite (fun h => ?_) fun h => .ok fun h2 => ?_
    · obtain ⟨i, hz⟩ := List.getElem?_of_mem hp
      obtain ⟨hc, hb⟩ := List.getElem?_zip_eq_some.mp hz
      simp only at hc hb h
      simp at h
      have hl : Live st i := by unfold Live; rw [at_of_getElem? hc]; exact h.1
      exact H.cycle hl (hno i hl (by rw [hb, h.2]; simp))
    · simp at h; exact h h2
  · have hseen : ∀ i, Live st i → ∃ a, IsRoot st a ∧ InSub st a i := by
      intro i hi
      have hlt := lt_of_live hi
      obtain ⟨b, hb⟩ : ∃ b, r.2[i]? = some b :=
        ⟨_, List.getElem?_eq_getElem (by rw [hs.len]; exact hlt)⟩
      have hz : (st.contexts.zip r.2)[i]? = some (st.at i, b) :=
        List.getElem?_zip_eq_some.mpr ⟨getElem?_of_lt hlt, hb⟩
      have := hall _ (List.mem_of_getElem? hz) hi
      simp only at this
      rw [this] at hb
      obtain ⟨a, _, h2⟩ := (hs.seen i).mp hb
      exact ⟨a, h2⟩
    refine ⟨fun i hi => ?_, fun i j hl => ?_, fun i j hi hj hni hnj => ?_⟩
    · obtain ⟨a, h1, h2⟩ := hseen i hi
      obtain ⟨t, ht⟩ := H.path_sub (.root h1.1 h1.2) h2
      exact ⟨_, ht⟩
    · obtain ⟨a, h1, h2⟩ := hseen i (H.down i j hl).1
      have h3 : InSub st a j := by
        rcases h2 with rfl | h2
        · exact .inr (.child hl)
        · exact .inr (.step h2 hl)
      rw [hs.types a i (lt_of_live h1.1) h1 h2, hs.types a j (lt_of_live h1.1) h1 h3]
    · by_cases h0 : r.1 = 0
      · exact absurd hni (hs.none h0 i (lt_of_live hi.1) hi)
      · exact hs.one (by omega) i j (lt_of_live hi.1) (lt_of_live hj.1) hi hj hni hnj

theorem validateDpe_res {fuel : Nat} (hf : cfg.maxHandles ≤ fuel) :
    Res st (validateDpe fuel st) fun _ => Lawful st := by
  unfold validateDpe
  refine validateState_res.bind fun _ hs => ?_
  have H := hs.half
  refine (validateForest_res H hf).mono fun _ hfo => ?_
  have hge : ∀ i, ¬ i < cfg.maxHandles → st.at i = Context.new := fun i h => at_of_ge (by omega)
  refine ⟨hs.marker, fun i => ?_, fun i hi => ?_, fun i => ?_, fun i => ?_, fun i => ?_, hs.alone,
    ?_, hfo.types, hfo.normal⟩
  · by_cases h : i < cfg.maxHandles
    · exact (hs.slot i h).support
    · rw [hge i h]; simp [Context.new]
  · by_cases h : i < cfg.maxHandles
    · exact (hs.slot i h).blank hi
    · unfold Lists; rw [hge i h]; simp [Context.new]
  · by_cases h : i < cfg.maxHandles
    · exact (hs.slot i h).init
    · rw [hge i h]; simp [Context.new]
  · by_cases h : i < cfg.maxHandles
    · exact (hs.slot i h).loc
    · rw [hge i h]; simp [Context.new, Tci.new]
  · by_cases h : i < cfg.maxHandles
    · exact (hs.slot i h).retired
    · rw [hge i h]; simp [Context.new]
  · refine ⟨fun i hi hn => ?_, H.down, fun i hi => ?_⟩
    · obtain ⟨h1, h2⟩ := H.up i hi hn
      exact ⟨h1, h2, fun j hj => (H.down j i hj).2.2.symm⟩
    · obtain ⟨l, hl⟩ := hfo.path i hi
      exact ⟨l, hl, hl.nodup, hl.length_le⟩

end Dpe
