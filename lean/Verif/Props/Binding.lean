import Verif.Spec.Binding
import Verif.Props.Measure
/-
C24, C26: what the measurement hash binds, and what leaves it alone.
-/
namespace Dpe
section
variable {cfg : Cfg} {σ α β : Type} {ops : Ops σ} {st st' : State cfg}

/-! ### The recording does not change a computation -/

/-- `y` is `x` beside a recording. -/
def Sim (x : M cfg σ α) (y : M cfg (σ × Bytes) α) : Prop :=
  ∀ st w l out, ∃ l', y ⟨st, (w, l), out⟩ =
    ((x ⟨st, w, out⟩).1, ⟨(x ⟨st, w, out⟩).2.st, ((x ⟨st, w, out⟩).2.w, l'), (x ⟨st, w, out⟩).2.out⟩)

theorem Sim.pure (a : α) : Sim (pure a : M cfg σ α) (Pure.pure a) := fun _ _ l _ => ⟨l, rfl⟩

theorem Sim.fail (e : Err) : Sim (M.fail e : M cfg σ α) (M.fail e) := fun _ _ l _ => ⟨l, rfl⟩

theorem Sim.lift (x : Except Err α) : Sim (M.lift x : M cfg σ α) (M.lift x) := fun _ _ l _ => ⟨l, rfl⟩

theorem Sim.get : Sim (M.get : M cfg σ _) M.get := fun _ _ l _ => ⟨l, rfl⟩

theorem Sim.failIf (c : Bool) (e : Err) : Sim (M.failIf c e : M cfg σ _) (M.failIf c e) := by
  intro _ _ l _; cases c <;> exact ⟨l, rfl⟩

theorem Sim.bind {x : M cfg σ α} {y : M cfg (σ × Bytes) α} {f : α → M cfg σ β}
    {g : α → M cfg (σ × Bytes) β} (h : Sim x y) (hf : ∀ a, Sim (f a) (g a)) :
    Sim (x >>= f) (y >>= g) := by
  intro st w l out
  obtain ⟨l1, h1⟩ := h st w l out
  rw [run_bind, run_bind, h1]
  rcases x ⟨st, w, out⟩ with ⟨_ | a, s1⟩
  · exact ⟨l1, rfl⟩
  · obtain ⟨l2, h2⟩ := hf a s1.st s1.w l1 s1.out
    exact ⟨l2, h2⟩

theorem Sim.crypto {f : σ → Except CryptoErr α × σ} {g : σ × Bytes → Except CryptoErr α × (σ × Bytes)}
    (h : ∀ w l, ∃ l', g (w, l) = ((f w).1, ((f w).2, l'))) :
    Sim (M.crypto f : M cfg σ α) (M.crypto g) := by
  intro st w l out
  obtain ⟨l', h⟩ := h w l
  refine ⟨l', ?_⟩
  unfold M.crypto
  simp only
  rw [h]
  rcases f w with ⟨_ | a, w'⟩ <;> rfl

theorem Sim.platform (f : σ → Except PlatErr α × σ) :
    Sim (M.platform f : M cfg σ α) (M.platform (pass f)) := by
  intro st w l out
  refine ⟨l, ?_⟩
  unfold M.platform pass
  simp only
  rcases f w with ⟨_ | a, w'⟩ <;> rfl

theorem Sim.when {c : Bool} {x : M cfg σ α} {y : M cfg (σ × Bytes) α} {d : α} (h : Sim x y) :
    Sim (M.when c x d) (M.when c y d) := by
  cases c
  · exact Sim.pure d
  · exact h

theorem sim_pass (f : σ → Except CryptoErr α × σ) :
    Sim (M.crypto f : M cfg σ α) (M.crypto (pass f)) := Sim.crypto fun _ l => ⟨l, rfl⟩

theorem sim_update (b : Bytes) :
    Sim (M.crypto (ops.hashUpdate b) : M cfg σ _) (M.crypto ((record ops).hashUpdate b)) :=
  Sim.crypto fun _ l => ⟨l ++ b, rfl⟩

theorem sim_init : Sim (M.crypto ops.hashInit : M cfg σ _) (M.crypto (record ops).hashInit) :=
  Sim.crypto fun _ _ => ⟨[], rfl⟩

theorem sim_nodes (l : List (Except Err (Context cfg))) : ∀ i d,
    Sim (hashNodes ops l i d) (hashNodes (record ops) l i d) := by
  induction l with
  | nil => intro i d; exact Sim.pure _
  | cons x xs ih =>
    intro i d
    exact Sim.bind (Sim.lift x) fun _ => Sim.bind (sim_update _) fun _ =>
      Sim.bind (sim_update _) fun _ => ih _ _

theorem sim_dice : ∀ (fuel : Nat) (off : U32),
    Sim (diceLoop ops fuel off : M cfg σ _) (diceLoop (record ops) fuel off) := by
  intro fuel
  induction fuel with
  | zero => intro off; exact Sim.fail _
  | succ fuel ih =>
    intro off st w l out
    unfold diceLoop
    have e : (record ops).certChain off 2048 (w, l) = pass (ops.certChain off 2048) (w, l) := rfl
    simp only [e]
    unfold pass
    simp only
    rcases ops.certChain off 2048 w with ⟨_ | ⟨len, chunk⟩, w'⟩
    · exact ⟨l, rfl⟩
    · exact (Sim.bind (Sim.failIf _ _) fun _ => Sim.bind (sim_update _) fun _ => ih _) st w' l out

/-- C24: recording what is fed does not change the digest computed. -/
theorem C24_record_faithful (ops : Ops σ) (i : Nat) (s : Sys cfg σ) (l : Bytes) :
    (computeMeasurementHash (record ops) i ⟨s.st, (s.w, l), s.out⟩).1 =
      (computeMeasurementHash ops i s).1 := by
  have h : Sim (computeMeasurementHash ops i : M cfg σ _) (computeMeasurementHash (record ops) i) :=
    Sim.bind (sim_pass _) fun _ => Sim.bind sim_init fun _ => Sim.bind Sim.get fun _ =>
      Sim.bind (Sim.lift _) fun _ => Sim.bind (sim_nodes _ _ _) fun x =>
      Sim.bind (Sim.when (Sim.bind (Sim.bind (Sim.bind (Sim.platform _) fun _ =>
        Sim.bind (Sim.platform _) fun _ => Sim.pure _) fun _ => Sim.pure _) fun _ => sim_update _)) fun _ =>
      Sim.bind (Sim.when (sim_dice _ _)) fun _ => sim_pass _
  obtain ⟨_, h1⟩ := h s.st s.w l s.out
  rw [h1]

/-! ### What is fed -/

theorem crypto_update {b : Bytes} {s s' : Sys cfg (σ × Bytes)} {f : Unit → M cfg (σ × Bytes) α}
    {r : Except Err α} (h : (M.crypto ((record ops).hashUpdate b) >>= f) s = (r, s')) :
    (∃ e, r = .error e) ∨ ∃ w, f () ⟨s.st, (w, s.w.2 ++ b), s.out⟩ = (r, s') := by
  rw [bind_iff] at h
  rcases h with ⟨e, _, h⟩ | ⟨_, s1, h, h2⟩
  · exact .inl ⟨e, h⟩
  · rw [crypto_iff] at h
    rcases h with ⟨_, _, _, h, _⟩ | ⟨_, w', h, _, rfl⟩
    · cases h
    · right
      have : w' = (w'.1, s.w.2 ++ b) := by
        have := congrArg (fun x => x.2.2) h
        simp only [record] at this
        rw [this]
      rw [this] at h2
      exact ⟨_, h2⟩

theorem hashNodes_fed (l : List (Context cfg)) : ∀ (i d : Bool) {s s' : Sys cfg (σ × Bytes)}
    {x : Bool × Bool}, hashNodes (record ops) (l.map .ok) i d s = (.ok x, s') →
    s'.w.2 = s.w.2 ++ (l.map nodeBytes).flatten ∧ s'.st = s.st ∧ s'.out = s.out ∧
    x = (i || l.any (·.usesInfo), d || l.any (·.usesDice)) := by
  induction l with
  | nil =>
    intro i d s s' x h
    cases h
    simp
  | cons c cs ih =>
    intro i d s s' x h
    simp only [List.map_cons] at h
    unfold hashNodes at h
    rw [run_lift] at h
    simp only at h
    rcases crypto_update h with ⟨_, h⟩ | ⟨w, h⟩
    · cases h
    rcases crypto_update h with ⟨_, h⟩ | ⟨w, h⟩
    · cases h
    obtain ⟨h1, h2, h3, h4⟩ := ih _ _ h
    refine ⟨?_, h2, h3, ?_⟩
    · rw [h1]
      simp [nodeBytes, Tci.bytes, boolByte, List.append_assoc]
    · rw [h4]; simp [Bool.or_assoc]

theorem diceLoop_fed : ∀ (fuel : Nat) (off : U32) {s s' : Sys cfg (σ × Bytes)},
    diceLoop (record ops) fuel off s = (.ok (), s') → ∃ chain, s'.w.2 = s.w.2 ++ chain := by
  intro fuel
  induction fuel with
  | zero => intro off s s' h; cases h
  | succ fuel ih =>
    intro off s s' h
    unfold diceLoop at h
    have e : (record ops).certChain off 2048 s.w = pass (ops.certChain off 2048) s.w := rfl
    rw [e] at h
    unfold pass at h
    rcases hc : ops.certChain off 2048 s.w.1 with ⟨_ | ⟨len, chunk⟩, w'⟩
    · rw [hc] at h; cases h; exact ⟨[], by simp⟩
    · rw [hc] at h
      simp only at h
      rw [run_failIf] at h
      split_ifs at h
      · cases h
      rcases crypto_update h with ⟨_, h⟩ | ⟨w, h⟩
      · cases h
      obtain ⟨c, hc⟩ := ih _ h
      exact ⟨chunk.toList.take len.toNat ++ c, by rw [hc]; simp only [List.append_assoc]⟩

theorem infoBytes_eq (support vid sku : U32) :
    profileBytes cfg support vid sku ++ le32 cfg.profile.code = infoBytes cfg support vid sku := by
  have h1 : hdrBytes cfg.profile .noError =
      [0x52, 0x45, 0x50, 0x44, 0, 0, 0, 0] ++ le32 cfg.profile.code := by
    unfold hdrBytes
    congr 1
  have h2 : le16 0 ++ le16 13 = [0, 0, 13, 0] := by decide
  unfold profileBytes infoBytes
  simp only [word_eq, wireProfile_eq]
  rw [h1, List.append_assoc _ (le16 0), h2]

/-- C24: every successful computation of the measurement hash of a live context feeds the
contributions of the whole chain from the context up to its root, then the internal inputs that
the chain asks for. -/
theorem C24_fed (hr : InService st) {i : Nat} (hi : Live st i) {w : σ × Bytes} {out d : Bytes}
    {s' : Sys cfg (σ × Bytes)}
    (h : computeMeasurementHash (record ops) i ⟨st, w, out⟩ = (.ok d, s')) :
    ∃ nodes info chain, Fed ops st i s'.w.2 nodes info chain := by
  obtain ⟨l, hl⟩ := hr.wf.path i hi
  have h0 := h
  unfold computeMeasurementHash at h
  rw [bind_iff] at h
  rcases h with ⟨_, _, h⟩ | ⟨_, s1, h1, h⟩
  · cases h
  have e1 := (WorldOnly.crypto _).eq h1
  rw [bind_iff] at h
  rcases h with ⟨_, _, h⟩ | ⟨_, s2, h2, h⟩
  · cases h
  have e2 := (WorldOnly.crypto _).eq h2
  rw [crypto_iff] at h2
  have hz : s2.w.2 = [] := by
    rcases h2 with ⟨_, _, _, h2, _⟩ | ⟨_, w', h2, _, rfl⟩
    · cases h2
    · have := congrArg (fun x => x.2.2) h2
      simp only [record] at this
      exact this.symm
  have hst : s2.st = st := by rw [e2, e1]
  rw [run_get, hst, run_lift] at h
  obtain ⟨it, hit, hrem⟩ := ChainIter.new_path hl
  rw [hit] at h
  simp only at h
  rw [items_rem _ hrem (by have := hl.length_le; omega)] at h
  rw [bind_iff] at h
  rcases h with ⟨_, _, h⟩ | ⟨x, s3, h3, h⟩
  · cases h
  have hm : (l.map fun i => (.ok (st.at i) : Except Err (Context cfg))) = (l.map st.at).map .ok := by
    simp
  rw [hm] at h3
  obtain ⟨h4, h5, _, rfl⟩ := hashNodes_fed _ _ _ h3
  simp only [Bool.false_or, List.any_map] at h
  rw [hz, List.nil_append, List.map_map] at h4
  rw [bind_iff] at h
  rcases h with ⟨_, _, h⟩ | ⟨_, s4, h6, h⟩
  · cases h
  have hinfo : ∃ info, s4.w.2 = s3.w.2 ++ info ∧
      ((info = [] ∧ ∀ j ∈ l, (st.at j).usesInfo = false) ∨
       ((∃ vid sku, info = infoBytes cfg st.support vid sku) ∧ ∃ j ∈ l, (st.at j).usesInfo = true)) := by
    unfold M.when at h6
    split_ifs at h6 with hc
    · rw [bind_iff] at h6
      rcases h6 with ⟨_, _, h6⟩ | ⟨b, s5, h7, h8⟩
      · cases h6
      have hb : ∃ vid sku, b = infoBytes cfg st.support vid sku ∧ s5.w.2 = s3.w.2 := by
        unfold internalInfo getProfile at h7
        simp only [bind_iff, platform_iff, pure_iff] at h7
        rcases h7 with ⟨_, _, h7⟩ | ⟨p, s6, h7, h9, rfl⟩
        · cases h7
        rcases h7 with ⟨_, _, h7⟩ | ⟨vid, s7, h7, h10⟩
        · cases h7
        rcases h7 with ⟨_, _, _, h7, _⟩ | ⟨vid', w7, h7, hv, rfl⟩
        · cases h7
        rcases h10 with ⟨_, _, h10⟩ | ⟨sku, s8, h10, h11, rfl⟩
        · cases h10
        rcases h10 with ⟨_, _, _, h10, _⟩ | ⟨sku', w8, h10, hs, rfl⟩
        · cases h10
        cases h11
        cases h9
        refine ⟨vid, sku, infoBytes_eq _ _ _, ?_⟩
        have a : w7.2 = s3.w.2 := by
          have := congrArg (fun x => x.2.2) h7
          simpa [record, pass] using this.symm
        have b : w8.2 = w7.2 := by
          have := congrArg (fun x => x.2.2) h10
          simpa [record, pass] using this.symm
        simp only [a, b]
      obtain ⟨vid, sku, rfl, hw⟩ := hb
      refine ⟨_, ?_, .inr ⟨⟨vid, sku, rfl⟩, ?_⟩⟩
      · rw [crypto_iff] at h8
        rcases h8 with ⟨_, _, _, h8, _⟩ | ⟨_, w', h8, _, rfl⟩
        · cases h8
        · have := congrArg (fun x => x.2.2) h8
          simp only [record] at this
          simp only
          rw [← this, hw]
      · simpa using hc
    · cases h6
      refine ⟨[], by simp, .inl ⟨rfl, ?_⟩⟩
      simpa using hc
  obtain ⟨info, hi1, hi2⟩ := hinfo
  rw [bind_iff] at h
  rcases h with ⟨_, _, h⟩ | ⟨_, s5, h7, h⟩
  · cases h
  have hchain : ∃ chain, s5.w.2 = s4.w.2 ++ chain ∧
      ((∀ j ∈ l, (st.at j).usesDice = false) → chain = []) := by
    unfold M.when at h7
    split_ifs at h7 with hc
    · obtain ⟨c, hc'⟩ := diceLoop_fed _ _ h7
      refine ⟨c, hc', fun hno => ?_⟩
      rw [List.any_eq_true] at hc
      obtain ⟨j, hj, hc⟩ := hc
      exact absurd hc (by simp [hno j hj])
    · cases h7
      exact ⟨[], by simp, fun _ => rfl⟩
  obtain ⟨chain, hc1, hc2⟩ := hchain
  have hfin : s'.w.2 = s5.w.2 := by
    rw [crypto_iff] at h
    rcases h with ⟨_, _, _, h, _⟩ | ⟨_, w', h, _, rfl⟩
    · cases h
    · have := congrArg (fun x => x.2.2) h
      simpa [record, pass] using this.symm
  refine ⟨l, info, chain, ⟨w, out, d, s', h0, rfl⟩, hl, ?_, hi2, hc2⟩
  rw [hfin, hc1, hi1, h4]
  rfl

/-! ### Nothing can be confused -/

theorem length_nodeBytes (c : Context cfg) : (nodeBytes c).length = 13 + 2 * cfg.tciSize := by
  simp [nodeBytes, le32]; omega

theorem length_infoBytes (support vid sku : U32) : (infoBytes cfg support vid sku).length = 36 := by
  simp [infoBytes, le32]

theorem le32_inj {a b : U32} (h : le32 a = le32 b) : a = b := by
  simp only [le32, List.cons.injEq, and_true, UInt8.ofBitVec.injEq] at h
  obtain ⟨h0, h1, h2, h3⟩ := h
  have e : ∀ {n : Nat}, a.extractLsb' n 8 = b.extractLsb' n 8 →
      (a.toNat / 2 ^ n) % 256 = (b.toNat / 2 ^ n) % 256 := by
    intro n h
    have := congrArg BitVec.toNat h
    simpa [BitVec.extractLsb'_toNat, Nat.shiftRight_eq_div_pow] using this
  have h0 := e h0
  have h1 := e h1
  have h2 := e h2
  have h3 := e h3
  have := a.isLt
  have := b.isLt
  apply BitVec.eq_of_toNat_eq
  omega

theorem toList_inj {n : Nat} {a b : BArr n} (h : a.toList = b.toList) : a = b :=
  Vector.toList_inj.mp h

/-- The contribution of a node determines it. -/
theorem nodeBytes_inj {c c' : Context cfg} (h : nodeBytes c = nodeBytes c') : SameNode c c' := by
  unfold nodeBytes at h
  obtain ⟨h, h6⟩ := List.append_inj' h rfl
  obtain ⟨h, h5⟩ := List.append_inj' h rfl
  obtain ⟨h, h4⟩ := List.append_inj' h rfl
  obtain ⟨h, h3⟩ := List.append_inj' h (by simp)
  obtain ⟨h1, h2⟩ := List.append_inj' h (by simp)
  refine ⟨le32_inj h1, toList_inj h2, toList_inj h3, le32_inj h4, le32_inj h5, ?_⟩
  cases hc : c.allowX509 <;> cases hc' : c'.allowX509 <;> simp [hc, hc'] at h6 <;> rfl

theorem flatten_inj {n : Nat} (hn : 0 < n) : ∀ {a b : List Bytes}, (∀ x ∈ a, x.length = n) →
    (∀ x ∈ b, x.length = n) → a.flatten = b.flatten → a = b := by
  intro a
  induction a with
  | nil =>
    intro b _ hb h
    cases b with
    | nil => rfl
    | cons y b =>
      have := congrArg List.length h
      have h1 := hb y (List.mem_cons_self ..)
      simp only [List.flatten_nil, List.length_nil, List.flatten_cons, List.length_append] at this
      omega
  | cons x a ih =>
    intro b ha hb h
    have h1 := ha x (List.mem_cons_self ..)
    cases b with
    | nil =>
      simp at h
      rw [h.1] at h1; simp at h1; omega
    | cons y b =>
      simp only [List.flatten_cons] at h
      obtain ⟨h2, h3⟩ := List.append_inj h (by rw [h1, hb y (List.mem_cons_self ..)])
      rw [h2, ih (fun z hz => ha z (List.mem_cons_of_mem _ hz))
        (fun z hz => hb z (List.mem_cons_of_mem _ hz)) h3]

theorem Fed.content {i : Nat} {fed info chain : Bytes} {nodes : List Nat}
    (h : Fed ops st i fed nodes info chain) : Content st nodes info chain := ⟨h.infoIs, h.chainIs⟩

/-- 36 is not a multiple of the (odd, at least 13) size of a node. -/
theorem info_not_nodes (cfg : Cfg) (a b : Nat) :
    a * (13 + 2 * cfg.tciSize) + 36 ≠ b * (13 + 2 * cfg.tciSize) := by
  intro hab
  have hlt : a < b := by
    by_contra hc
    have : b * (13 + 2 * cfg.tciSize) ≤ a * (13 + 2 * cfg.tciSize) := Nat.mul_le_mul_right _ (by omega)
    omega
  obtain ⟨c, rfl⟩ : ∃ c, b = a + c := ⟨b - a, by omega⟩
  rw [Nat.add_mul] at hab
  have hc : c < 3 := by
    by_contra hc
    have : 3 * (13 + 2 * cfg.tciSize) ≤ c * (13 + 2 * cfg.tciSize) := Nat.mul_le_mul_right _ (by omega)
    omega
  have hc' : c = 0 ∨ c = 1 ∨ c = 2 := by omega
  rcases hc' with rfl | rfl | rfl <;> omega

theorem length_nodes (st : State cfg) (ns : List Nat) :
    ((ns.map fun j => nodeBytes (st.at j)).flatten).length = ns.length * (13 + 2 * cfg.tciSize) := by
  induction ns with
  | nil => simp
  | cons n ns ih =>
    rw [List.map_cons, List.flatten_cons, List.length_append, ih, length_nodeBytes, List.length_cons,
      Nat.add_mul ns.length 1, Nat.one_mul, Nat.add_comm]

theorem Content.info_length {st : State cfg} {nodes : List Nat} {info chain : Bytes}
    (h : Content st nodes info chain) : info.length = 0 ∨ info.length = 36 := by
  rcases h.infoIs with ⟨rfl, _⟩ | ⟨⟨_, _, rfl⟩, _⟩
  · exact .inl rfl
  · exact .inr (length_infoBytes ..)

theorem nodes_inj {st st' : State cfg} {a b : List Nat}
    (h : (a.map fun j => nodeBytes (st.at j)).flatten = (b.map fun j => nodeBytes (st'.at j)).flatten)
    (k j j' : Nat) (hj : a[k]? = some j) (hj' : b[k]? = some j') : SameNode (st.at j) (st'.at j') := by
  have h3 := flatten_inj (n := 13 + 2 * cfg.tciSize) (by omega) (by
    intro x hx; simp only [List.mem_map] at hx; obtain ⟨j, _, rfl⟩ := hx; exact length_nodeBytes _)
    (by intro x hx; simp only [List.mem_map] at hx; obtain ⟨j, _, rfl⟩ := hx; exact length_nodeBytes _) h
  have := congrArg (fun l => l[k]?) h3
  simp only [List.getElem?_map, hj, hj', Option.map_some, Option.some.injEq] at this
  exact nodeBytes_inj this

theorem content_inj {st st' : State cfg} {nodes nodes' : List Nat} {info chain info' chain' : Bytes}
    (h : Content st nodes info chain) (h' : Content st' nodes' info' chain')
    (hlen : chain.length = chain'.length)
    (he : contentBytes st nodes info chain = contentBytes st' nodes' info' chain') :
    nodes.length = nodes'.length ∧
    (∀ k j j' : Nat, nodes[k]? = some j → nodes'[k]? = some j' → SameNode (st.at j) (st'.at j')) ∧
    info = info' ∧ chain = chain' := by
  have k1 := h.info_length
  have k3 := h'.info_length
  have k2 := congrArg List.length he
  unfold contentBytes at k2 he
  rw [List.length_append, List.length_append, List.length_append, List.length_append, length_nodes,
    length_nodes, hlen] at k2
  have hcount : nodes.length = nodes'.length ∧ info.length = info'.length := by
    have hmul : ∀ {a b : Nat}, a * (13 + 2 * cfg.tciSize) = b * (13 + 2 * cfg.tciSize) → a = b :=
      fun h => Nat.eq_of_mul_eq_mul_right (by omega) h
    rcases k1 with k1 | k1 <;> rcases k3 with k3 | k3 <;> rw [k1, k3] at k2 ⊢
    · exact ⟨hmul (by omega), rfl⟩
    · exact absurd (show _ = _ by omega) (info_not_nodes cfg nodes'.length nodes.length)
    · exact absurd (show _ = _ by omega) (info_not_nodes cfg nodes.length nodes'.length)
    · exact ⟨hmul (by omega), rfl⟩
  obtain ⟨he, h1⟩ := List.append_inj' he hlen
  obtain ⟨he, h2⟩ := List.append_inj' he hcount.2
  exact ⟨hcount.1, nodes_inj he, h2, h1⟩

theorem SameNode.bytes {c c' : Context cfg} (h : SameNode c c') : nodeBytes c = nodeBytes c' := by
  obtain ⟨h1, h2, h3, h4, h5, h6⟩ := h
  simp only [nodeBytes, h1, h2, h3, h4, h5, h6]

/-- Exactly when two contents, the second with at least as many nodes, are the same bytes. -/
theorem content_exact (st st' : State cfg) (nodes nodes' : List Nat) (info chain info' chain' : Bytes)
    (hle : nodes.length ≤ nodes'.length) :
    contentBytes st nodes info chain = contentBytes st' nodes' info' chain' ↔
    (∀ k j j' : Nat, nodes[k]? = some j → nodes'[k]? = some j' → SameNode (st.at j) (st'.at j')) ∧
    info ++ chain = contentBytes st' (nodes'.drop nodes.length) info' chain' := by
  unfold contentBytes
  conv_lhs => rw [← List.take_append_drop nodes.length nodes', List.map_append, List.flatten_append]
  have hl : ((nodes.map fun j => nodeBytes (st.at j)).flatten).length =
      (((nodes'.take nodes.length).map fun j => nodeBytes (st'.at j)).flatten).length := by
    rw [length_nodes, length_nodes, List.length_take, Nat.min_eq_left hle]
  constructor
  · intro h
    simp only [List.append_assoc] at h
    obtain ⟨h1, h2⟩ := List.append_inj h hl
    refine ⟨fun k j j' hj hj' => nodes_inj h1 k j j' hj ?_, by simpa using h2⟩
    have hk : k < nodes.length := (List.getElem?_eq_some_iff.1 hj).1
    rw [List.getElem?_take, if_pos hk, hj']
  · rintro ⟨h1, h2⟩
    have : (nodes.map fun j => nodeBytes (st.at j)) =
        (nodes'.take nodes.length).map fun j => nodeBytes (st'.at j) := by
      apply List.ext_getElem?
      intro k
      rw [List.getElem?_map, List.getElem?_map]
      by_cases hk : k < nodes.length
      · rw [List.getElem?_take, if_pos hk, List.getElem?_eq_getElem hk,
          List.getElem?_eq_getElem (Nat.lt_of_lt_of_le hk hle)]
        simp only [Option.map_some]
        rw [(h1 k _ _ (List.getElem?_eq_getElem hk)
          (List.getElem?_eq_getElem (Nat.lt_of_lt_of_le hk hle))).bytes]
      · rw [List.getElem?_take, if_neg hk, List.getElem?_eq_none (by omega)]
        rfl
    rw [this, List.append_assoc, h2]
    simp only [List.append_assoc]

/-- C24: two contexts, possibly in different states and of different devices, feed the same
bytes into their measurement hashes only if their chains have the same length and agree node by
node, and the same internal inputs were fed.  Missing from the full claim: that the certificate
chain input has the same length on both sides is assumed (it holds in particular when neither
chain of contexts asks for it); `C24_false_dice` shows that this cannot be dropped. -/
theorem C24_binds_partial {τ : Type} {ops' : Ops τ} {st' : State cfg} {i i' : Nat}
    {fed info chain info' chain' : Bytes} {nodes nodes' : List Nat}
    (h : Fed ops st i fed nodes info chain) (h' : Fed ops' st' i' fed nodes' info' chain')
    (hlen : chain.length = chain'.length) :
    nodes.length = nodes'.length ∧
    (∀ k j j' : Nat, nodes[k]? = some j → nodes'[k]? = some j' → SameNode (st.at j) (st'.at j')) ∧
    info = info' ∧ chain = chain' := by
  refine content_inj h.content h'.content hlen ?_
  exact h.split.symm.trans h'.split

/-- C24, without any assumption: however the certificate chain inputs compare, equal bytes mean that
the two ancestries agree node by node, beginning with the contexts themselves, as far up as the shorter
one goes.  If one is longer, then the rest of it, followed by its internal inputs, is spelled out byte
for byte by the internal inputs of the other.  And nothing else is needed for the bytes to be equal. -/
theorem C24_exact {τ : Type} {ops' : Ops τ} {st' : State cfg} {i i' : Nat}
    {fed fed' info chain info' chain' : Bytes} {nodes nodes' : List Nat}
    (h : Fed ops st i fed nodes info chain) (h' : Fed ops' st' i' fed' nodes' info' chain')
    (hle : nodes.length ≤ nodes'.length) :
    fed = fed' ↔
    (∀ k j j' : Nat, nodes[k]? = some j → nodes'[k]? = some j' → SameNode (st.at j) (st'.at j')) ∧
    info ++ chain =
      ((nodes'.drop nodes.length).map fun j => nodeBytes (st'.at j)).flatten ++ info' ++ chain' := by
  rw [h.split, h'.split]
  exact content_exact st st' nodes nodes' info chain info' chain' hle

/-- C24: in particular the two contexts themselves always agree. -/
theorem C24_leaf {τ : Type} {ops' : Ops τ} {st' : State cfg} {i i' : Nat}
    {fed info chain info' chain' : Bytes} {nodes nodes' : List Nat}
    (h : Fed ops st i fed nodes info chain) (h' : Fed ops' st' i' fed nodes' info' chain') :
    SameNode (st.at i) (st'.at i') := by
  have h0 : nodes[0]? = some i := by cases h.path <;> rfl
  have h0' : nodes'[0]? = some i' := by cases h'.path <;> rfl
  rcases Nat.le_total nodes.length nodes'.length with hle | hle
  · exact ((C24_exact h h' hle).1 rfl).1 0 i i' h0 h0'
  · obtain ⟨h1, h2, h3, h4, h5, h6⟩ := ((C24_exact h' h hle).1 rfl).1 0 i' i h0' h0
    exact ⟨h1.symm, h2.symm, h3.symm, h4.symm, h5.symm, h6.symm⟩

theorem Content.head {st : State cfg} {nodes : List Nat} {info chain : Bytes}
    (h : Content st nodes info chain) (hc : DerStart chain) :
    (info = [] ∧ chain = []) ∨ (info = [] ∧ (info ++ chain).head? = some 0x30) ∨
    (info ≠ [] ∧ (info ++ chain).head? = some 0x52) := by
  rcases h.infoIs with ⟨rfl, _⟩ | ⟨⟨_, _, rfl⟩, _⟩
  · rcases hc with rfl | hc
    · exact .inl ⟨rfl, rfl⟩
    · exact .inr (.inl ⟨rfl, hc⟩)
  · refine .inr (.inr ⟨?_, rfl⟩)
    intro h
    have := congrArg List.length h
    rw [length_infoBytes] at this
    cases this

theorem imitates {st' : State cfg} {j : Nat} {input rest : Bytes}
    (h : input = nodeBytes (st'.at j) ++ rest) {b : UInt8} (hh : input.head? = some b) (hb : b ≠ 0) :
    Imitated st' j input := by
  constructor
  · intro h0
    rw [h] at hh
    have : (nodeBytes (st'.at j) ++ rest).head? = some 0 := by
      simp only [nodeBytes, h0]; rfl
    rw [this] at hh
    injection hh with hh
    exact hb hh.symm
  · rw [h]
    simp only [nodeBytes, List.append_assoc, word_eq]
    rw [show (4 : Nat) = (le32 (st'.at j).tci.tciType).length from rfl, List.drop_left]
    rw [List.take_left' (by simp)]

theorem content_der {st st' : State cfg} {nodes nodes' : List Nat} {info chain info' chain' : Bytes}
    (h : Content st nodes info chain) (h' : Content st' nodes' info' chain')
    (hc : DerStart chain) (hc' : DerStart chain') (hle : nodes.length ≤ nodes'.length)
    (he : contentBytes st nodes info chain = contentBytes st' nodes' info' chain') :
    (nodes.length = nodes'.length ∧
      (∀ k j j' : Nat, nodes[k]? = some j → nodes'[k]? = some j' → SameNode (st.at j) (st'.at j')) ∧
      info = info' ∧ chain = chain') ∨
    ∃ j', nodes'[nodes.length]? = some j' ∧ Imitated st' j' (info ++ chain) := by
  obtain ⟨h1, h2⟩ := (content_exact st st' nodes nodes' info chain info' chain' hle).1 he
  cases hd : nodes'.drop nodes.length with
  | nil =>
    left
    have hl : nodes'.length ≤ nodes.length := List.drop_eq_nil_iff.1 hd
    rw [hd] at h2
    have h2 : info ++ chain = info' ++ chain' := by simpa [contentBytes] using h2
    refine ⟨by omega, h1, ?_⟩
    have hi : info.length = info'.length := by
      rcases h.head hc with ⟨rfl, rfl⟩ | ⟨rfl, g⟩ | ⟨hi, g⟩ <;>
      rcases h'.head hc' with ⟨rfl, rfl⟩ | ⟨rfl, g'⟩ | ⟨hi', g'⟩
      · rfl
      · rfl
      · rw [← h2] at g'; simp at g'
      · rfl
      · rfl
      · rw [h2, g'] at g; simp at g
      · rw [h2] at g; simp at g
      · rw [h2, g'] at g; simp at g
      · rcases h.info_length with e | e
        · exact absurd (List.eq_nil_of_length_eq_zero e) hi
        · rcases h'.info_length with e' | e'
          · exact absurd (List.eq_nil_of_length_eq_zero e') hi'
          · rw [e, e']
    exact List.append_inj h2 hi
  | cons j' rest =>
    right
    refine ⟨j', ?_, ?_⟩
    · have := congrArg (fun l => l[0]?) hd
      simpa using this
    · rw [hd] at h2
      have h2 : info ++ chain = nodeBytes (st'.at j') ++ contentBytes st' rest info' chain' := by
        rw [h2]; simp [contentBytes]
      rcases h.head hc with ⟨rfl, rfl⟩ | ⟨_, g⟩ | ⟨_, g⟩
      · have := congrArg List.length h2
        simp only [List.length_append, length_nodeBytes, List.length_nil] at this
        omega
      · exact imitates h2 g (by decide)
      · exact imitates h2 g (by decide)

/-- C24 for real certificate chains, which begin with the tag of a SEQUENCE: equal bytes mean equal
ancestries and equal internal inputs, unless the cumulative TCI of a typed context in the longer
ancestry happens to be spelled out by the internal inputs of the other.  (A typed context has been
measured into, so that this TCI is an output of the hash function: see `C56_certified`.) -/
theorem C24_der {τ : Type} {ops' : Ops τ} {st' : State cfg} {i i' : Nat}
    {fed info chain info' chain' : Bytes} {nodes nodes' : List Nat}
    (h : Fed ops st i fed nodes info chain) (h' : Fed ops' st' i' fed nodes' info' chain')
    (hc : DerStart chain) (hc' : DerStart chain') (hle : nodes.length ≤ nodes'.length) :
    (nodes.length = nodes'.length ∧
      (∀ k j j' : Nat, nodes[k]? = some j → nodes'[k]? = some j' → SameNode (st.at j) (st'.at j')) ∧
      info = info' ∧ chain = chain') ∨
    ∃ j', nodes'[nodes.length]? = some j' ∧ Imitated st' j' (info ++ chain) :=
  content_der h.content h'.content hc hc' hle (h.split.symm.trans h'.split)

/-! ### What leaves the hash alone -/

/-- `x` from `st` and `y` from `st'` answer alike and leave the same world. -/
def Agree (st st' : State cfg) (x y : M cfg σ α) : Prop :=
  ∀ w out, (x ⟨st, w, out⟩).1 = (y ⟨st', w, out⟩).1 ∧ (x ⟨st, w, out⟩).2.w = (y ⟨st', w, out⟩).2.w

theorem Agree.bind {x y : M cfg σ α} {f g : α → M cfg σ β} (hx : WorldOnly x) (hy : WorldOnly y)
    (h : Agree st st' x y) (hf : ∀ a, Agree st st' (f a) (g a)) :
    Agree st st' (x >>= f) (y >>= g) := by
  intro w out
  obtain ⟨h1, h2⟩ := h w out
  rw [run_bind, run_bind]
  rcases hx1 : x ⟨st, w, out⟩ with ⟨r, s1⟩
  rcases hy1 : y ⟨st', w, out⟩ with ⟨r', s1'⟩
  rw [hx1, hy1] at h1 h2
  simp only at h1 h2
  subst h1
  have e1 := hx.eq hx1
  have e2 := hy.eq hy1
  cases r with
  | error e => exact ⟨rfl, h2⟩
  | ok a =>
    simp only
    rw [e1, e2, h2]
    exact hf a _ _

theorem Agree.crypto (f : σ → Except CryptoErr α × σ) :
    Agree st st' (M.crypto f : M cfg σ α) (M.crypto f) := by
  intro w out
  unfold M.crypto
  simp only
  rcases f w with ⟨_ | _, _⟩ <;> exact ⟨rfl, rfl⟩

theorem Agree.platform (f : σ → Except PlatErr α × σ) :
    Agree st st' (M.platform f : M cfg σ α) (M.platform f) := by
  intro w out
  unfold M.platform
  simp only
  rcases f w with ⟨_ | _, _⟩ <;> exact ⟨rfl, rfl⟩

theorem Agree.pure (a : α) : Agree st st' (Pure.pure a : M cfg σ α) (Pure.pure a) :=
  fun _ _ => ⟨rfl, rfl⟩

theorem Agree.lift (x : Except Err α) : Agree st st' (M.lift x : M cfg σ α) (M.lift x) :=
  fun _ _ => ⟨rfl, rfl⟩

theorem Agree.failIf (c : Bool) (e : Err) : Agree st st' (M.failIf c e : M cfg σ _) (M.failIf c e) := by
  intro w out; cases c <;> exact ⟨rfl, rfl⟩

theorem Agree.when {c : Bool} {x y : M cfg σ α} {d : α} (h : Agree st st' x y) :
    Agree st st' (M.when c x d) (M.when c y d) := by
  cases c
  · exact Agree.pure d
  · exact h

theorem Agree.dice : ∀ (fuel : Nat) (off : U32),
    Agree st st' (diceLoop ops fuel off : M cfg σ _) (diceLoop ops fuel off) := by
  intro fuel
  induction fuel with
  | zero => intro off w out; exact ⟨rfl, rfl⟩
  | succ fuel ih =>
    intro off w out
    unfold diceLoop
    simp only
    rcases ops.certChain off 2048 w with ⟨_ | ⟨len, chunk⟩, w'⟩
    · exact ⟨rfl, rfl⟩
    · exact (Agree.bind (WorldOnly.failIf _ _) (WorldOnly.failIf _ _) (Agree.failIf _ _) fun _ =>
        Agree.bind (WorldOnly.crypto _) (WorldOnly.crypto _) (Agree.crypto _) fun _ => ih _) w' out

theorem Agree.nodes (l : List Nat) : ∀ (i d : Bool), (∀ j ∈ l, Kept (st.at j) (st'.at j)) →
    Agree st st' (hashNodes ops (l.map fun j => .ok (st.at j)) i d)
      (hashNodes ops (l.map fun j => .ok (st'.at j)) i d) := by
  induction l with
  | nil => intro i d _; exact Agree.pure _
  | cons x xs ih =>
    intro i d h
    obtain ⟨h1, _, h2, h3, h4⟩ := h x (List.mem_cons_self ..)
    have ih := ih (i || (st.at x).usesInfo) (d || (st.at x).usesDice)
      fun j hj => h j (List.mem_cons_of_mem _ hj)
    simp only [List.map_cons]
    unfold hashNodes
    intro w out
    rw [run_lift, run_lift]
    simp only [h1, h2, h3, h4]
    exact (Agree.bind (WorldOnly.crypto _) (WorldOnly.crypto _) (Agree.crypto _) fun _ =>
      Agree.bind (WorldOnly.crypto _) (WorldOnly.crypto _) (Agree.crypto _) fun _ => ih) w out

theorem Agree.hash {i : Nat} {l : List Nat} (hp : Path st i l) (hp' : Path st' i l)
    (hs : st'.support = st.support) (hk : ∀ j ∈ l, Kept (st.at j) (st'.at j)) (ops : Ops σ) :
    Agree st st' (computeMeasurementHash ops i : M cfg σ _) (computeMeasurementHash ops i) := by
  unfold computeMeasurementHash
  refine Agree.bind (WorldOnly.crypto _) (WorldOnly.crypto _) (Agree.crypto _) fun _ => ?_
  refine Agree.bind (WorldOnly.crypto _) (WorldOnly.crypto _) (Agree.crypto _) fun _ => ?_
  intro w out
  rw [run_get, run_get, run_lift, run_lift]
  obtain ⟨it, hit, hrem⟩ := ChainIter.new_path hp
  obtain ⟨it', hit', hrem'⟩ := ChainIter.new_path hp'
  simp only [hit, hit']
  rw [items_rem _ hrem (by have := hp.length_le; omega),
    items_rem _ hrem' (by have := hp.length_le; omega)]
  simp only [hs]
  refine Agree.bind (hashNodes_world _ _ _ _) (hashNodes_world _ _ _ _) (Agree.nodes l _ _ hk) (fun x => ?_) w out
  refine Agree.bind (.when (.bind (internalInfo_world _ _) fun _ => .crypto _))
    (.when (.bind (internalInfo_world _ _) fun _ => .crypto _))
    (Agree.when (Agree.bind (internalInfo_world _ _) (internalInfo_world _ _) ?_ fun _ => Agree.crypto _))
    fun _ => ?_
  · exact Agree.bind (getProfile_world _ _) (getProfile_world _ _)
      (Agree.bind (.platform _) (.platform _) (Agree.platform _) fun _ =>
        Agree.bind (.platform _) (.platform _) (Agree.platform _) fun _ => Agree.pure _)
      fun _ => Agree.pure _
  · exact Agree.bind (.when (diceLoop_world _ _ _)) (.when (diceLoop_world _ _ _))
      (Agree.when (Agree.dice _ _)) fun _ => Agree.crypto _

/-- A live context whose parent link is kept, with all its ancestors, has the same chain. -/
theorem Path.kept {i : Nat} {l : List Nat} (hp : Path st i l)
    (hk : ∀ j ∈ l, Live st' j ∧ (st'.at j).parentIdx = (st.at j).parentIdx) : Path st' i l := by
  induction hp with
  | @root i hl hr =>
    obtain ⟨a, b⟩ := hk i (by simp)
    exact .root a (by rw [b, hr])
  | @step i l hl hn hp ih =>
    obtain ⟨a, b⟩ := hk i (by simp)
    have := ih fun j hj => hk j (List.mem_cons_of_mem _ hj)
    rw [← b] at this
    exact .step a (by rw [b]; exact hn) this

theorem Anc.up {i j : Nat} (hl : Live st i) (hn : (st.at i).parentIdx ≠ ROOT)
    (h : Anc st (st.at i).parentIdx j) : Anc st i j := by
  induction h with
  | parent h1 h2 => exact .step (.parent hl hn) h1 h2
  | step _ h1 h2 ih => exact .step ih h1 h2

theorem Path.mem_anc {i j : Nat} {l : List Nat} (hp : Path st i l) (hj : j ∈ l) :
    j = i ∨ Anc st i j := by
  induction hp with
  | root _ _ => simp at hj; exact .inl hj
  | @step i l hl hn hp ih =>
    rcases List.mem_cons.mp hj with h | h
    · exact .inl h
    · rcases ih h with rfl | h
      · exact .inr (.parent hl hn)
      · exact .inr (h.up hl hn)

/-- A command that does not measure into a context or one of its ancestors, and does not destroy the
context, leaves its ancestry in place. -/
theorem exec_path_kept (hr : InService st) {env : Env cfg σ} {c : Cmd cfg} {loc : U32} {w : σ}
    {out : Bytes} {r : Except Err Nat} {s' : Sys cfg σ}
    (h : exec env c loc ⟨st, w, out⟩ = (r, s')) {i : Nat} {l : List Nat} (hp : Path st i l)
    (hi' : Live s'.st i) (hno : ∀ j m, j = i ∨ Anc st i j → ¬ Measures st loc c j m) :
    Path s'.st i l ∧ s'.st.support = st.support ∧ ∀ j ∈ l, Kept (st.at j) (s'.st.at j) := by
  have wf := hr.wf
  have hr' : InService s'.st := by
    have := InService.step env c loc st w out hr
    rw [h] at this; exact this
  have hkl : (∀ j ∈ l, Live s'.st j → Kept (st.at j) (s'.st.at j)) ∧ s'.st.support = st.support := by
    have set : ∀ {k : Nat} {x : Context cfg}, SetSlot st k x s'.st → Kept (st.at k) x →
        ∀ j, Kept (st.at j) (s'.st.at j) := by
      intro k x hs h1 j
      by_cases e : j = k
      · subst e; rw [hs.1]; exact h1
      · rw [hs.2.1 j e]; exact .refl _
    rcases effect_cases_wf (s := ⟨st, w, out⟩) wf (digests_true _) h with h1 | ⟨hs, he⟩ | ⟨u, _, he⟩
    · simp only at h1; rw [h1]; exact ⟨fun j _ _ => .refl _, rfl⟩
    · simp only at he
      exact ⟨fun j hj hl' => he.kept wf (hp.all_live hj) hl' fun m => hno j m (hp.mem_anc hj),
        he.config.1.2.2.1⟩
    · obtain ⟨idx, kk, hd, hres, _, _, _, _, hset⟩ := he
      simp only at hset
      exact ⟨fun j _ _ => set hset (.refl _) j, hset.2.2.1.2.2.1⟩
  obtain ⟨hk, hs⟩ := hkl
  -- the ancestors are still there: the chain of the context in the new state starts alike
  obtain ⟨l', hp'⟩ := hr'.wf.path i hi'
  have hpl : ∀ {i : Nat} {l l' : List Nat}, Path st i l → Path s'.st i l' →
      (∀ j ∈ l, Live s'.st j → Kept (st.at j) (s'.st.at j)) → l = l' := by
    intro i l l' hp
    induction hp generalizing l' with
    | @root i hl hr =>
      intro hp' hk
      have := (hk i (by simp) hp'.live).2.1
      cases hp' with
      | root _ _ => rfl
      | step _ hn _ => exact absurd (by rw [this, hr]) hn
    | @step i l hl hn hp ih =>
      intro hp' hk
      have := (hk i (by simp) hp'.live).2.1
      cases hp' with
      | root _ hr => exact absurd (by rw [← this, hr]) hn
      | step _ _ hp' =>
        rw [this] at hp'
        rw [ih hp' fun j hj => hk j (List.mem_cons_of_mem _ hj)]
  cases hpl hp hp' hk
  exact ⟨hp', hs, fun j hj => hk j hj (hp'.all_live hj)⟩

/-- C26: a command that does not measure into a context or one of its ancestors, and does not
destroy the context, leaves its measurement hash unchanged, whatever the outcome of the command:
afterwards, any environment computes the same digest from the same world. -/
theorem C26_hash_kept (hr : InService st) {env : Env cfg σ} {c : Cmd cfg} {loc : U32} {w : σ}
    {out : Bytes} {r : Except Err Nat} {s' : Sys cfg σ}
    (h : exec env c loc ⟨st, w, out⟩ = (r, s')) {i : Nat} (hi : Live st i) (hi' : Live s'.st i)
    (hno : ∀ j m, j = i ∨ Anc st i j → ¬ Measures st loc c j m)
    {τ : Type} (ops : Ops τ) (w' : τ) (out' : Bytes) :
    (computeMeasurementHash ops i ⟨s'.st, w', out'⟩).1 =
      (computeMeasurementHash ops i ⟨st, w', out'⟩).1 := by
  obtain ⟨l, hp⟩ := hr.wf.path i hi
  obtain ⟨hp', hs, hk⟩ := exec_path_kept hr h hp hi' hno
  have := Agree.hash hp hp' hs hk ops w' out'
  exact this.1.symm

/-- The commands that never measure into an existing context. -/
def Cmd.quiet : Cmd cfg → Prop
  | .derive k => ¬ Bit k.flags DFlag.recursive
  | .update _ => False
  | _ => True

/-- C26: Sign, CertifyKey, RotateContextHandle, GetProfile, GetCertificateChain,
InitializeContext, DestroyContext and every DeriveContext that is not RECURSIVE leave the
measurement hash of every context that survives unchanged, whatever their outcome. -/
theorem C26_quiet (hr : InService st) {env : Env cfg σ} {c : Cmd cfg} {loc : U32} {w : σ}
    {out : Bytes} {r : Except Err Nat} {s' : Sys cfg σ}
    (h : exec env c loc ⟨st, w, out⟩ = (r, s')) {i : Nat} (hi : Live st i) (hi' : Live s'.st i)
    (hq : c.quiet) {τ : Type} (ops : Ops τ) (w' : τ) (out' : Bytes) :
    (computeMeasurementHash ops i ⟨s'.st, w', out'⟩).1 =
      (computeMeasurementHash ops i ⟨st, w', out'⟩).1 := by
  refine C26_hash_kept hr h hi hi' ?_ ops w' out'
  intro j m hj hm
  have hl : Live st j := by
    obtain ⟨l, hp⟩ := hr.wf.path i hi
    rcases hj with rfl | hj
    · exact hi
    · induction hj with
      | parent h1 h2 => exact live_of_lists hr.wf (hr.wf.up i h1 h2)
      | step _ h1 h2 _ => exact live_of_lists hr.wf (hr.wf.up _ h1 h2)
  cases c with
  | derive k =>
    have hm := hm.2
    rw [if_neg (show ¬ Bit k.flags DFlag.recursive from hq)] at hm
    exact hl hm.2.2.1
  | update u => exact hq
  | _ => exact hm

end

/-! ### The limit of C24, and concrete cases -/

namespace Toy

/-- A platform whose certificate chain is 17 bytes that look like a context, and a crypto
library that hashes everything to zero. -/
def opsDice : Ops Nat :=
  { ops with
    hashFinish := fun n => (.ok [0, 0], n)
    certChain := fun off _ n =>
      if off = 0 then (.ok (17, (Vector.replicate 2048 0).set 16 1), n)
      else (.error .certificateChainError, n) }

/-- The environment built from it. -/
def envDice : Env cfg Nat := { toOps := opsDice, certGen := env.certGen }

/-- A history in this environment. -/
def diceRun : List (Cmd cfg) → State cfg
  | [] => State.new cfg support 0
  | c :: cs => (exec envDice c 0 ⟨diceRun cs, 0, buf⟩).2.st

theorem diceRun_reach : ∀ l, Reachable (diceRun l)
  | [] => .new _ _
  | c :: cs => Reachable.step envDice c 0 _ 0 buf (diceRun_reach cs)

/-- Root and a child that uses the certificate chain. -/
@[irreducible] def dA : State cfg := diceRun
  [.derive ⟨Handle.default, data 5 5, 0x52000000, 7, 0, 0⟩, .init 0x40000000]

/-- Root, a child that looks like the root, and a grandchild that looks like the child above but
does not use the certificate chain. -/
@[irreducible] def dB : State cfg := diceRun
  [.derive ⟨Handle.default, data 5 5, 0x12000000, 7, 0, 0⟩,
   .derive ⟨Handle.default, data 0 0, 0x12000000, 0, 0, 0⟩, .init 0x40000000]

theorem dA_reach : Reachable dA := by unfold dA; exact diceRun_reach _

theorem dB_reach : Reachable dB := by unfold dB; exact diceRun_reach _

/-- The bytes fed for the child in the first state and for the grandchild in the second. -/
def diceFed : Bytes := [7, 0, 0, 0, 0, 0, 5, 5, 0, 0, 0, 0, 0, 0, 0, 0, 1] ++
  [0, 0, 0, 0, 0, 0, 0, 0, 0, 0, 0, 0, 0, 0, 0, 0, 1] ++
  [0, 0, 0, 0, 0, 0, 0, 0, 0, 0, 0, 0, 0, 0, 0, 0, 1]

theorem fed_of {st : State cfg} (hr : InService st) {i : Nat} {l : List Nat} {fed : Bytes}
    (hp : Path st i l)
    (hrun : (computeMeasurementHash (record opsDice) i ⟨st, (0, []), []⟩).1 = .ok [0, 0])
    (hfed : (computeMeasurementHash (record opsDice) i ⟨st, (0, []), []⟩).2.w.2 = fed) :
    ∃ info chain, Fed opsDice st i fed l info chain := by
  rcases h : computeMeasurementHash (record opsDice) i ⟨st, (0, []), []⟩ with ⟨r, s'⟩
  rw [h] at hrun hfed
  simp only at hrun hfed
  subst hrun
  obtain ⟨nodes, info, chain, hf⟩ := C24_fed hr hp.live h
  rw [hfed] at hf
  cases hf.path.unique hp
  exact ⟨info, chain, hf⟩

theorem dA_path : Path dA 1 [1, 0] := by
  have h0 : (dA.at 1).parentIdx = 0 := by decide +kernel
  refine .step (by unfold Live; decide +kernel) (by decide +kernel) ?_
  rw [h0]
  exact .root (by unfold Live; decide +kernel) (by decide +kernel)

theorem dB_path : Path dB 2 [2, 1, 0] := by
  have h1 : (dB.at 2).parentIdx = 1 := by decide +kernel
  have h0 : (dB.at 1).parentIdx = 0 := by decide +kernel
  refine .step (by unfold Live; decide +kernel) (by decide +kernel) ?_
  rw [h1]
  refine .step (by unfold Live; decide +kernel) (by decide +kernel) ?_
  rw [h0]
  exact .root (by unfold Live; decide +kernel) (by decide +kernel)

end Toy

/-- C24 without its assumption on the certificate chain input is false: a context that uses the
certificate chain and a context one level deeper that does not can feed the same bytes, when the
certificate chain looks like the deeper chain's root. -/
theorem C24_false_dice : ∃ (cfg : Cfg) (ops : Ops Nat) (st st' : State cfg) (i i' : Nat)
    (fed info chain info' chain' : Bytes) (nodes nodes' : List Nat),
    Reachable st ∧ Reachable st' ∧ Fed ops st i fed nodes info chain ∧
    Fed ops st' i' fed nodes' info' chain' ∧ nodes.length ≠ nodes'.length := by
  obtain ⟨info, chain, h⟩ := Toy.fed_of (fed := Toy.diceFed) Toy.dA_reach Toy.dA_path
    (by decide +kernel) (by decide +kernel)
  obtain ⟨info', chain', h'⟩ := Toy.fed_of (fed := Toy.diceFed) Toy.dB_reach Toy.dB_path
    (by decide +kernel) (by decide +kernel)
  exact ⟨_, _, _, _, _, _, _, _, _, _, _, _, _, Toy.dA_reach, Toy.dB_reach, h, h', by decide⟩

/-- Non-vacuity of `C24_binds_partial`: a computation that feeds a chain of two contexts. -/
example : ∃ info chain, Fed Toy.opsDice Toy.dA 1 Toy.diceFed [1, 0] info chain :=
  Toy.fed_of Toy.dA_reach Toy.dA_path (by decide +kernel) (by decide +kernel)

/-- Non-vacuity of `C24_exact`: in the case of `C24_false_dice` the internal inputs of the one context
spell out the root of the other. -/
example : ∃ info chain info' chain', Fed Toy.opsDice Toy.dA 1 Toy.diceFed [1, 0] info chain ∧
    Fed Toy.opsDice Toy.dB 2 Toy.diceFed [2, 1, 0] info' chain' ∧
    info ++ chain = nodeBytes (Toy.dB.at 0) ++ info' ++ chain' ∧
    SameNode (Toy.dA.at 1) (Toy.dB.at 2) := by
  obtain ⟨info, chain, h⟩ := Toy.fed_of (fed := Toy.diceFed) Toy.dA_reach Toy.dA_path
    (by decide +kernel) (by decide +kernel)
  obtain ⟨info', chain', h'⟩ := Toy.fed_of (fed := Toy.diceFed) Toy.dB_reach Toy.dB_path
    (by decide +kernel) (by decide +kernel)
  obtain ⟨_, h2⟩ := (C24_exact h h' (by decide)).1 rfl
  exact ⟨info, chain, info', chain', h, h', by simpa using h2, C24_leaf h h'⟩

/-- Non-vacuity of `C24_der`: without certificate chain input its conditions are met. -/
example : ∃ info chain, Fed Toy.opsDice Toy.dB 2 Toy.diceFed [2, 1, 0] info chain ∧ DerStart chain := by
  obtain ⟨info, chain, h⟩ := Toy.fed_of (fed := Toy.diceFed) Toy.dB_reach Toy.dB_path
    (by decide +kernel) (by decide +kernel)
  exact ⟨info, chain, h, .inl (h.chainIs (by decide +kernel))⟩

/-- Non-vacuity of `C26_quiet`: rotating the handle of the root leaves the digest of its child
alone (and the digest exists). -/
example : (computeMeasurementHash Toy.opsHash 1 ⟨(exec Toy.env (.rotate ⟨Toy.hd 2, 0⟩) 0 Toy.s3.sys).2.st, [], []⟩).1 =
    (computeMeasurementHash Toy.opsHash 1 ⟨Toy.s3.st, [], []⟩).1 ∧
    (computeMeasurementHash Toy.opsHash 1 ⟨Toy.s3.st, [], []⟩).1.isOk = true ∧
    (exec Toy.env (.rotate ⟨Toy.hd 2, 0⟩) 0 Toy.s3.sys).1 = .ok 28 := by
  refine ⟨?_, by decide +kernel, by decide +kernel⟩
  have hl : Live (exec Toy.env (.rotate ⟨Toy.hd 2, 0⟩) 0 Toy.s3.sys).2.st 1 := by
    unfold Live; decide +kernel
  rcases hx : exec Toy.env (.rotate ⟨Toy.hd 2, 0⟩) 0 Toy.s3.sys with ⟨r, s'⟩
  rw [hx] at hl
  exact C26_quiet Toy.s3.sys_reach hx (by unfold Live; decide +kernel) hl (by exact trivial) _ _ _

/-- A recursive derivation does change the digest of the descendants. -/
example : (computeMeasurementHash Toy.opsHash 1 ⟨Toy.s3.st, [], []⟩).1 ≠
    (computeMeasurementHash Toy.opsHash 1
      ⟨(exec Toy.env (.derive ⟨Toy.hd 2, Toy.data 1 2, 0x01000000, 0, 0, 0⟩) 0 Toy.s3.sys).2.st, [], []⟩).1 := by
  decide +kernel

end Dpe
