import Verif.Proofs.DeviceRun
/-
The commands of the reference device one by one.
-/
namespace Dpe
variable {cfg : Cfg} {P : Prims} {a : Artifact} {st : State cfg} {loc : U32} {w : Soft P × Unit}

/-- The command, not refused in `st`, can be served exactly if nothing stands in its way. -/
def AbleIff (P : Prims) (a : Artifact) (st : State cfg) (loc : U32) (w : Soft P × Unit) (c : Cmd cfg) : Prop :=
  (∃ reply st' w', Serves (deviceOps P a) st loc w c reply st' w') ↔ Able P a st loc w.1 c

theorem chosen_iff {asked : Prop} {w : Soft P × Unit} :
    (∃ h w', Chosen (deviceOps P a) st asked w h w') ↔ asked ∨ CanDraw P st w.1.rng := by
  rw [canDraw_iff (plat := defaultPlatform a)]
  constructor
  · rintro ⟨h, w', ⟨h1, _⟩ | ⟨_, h2⟩⟩
    · exact .inl h1
    · exact .inr ⟨h, w', h2⟩
  · rintro (h | ⟨h, w', h2⟩)
    · exact ⟨_, _, .inl ⟨h, rfl, rfl⟩⟩
    · by_cases ha : asked
      · exact ⟨_, _, .inl ⟨ha, rfl, rfl⟩⟩
      · exact ⟨h, w', .inr ⟨ha, h2⟩⟩

theorem able_profile : AbleIff P a st loc w .getProfile :=
  ⟨fun _ => trivial, fun _ => ⟨_, _, _, 0, 0, _, rfl, rfl, rfl, rfl⟩⟩

theorem able_chain (ha : a.Fit) {c : ChainCmd} (hno : NoRefusal (rules st loc (.chain c))) :
    AbleIff P a st loc w (.chain c) := by
  simp only [NoRefusal, rules, earlyRules, lateRules, List.append_nil,
    List.mem_cons, List.not_mem_nil, or_false, forall_eq] at hno
  constructor
  · rintro ⟨reply, st', w', len, chunk, h, _⟩
    refine Nat.not_le.1 fun ho => ?_
    have := default_outside ha (size := c.size) ho
    have h := (Prod.mk.inj h).1
    rw [show w.2 = () from rfl, this] at h
    cases h
  · intro h
    obtain ⟨chunk, h1, _⟩ := defaultChain_in (size := c.size.toNat) ha.short h (Nat.not_lt.1 hno)
    simp only [BitVec.ofNat_toNat, BitVec.setWidth_eq] at h1
    exact ⟨_, _, _, _, chunk, Prod.ext (Prod.mk.inj (servesChain_default a _ _ w.2 _ h1)).1 rfl, rfl, rfl⟩

theorem able_init {f : U32} (hno : NoRefusal (rules st loc (.init f))) :
    AbleIff P a st loc w (.init f) := by
  simp only [NoRefusal, rules, earlyRules, lateRules, lookupRules, List.cons_append, List.nil_append,
    List.append_nil, List.mem_cons, List.not_mem_nil, or_false, forall_eq_or_imp, forall_eq] at hno
  obtain ⟨_, _, _, q4⟩ := hno
  obtain ⟨i, hi⟩ : ∃ i, FirstFree st i := by
    rcases hn : st.nextInactive with _ | i
    · exact absurd (noFree_iff.1 hn) q4
    · exact ⟨i, firstFree_iff.1 hn⟩
  refine Iff.trans ?_ (chosen_iff (a := a))
  constructor
  · rintro ⟨_, _, w', _, h, _, h1, _⟩; exact ⟨h, w', h1⟩
  · rintro ⟨hd, w', hw⟩
    refine ⟨_, initPost st f loc i hd, w', i, hd, hi, hw, ?_, ?_, ⟨rfl, rfl, rfl, rfl⟩, ?_, rfl⟩
    · rw [at_initPost hi.1, if_pos rfl, rootContext_eq]
    · intro j hj; rw [at_initPost hi.1, if_neg hj]
    · show (st.hasInitialized || initDefaultFlag f) = true ↔ _
      rw [Bool.or_eq_true]; rfl

theorem able_rotate {c : RotateCmd} (hno : NoRefusal (rules st loc (.rotate c))) :
    AbleIff P a st loc w (.rotate c) := by
  simp only [NoRefusal, rules, earlyRules, lateRules, lookupRules, List.cons_append, List.nil_append,
    List.append_nil, List.mem_cons, List.not_mem_nil, or_false, forall_eq_or_imp, forall_eq] at hno
  obtain ⟨_, _, q3, _⟩ := hno
  obtain ⟨i', hi'⟩ := not_not.1 q3
  obtain ⟨i, hr⟩ := exists_resolves hi'
  refine Iff.trans ?_ (chosen_iff (a := a))
  constructor
  · rintro ⟨_, _, w', _, h, _, h1, _⟩; exact ⟨h, w', h1⟩
  · rintro ⟨hd, w', hw⟩
    exact ⟨_, _, w', i, hd, hr, hw, setSlot_of hr.lt _, rfl⟩

theorem able_destroy {h : Handle} (hst : InService st) (hno : NoRefusal (rules st loc (.destroy h))) :
    AbleIff P a st loc w (.destroy h) := by
  simp only [NoRefusal, rules, earlyRules, lateRules, lookupRules, List.cons_append, List.nil_append,
    List.append_nil, List.mem_cons, List.not_mem_nil, or_false, forall_eq_or_imp, forall_eq] at hno
  obtain ⟨i', hi'⟩ := not_not.1 hno.2
  obtain ⟨i, hr⟩ := exists_resolves hi'
  obtain ⟨S, hS, _⟩ := destroySet_spec hst.wf (findActive_iff.mpr hr)
  exact ⟨fun _ => trivial, fun _ => ⟨_, _, _, i, hr, destroyEffect_of hst.wf hS (findActive_iff.mpr hr), rfl, rfl⟩⟩

theorem able_sign (ha : a.Fit) (hb : Built cfg a) (hP : P.Sound cfg.profile) {c : SignCmd} :
    AbleIff P a st loc w (.sign c) := by
  constructor
  · rintro ⟨_, _, w', i, path, k, sig, w1, w2, h, hr, hp, h1, h2, h3, _⟩
    obtain ⟨cdi, priv, hl, rfl⟩ := (device_signingKey ha hb hP).1 h1
    obtain ⟨g2, rfl⟩ := device_sign.1 h2
    obtain ⟨hv, hs⟩ := (device_message hP).1 ⟨sig, g2⟩
    exact ⟨i, hr, ⟨path, cdi, priv, hp, hl, hv⟩, hs, (canReplace_iff (plat := defaultPlatform a)
      (w := ({ w.1 with hasher := none, cdi := cdi, priv := priv }, w.2))).2 ⟨h, w', h3⟩⟩
  · rintro ⟨i, hr, ⟨path, cdi, priv, hp, hl, hv⟩, hs, hc⟩
    obtain ⟨sig, h2⟩ := (device_message hP).2 ⟨hv, hs⟩
    obtain ⟨h, w', h3⟩ := (canReplace_iff (plat := defaultPlatform a)
      (w := ({ w.1 with hasher := none, cdi := cdi, priv := priv }, w.2))).1 hc
    exact ⟨_, _, w', i, path, (), sig, _, _, h, hr, hp, (device_signingKey ha hb hP).2 ⟨cdi, priv, hl, rfl⟩,
      device_sign.2 ⟨h2, rfl⟩, h3, setSlot_of hr.lt _, rfl⟩

theorem wants_iff {c : CertifyCmd} {p : Profile} {k : PubKey} (hk : KeyOf p k) : c.wants k ↔ c.variant = p := by
  cases c <;> cases k <;> cases p <;> simp_all [KeyOf, CertifyCmd.wants, CertifyCmd.variant]

theorem able_certify (ha : a.Fit) (hb : Built cfg a) (hP : P.Sound cfg.profile) {c : CertifyCmd}
    (hno : NoRefusal (rules st loc (.certify c))) : AbleIff P a st loc w (.certify c) := by
  constructor
  · rintro ⟨_, _, w', kind, D, w1, t, w2, h, hf, hD, hI, hw, _, h3, _⟩
    have hk : kind ≠ .exportedX509 := by
      rintro rfl; rcases hf with ⟨_, h⟩ | ⟨_, h⟩ <;> cases h
    obtain ⟨hr, ⟨cdi, priv, hp, hl, hv⟩, hrng⟩ := device_leaf_drafted ha hb hP hk hD
    refine ⟨D.slot, hr, ⟨D.path, cdi, priv, hp, hl, _, hv⟩, (wants_iff (hP.pubOf hv)).1 hw, ?_⟩
    rw [← hrng, ← device_issued_rng hI]
    exact canReplace_iff.2 ⟨h, w', h3⟩
  · rintro ⟨i, hr, ⟨path, cdi, priv, hp, hl, pk, hv⟩, hvar, hc⟩
    obtain ⟨kind, hf⟩ : ∃ kind, Format c.format kind := by
      simp only [NoRefusal, rules, earlyRules, lateRules, lookupRules, List.cons_append, List.nil_append,
        List.append_nil, List.mem_cons, List.not_mem_nil, or_false, forall_eq_or_imp, forall_eq] at hno
      by_cases h0 : c.format = 0
      · exact ⟨_, .inl ⟨h0, rfl⟩⟩
      · by_cases h1 : c.format = 1
        · exact ⟨_, .inr ⟨h1, rfl⟩⟩
        · exact absurd ⟨h0, h1⟩ hno.2.2.2.2.2
    have hk : kind ≠ .exportedX509 := by
      rintro rfl; rcases hf with ⟨_, h⟩ | ⟨_, h⟩ <;> cases h
    obtain ⟨D, hE, hD⟩ := device_leaf_draft ha hb hP hk hr hp hl hv w
    obtain rfl : D.slot = i := by rw [hE]; rfl
    obtain rfl : D.key = pk := by rw [hE]; rfl
    have hd : D.digest = P.hash (measuredBytes a st path) := by rw [hE]; rfl
    obtain ⟨t, w2, hI⟩ : ∃ t w2, Issued (deviceOps P a) (leafArgs st c.handle loc c.label) st D kind
        ({ w.1 with hasher := none, cdi := cdi, priv := priv }, w.2) t w2 := by
      by_cases hcsr : kind = .leafCsr
      · subst hcsr
        obtain ⟨t, w2, h, _⟩ := device_request (a := a) (h := c.handle) (loc := loc) hP hl hv hd
        exact ⟨t, w2, h⟩
      · obtain ⟨t, h⟩ := device_certificate ha hP hcsr (leafArgs st c.handle loc c.label) D _
        exact ⟨t, _, h⟩
    have hw := (wants_iff (hP.pubOf hv)).2 hvar
    have hlen := device_short ha hb hP hD hI (by
      show c.label.length ≤ 48
      rw [CertifyCmd.label_length hw (hP.pubOf hv)]
      cases cfg.profile <;> decide)
    have hrng := device_issued_rng hI
    have hc : CanReplace P st D.slot w2.1.rng := by rw [hrng]; exact hc
    obtain ⟨h, w', h3⟩ := (canReplace_iff (plat := defaultPlatform a)).1 hc
    exact ⟨_, _, w', kind, D, _, t, w2, h, hf, hD, hI, hw, by omega, h3, setSlot_of hr.lt _, rfl⟩

theorem able_update (hb : Built cfg a) (hP : P.Sound cfg.profile) {c : UpdateCmd cfg} :
    AbleIff P a st loc w (.update c) := by
  constructor
  · rintro ⟨_, _, w', i, k, v, w1, hp, w2, st1, hc, hr, hk, h1, h2, h3, h4, _⟩
    obtain ⟨_, rfl⟩ := (extended_iff hP).1 h1
    obtain ⟨r, hl, rfl⟩ := lands_iff.1 h2
    refine ⟨i, k, hp, r, st1, hr, hk, hl, h3, ?_⟩
    rcases h4 with ⟨h4, _⟩ | ⟨_, h4⟩
    · exact .inl h4
    · exact .inr ((canDraw_iff).2 ⟨hc, w', h4⟩)
  · rintro ⟨i, k, hp, r, st1, hr, hk, hl, h3, h4⟩
    obtain ⟨v, h1⟩ := extends_ok (plat := defaultPlatform a) hb hP (st.at k).tci.cumulative c.data w
    have hlt : k < cfg.maxHandles := lt_of_live (live_of_active hk.2.1)
    obtain ⟨hc, w', h5⟩ : ∃ hc w', Redrawn (deviceOps P a) st1 (st.at k).handle
        ({ w.1 with hasher := none, rng := r }, w.2) hc w' := by
      by_cases hd : (st.at k).handle = Handle.default
      · exact ⟨_, _, .inl ⟨hd, rfl, rfl⟩⟩
      · obtain ⟨hc, w', h5⟩ := (canDraw_iff (plat := defaultPlatform a)
          (w := ({ w.1 with hasher := none, rng := r }, w.2))).1 (h4.resolve_left hd)
        exact ⟨hc, w', .inr ⟨hd, h5⟩⟩
    exact ⟨_, _, w', i, k, v, _, hp, _, st1, hc, hr, hk, h1, lands_iff.2 ⟨r, hl, rfl⟩, h3, h5,
      setSlot_of hlt _, rfl⟩

theorem able_recursive (hb : Built cfg a) (hP : P.Sound cfg.profile) {c : DeriveCmd cfg}
    (hrec : Bit c.flags DFlag.recursive) : AbleIff P a st loc w (.derive c) := by
  constructor
  · rintro ⟨_, _, w', i, hr, h⟩
    rw [if_pos hrec] at h
    obtain ⟨v, w1, hd, h1, h2, _⟩ := h
    obtain ⟨_, rfl⟩ := (extended_iff hP).1 h1
    refine ⟨i, hr, ?_⟩
    rw [if_pos hrec]
    exact (canReplace_iff (plat := defaultPlatform a)
      (w := ({ w.1 with hasher := none }, w.2))).2 ⟨hd, w', h2⟩
  · rintro ⟨i, hr, h⟩
    rw [if_pos hrec] at h
    obtain ⟨v, h1⟩ := extends_ok (plat := defaultPlatform a) hb hP (st.at i).tci.cumulative c.data w
    obtain ⟨hd, w', h2⟩ := (canReplace_iff (plat := defaultPlatform a)
      (w := ({ w.1 with hasher := none }, w.2))).1 h
    have hs : ServesRecursive (deviceOps P a) st c i w (handlesReply cfg.profile [hd, Handle.default])
        (st.setCtx i { st.at i with
          tci := { (st.at i).tci with cumulative := v, current := c.data }, handle := hd }) w' :=
      ⟨v, _, hd, h1, h2, setSlot_of hr.lt _, rfl⟩
    exact ⟨_, _, w', i, hr, by rw [if_pos hrec]; exact hs⟩

theorem parentUsed_rng {c : DeriveCmd cfg} {i : Nat} {w w' : Soft P × Unit} {h : Handle} {s : CtxState}
    (hp : ParentUsed (deviceOps P a) st c (st.at i).handle w h s w') :
    (if Bit c.flags DFlag.retainParent ∧ (st.at i).handle ≠ Handle.default
      then ∃ h, Lands P st 8 w.1.rng h w'.1.rng else w'.1.rng = w.1.rng) ∧
    w'.1.slots = w.1.slots ∧ (Bit c.flags DFlag.retainParent → CanReplace P st i w.1.rng) := by
  rcases hp with ⟨h1, _, hd⟩ | ⟨h1, _, _, rfl⟩
  · have hc := canReplace_iff.2 ⟨h, w', hd⟩
    rcases hd with ⟨h2, _, rfl⟩ | ⟨h2, h3⟩
    · rw [if_neg (fun h => h.2 h2)]
      exact ⟨rfl, rfl, fun _ => hc⟩
    · obtain ⟨r, hl, rfl⟩ := lands_iff.1 h3
      rw [if_pos ⟨h1, h2⟩]
      exact ⟨⟨h, hl⟩, rfl, fun _ => hc⟩
  · rw [if_neg (fun h => h1 h.1)]
    exact ⟨rfl, rfl, fun h => absurd h h1⟩

theorem parentUsed_ok {c : DeriveCmd cfg} {i : Nat} {r : P.Rng}
    (h : if Bit c.flags DFlag.retainParent ∧ (st.at i).handle ≠ Handle.default
      then ∃ h, Lands P st 8 w.1.rng h r else r = w.1.rng) :
    ∃ hp s w', ParentUsed (deviceOps P a) st c (st.at i).handle w hp s w' ∧ w'.1.rng = r ∧
      w'.1.slots = w.1.slots := by
  by_cases h1 : Bit c.flags DFlag.retainParent
  · by_cases h2 : (st.at i).handle = Handle.default
    · rw [if_neg (fun h => h.2 h2)] at h
      exact ⟨_, _, w, .inl ⟨h1, rfl, .inl ⟨h2, rfl, rfl⟩⟩, h.symm, rfl⟩
    · rw [if_pos ⟨h1, h2⟩] at h
      obtain ⟨hd, hl⟩ := h
      exact ⟨hd, _, ({ w.1 with rng := r }, w.2), .inl ⟨h1, rfl, .inr ⟨h2, lands_iff.2 ⟨r, hl, rfl⟩⟩⟩, rfl, rfl⟩
  · rw [if_neg (fun h => h1 h.1)] at h
    exact ⟨_, _, w, .inr ⟨h1, rfl, rfl, rfl⟩, h.symm, rfl⟩

theorem able_child (hb : Built cfg a) (hP : P.Sound cfg.profile) {c : DeriveCmd cfg}
    (hno : NoRefusal (rules st loc (.derive c)))
    (hrec : ¬ Bit c.flags DFlag.recursive) (hx : ¬ Bit c.flags DFlag.exportCdi) :
    AbleIff P a st loc w (.derive c) := by
  constructor
  · rintro ⟨_, _, w', i, hr, h⟩
    rw [if_neg hrec, if_neg hx] at h
    obtain ⟨k, hp, s, w1, hd, w2, v, kids, _, h1, h2, _⟩ := h
    refine ⟨i, hr, ?_⟩
    rw [if_neg hrec, if_neg hx]
    exact ⟨w1.1.rng, (parentUsed_rng h1).1, chosen_iff.1 ⟨hd, w2, h2⟩⟩
  · rintro ⟨i, hr, h⟩
    rw [if_neg hrec, if_neg hx] at h
    obtain ⟨r, h1, h2⟩ := h
    obtain ⟨hp, x, w1, g1, rfl, _⟩ := parentUsed_ok (a := a) h1
    obtain ⟨hd, w2, g2⟩ := (chosen_iff (a := a)).2 h2
    obtain ⟨v, g3⟩ := extends_ok (plat := defaultPlatform a) hb hP (Vector.replicate cfg.tciSize 0) c.data w2
    simp only [NoRefusal, rules, earlyRules, lateRules, lookupRules, List.cons_append, List.nil_append,
      List.mem_cons, List.not_mem_nil, or_false, forall_eq_or_imp, forall_eq] at hno
    obtain ⟨_, _, _, _, _, _, _, q8, _⟩ := hno
    have q8 : ¬ ∀ i, i < cfg.maxHandles → Live st i := fun h => q8 ⟨hrec, hx, h⟩
    obtain ⟨k, hk⟩ : ∃ k, FirstFree st k := by
      rcases hn : st.nextInactive with _ | k
      · exact absurd (noFree_iff.1 hn) q8
      · exact ⟨k, firstFree_iff.1 hn⟩
    have hki : k ≠ i := by rintro rfl; have := hr.1.1; rw [hk.2.1] at this; cases this
    obtain ⟨kids, hkids⟩ : ∃ kids,
        ({ st.at i with handle := hp, state := x } : Context cfg).addChild k = .ok kids := by
      unfold Context.addChild addChildBit
      have h64 := cfg.le64
      rw [if_neg (by have := hk.1; omega), if_neg (by have := hk.1; omega)]
      exact ⟨_, rfl⟩
    obtain ⟨_, hk2⟩ := addChild_ok hkids
    have hat := at_child (st := st) hr.lt hk.1 (childContext c loc i (st.at i) hd v)
      { st.at i with handle := hp, state := x, children := kids }
    have hsv : ServesChild (deviceOps P a) st c loc i w (handlesReply cfg.profile [hd, hp])
        ((st.setCtx k (childContext c loc i (st.at i) hd v)).setCtx i
          { st.at i with handle := hp, state := x, children := kids })
        ({ w2.1 with hasher := none }, w2.2) := by
      refine ⟨k, hp, x, w1, hd, w2, v, kids, hk, g1, g2, g3, ?_, ?_, ?_, ?_, ?_, rfl⟩
      · intro j; rw [hk2, Bool.or_eq_true, decide_eq_true_eq]
        exact or_congr Iff.rfl eq_comm
      · rw [hat, if_neg hki, if_pos rfl]
      · rw [hat, if_pos rfl]
      · intro j hj1 hj2; rw [hat, if_neg hj2, if_neg hj1]
      · exact ⟨⟨rfl, rfl, rfl, rfl⟩, rfl⟩
    exact ⟨_, _, _, i, hr, by rw [if_neg hrec, if_neg hx]; exact hsv⟩

theorem able_export (ha : a.Fit) (hb : Built cfg a) (hP : P.Sound cfg.profile) {c : DeriveCmd cfg}
    (hst : InService st) (hrec : ¬ Bit c.flags DFlag.recursive) (hx : Bit c.flags DFlag.exportCdi) :
    AbleIff P a st loc w (.derive c) := by
  constructor
  · rintro ⟨_, _, w', i, hr, h⟩
    rw [if_neg hrec, if_pos hx] at h
    obtain ⟨hp, s, w0, u, k, w1, D, w2, t, cdi, h1, h2, _, rfl, hD, _⟩ := h
    refine ⟨D.slot, hr, ?_⟩
    rw [if_neg hrec, if_pos hx]
    obtain ⟨_, hs, hc⟩ := parentUsed_rng h1
    have h2 := (Prod.mk.inj h2).2
    subst h2
    obtain ⟨h3, h4⟩ := device_export_drafted ha hb hP hD
    exact ⟨hs ▸ h3, h4, hc⟩
  · rintro ⟨i, hr, h⟩
    rw [if_neg hrec, if_pos hx] at h
    obtain ⟨hs, ⟨path, cdi, priv, hpath, hl, pk, hv⟩, hc⟩ := h
    obtain ⟨r, h1⟩ : ∃ r, if Bit c.flags DFlag.retainParent ∧ (st.at i).handle ≠ Handle.default
        then ∃ h, Lands P st 8 w.1.rng h r else r = w.1.rng := by
      by_cases h1 : Bit c.flags DFlag.retainParent ∧ (st.at i).handle ≠ Handle.default
      · obtain ⟨h, r, hl⟩ := (hc h1.1).resolve_left h1.2
        exact ⟨r, by rw [if_pos h1]; exact ⟨h, hl⟩⟩
      · exact ⟨w.1.rng, by rw [if_neg h1]⟩
    obtain ⟨hp, x, w1, g1, _, g2⟩ := parentUsed_ok (a := a) h1
    obtain ⟨D, w2, hE, _, hD⟩ := device_export_draft ha hb hP (h := c.handle)
      (ueid := (zeroPadded 48 (List.replicate 17 0x0A)).toList.take 17) hr hpath hl hv w1 (g2.trans hs)
    obtain rfl : D.slot = i := by rw [hE]; rfl
    have hcd : D.exportedCdi = some (P.fill32 w1.1.rng).1 := by rw [hE]; rfl
    obtain ⟨t, hI⟩ := device_certificate ha hP (kind := .exportedX509) (by intro h; cases h)
      (exportedArgs st c.handle loc ((zeroPadded 48 (List.replicate 17 0x0A)).toList.take 17)) D w2
    have hlen := device_short ha hb hP hD hI (by
      show ((zeroPadded 48 (List.replicate 17 0x0A)).toList.take 17).length ≤ 48
      rw [List.length_take]; omega)
    have hfin : ∃ st', (((Bit c.flags DFlag.retainParent ∨ ∃ j, Lists st D.slot j) ∧
        SetSlot st D.slot { st.at D.slot with handle := hp, state := x } st') ∨
      (¬ Bit c.flags DFlag.retainParent ∧ (∀ j, ¬ Lists st D.slot j) ∧ DestroyEffect st D.slot st')) := by
      by_cases h3 : Bit c.flags DFlag.retainParent ∨ ∃ j, Lists st D.slot j
      · exact ⟨_, .inl ⟨h3, setSlot_of hr.lt _⟩⟩
      · obtain ⟨S, hS, _⟩ := destroySet_spec hst.wf (findActive_iff.mpr hr)
        have hdes := destroyEffect_of hst.wf hS (findActive_iff.mpr hr)
        exact ⟨_, .inr ⟨fun h => h3 (.inl h), fun j h => h3 (.inr ⟨j, h⟩), hdes⟩⟩
    obtain ⟨st', hfin⟩ := hfin
    have hsv : ServesExport (deviceOps P a) st c loc D.slot w
        (exportReply cfg.profile hp (P.fill32 w1.1.rng).1 t.written) st' w2 :=
      ⟨hp, x, w1, zeroPadded 48 (List.replicate 17 0x0A), 17, w1, D, w2, t, _, g1, rfl, by decide, rfl, hD, hI,
        by omega, hcd, hfin, rfl⟩
    exact ⟨_, _, _, D.slot, hr, by rw [if_neg hrec, if_pos hx]; exact hsv⟩

/-- Every command. -/
theorem able_iff (ha : a.Fit) (hb : Built cfg a) (hP : P.Sound cfg.profile) (hst : InService st) {c : Cmd cfg}
    (hno : NoRefusal (rules st loc c)) : AbleIff P a st loc w c := by
  cases c with
  | getProfile => exact able_profile
  | init f => exact able_init hno
  | certify k => exact able_certify ha hb hP hno
  | sign k => exact able_sign ha hb hP
  | rotate k => exact able_rotate hno
  | destroy h => exact able_destroy hst hno
  | chain k => exact able_chain ha hno
  | update k => exact able_update hb hP
  | derive k =>
    by_cases hr : Bit k.flags DFlag.recursive
    · exact able_recursive hb hP hr
    · by_cases hx : Bit k.flags DFlag.exportCdi
      · exact able_export ha hb hP hst hr hx
      · exact able_child hb hP hno hr hx

end Dpe
