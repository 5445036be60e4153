import Verif.Spec.Draw
import Verif.Proofs.CertIssued
import Verif.Proofs.Verdict
import Verif.Props.Rules
/-
CertifyKey and exporting DeriveContext succeed when their ingredients are there.
-/
namespace Dpe
variable {cfg : Cfg} {σ : Type} {env : Env cfg σ} {ops : Ops σ} {loc : U32} {s : Sys cfg σ}

theorem unused_iff {st : State cfg} {h : Handle} :
    (!h.isDefault && !st.contexts.any (fun c => c.handle == h)) = true ↔ Unused st h := by
  rw [Bool.and_eq_true, Bool.not_eq_true', Bool.not_eq_true', isDefault_false, Unused]
  refine and_congr_right fun _ => ?_
  rw [List.any_eq_false]
  constructor
  · intro h1 i hi he
    have := h1 (st.at i) (List.mem_of_getElem? (getElem?_of_lt hi))
    exact this (by rw [he]; exact beq_self_eq_true _)
  · intro h1 c hc he
    obtain ⟨i, hi, rfl⟩ := List.mem_iff_getElem.1 hc
    have hl : i < cfg.maxHandles := by rw [← st.len_eq]; exact hi
    refine h1 i hl ?_
    have : st.at i = st.contexts[i] := at_of_getElem? (by rw [List.getElem?_eq_getElem hi])
    rw [this]
    exact eq_of_beq he

theorem genHandle_iff {st : State cfg} : ∀ {n : Nat} {w : σ} {h : Handle} {out : Bytes} {s' : Sys cfg σ},
    genHandleLoop ops n (⟨st, w, out⟩ : Sys cfg σ) = (.ok h, s') ↔
      ∃ w', GoodDraw ops st n w h w' ∧ s' = ⟨st, w', out⟩ := by
  intro n
  induction n with
  | zero =>
    intro w h out s'
    refine ⟨fun h => (by cases h), ?_⟩
    rintro ⟨_, h, _⟩
    cases h
  | succ n ih =>
    intro w h out s'
    unfold genHandleLoop
    rw [run_bind]
    rcases hw : ops.rand w with ⟨e | h0, w1⟩
    · simp only [M.crypto, hw]
      refine ⟨fun h => (by cases h), ?_⟩
      rintro ⟨w', h, _⟩
      cases h with
      | hit h1 _ => rw [hw] at h1; cases h1
      | miss h1 _ _ => rw [hw] at h1; cases h1
    · simp only [M.crypto, hw]
      rw [run_get]
      by_cases hu : Unused st h0
      · rw [if_pos (unused_iff.2 hu), run_pure]
        constructor
        · intro h
          injection h with e1 e2
          injection e1 with e1
          subst e1 e2
          exact ⟨w1, .hit hw hu, rfl⟩
        · rintro ⟨w', h, rfl⟩
          cases h with
          | hit h1 _ => rw [hw] at h1; injection h1 with e1 e2; injection e1 with e1; subst e1 e2; rfl
          | miss h1 h2 _ =>
            rw [hw] at h1; injection h1 with e1 e2; injection e1 with e1; subst e1
            exact absurd hu h2
      · rw [if_neg (fun h => hu (unused_iff.1 h)), ih]
        constructor
        · rintro ⟨w', h, rfl⟩
          exact ⟨w', .miss hw hu h, rfl⟩
        · rintro ⟨w', h, rfl⟩
          cases h with
          | hit h1 h2 =>
            rw [hw] at h1; injection h1 with e1 e2; injection e1 with e1; subst e1
            exact absurd h2 hu
          | miss h1 _ h3 =>
            rw [hw] at h1; injection h1 with e1 e2; subst e2
            exact ⟨w', h3, rfl⟩

theorem roll_iff {st : State cfg} {c c' : Context cfg} {w : σ} {out : Bytes} {s' : Sys cfg σ} :
    rollHandle ops c (⟨st, w, out⟩ : Sys cfg σ) = (.ok c', s') ↔
      ∃ h w', Redrawn ops st c.handle w h w' ∧ c' = { c with handle := h } ∧ s' = ⟨st, w', out⟩ := by
  unfold rollHandle
  by_cases hd : c.handle = Handle.default
  · rw [if_pos (isDefault_iff.2 hd), run_pure]
    constructor
    · intro h
      injection h with e1 e2
      injection e1 with e1
      subst e1 e2
      exact ⟨_, w, .inl ⟨hd, rfl, rfl⟩, by rw [← hd], rfl⟩
    · rintro ⟨h, w', ⟨_, rfl, rfl⟩ | ⟨h1, _⟩, rfl, rfl⟩
      · rw [← hd]
      · exact absurd hd h1
  · rw [if_neg (fun e => hd (isDefault_iff.1 e)), run_bind, generateNewHandle]
    rcases hg : genHandleLoop ops 8 (⟨st, w, out⟩ : Sys cfg σ) with ⟨e | h, s2⟩
    · refine ⟨fun h => (by cases h), ?_⟩
      rintro ⟨h, w', ⟨h1, _⟩ | ⟨_, h1⟩, _⟩
      · exact absurd h1 hd
      · rw [genHandle_iff.2 ⟨w', h1, rfl⟩] at hg
        cases hg
    · simp only
      obtain ⟨w', h1, rfl⟩ := genHandle_iff.1 hg
      constructor
      · intro h
        cases h
        exact ⟨_, w', .inr ⟨hd, h1⟩, rfl, rfl⟩
      · rintro ⟨h', w2, ⟨h2, _⟩ | ⟨_, h2⟩, rfl, rfl⟩
        · exact absurd h2 hd
        · rw [genHandle_iff.2 ⟨w2, h2, rfl⟩] at hg
          injection hg with e1 e2
          injection e1 with e1
          injection e2 with _ e2 _
          subst e1 e2
          rfl

/-- How CertifyKey ends: the context gets its new handle, and the header is written before the
certificate. -/
def certifyEnd (c : CertifyCmd) (i : Nat) (size : U32) (key : PubKey) (ctx : Context cfg) :
    M cfg σ Nat := do
  M.modify (fun st => st.setCtx i ctx)
  let hdr ← M.okOr (certifyHdrBytes c.variant cfg.profile ctx.handle size key) .invalidArgument
  writeAt 0 hdr
  pure (certifyHdrSize c.variant + size.toNat)

theorem certify_run {c : CertifyCmd} {kind : CertKind} {i : Nat} (hk : Format c.format kind)
    (hno : NoRefusal (rules s.st loc (.certify c))) (hr : Resolves s.st c.handle loc i) :
    exec env (.certify c) loc s = (runCert env kind (leafArgs s.st c.handle loc c.label)
      (certifyHdrSize c.variant) >>= fun r => rollHandle env.toOps (s.st.at i) >>=
      certifyEnd c i r.certSize r.pubKey) s := by
  simp only [NoRefusal, rules, earlyRules, lateRules, lookupRules, List.cons_append, List.nil_append,
    List.append_nil, List.mem_cons, List.not_mem_nil, or_false, forall_eq_or_imp, forall_eq] at hno
  obtain ⟨_, _, q1, q2, q3, _⟩ := hno
  rw [named_iff hr] at q2
  have h0 : c.format = 0 → s.st.supports Feature.x509 ∧ (s.st.at i).allowX509 = true :=
    fun h => ⟨by_contra fun g => q1 ⟨h, g⟩, by rw [← Bool.not_eq_false]; exact fun g => q2 ⟨h, g⟩⟩
  have h1 : c.format = 1 → s.st.supports Feature.csr := fun h => by_contra fun g => q3 ⟨h, g⟩
  show certifyKey env c loc s = _
  unfold certifyKey
  rw [run_get, run_lift, findActive_iff.2 hr]
  simp only
  rw [run_get_ctx hr, run_failIf, if_neg, run_failIf, if_neg, run_failIf, if_neg, run_failIf, if_neg,
    run_lift]
  rotate_left
  · simp [hr.1.2.2]
  · rw [Bool.and_eq_true, Bool.not_eq_true', beq_iff_eq]
    rintro ⟨hf, hb⟩
    exact Bool.false_ne_true (hb.symm.trans (h1 hf))
  · rw [Bool.and_eq_true, Bool.not_eq_true', beq_iff_eq]
    rintro ⟨hf, hb⟩
    rw [(h0 hf).2] at hb; cases hb
  · rw [Bool.and_eq_true, Bool.not_eq_true', beq_iff_eq]
    rintro ⟨hf, hb⟩
    exact Bool.false_ne_true (hb.symm.trans (h0 hf).1)
  have hkind : certKindOf c.format = .ok kind := by
    unfold certKindOf
    rcases hk with ⟨h, rfl⟩ | ⟨h, rfl⟩ <;> rw [h] <;> rfl
  rw [hkind]
  simp only
  rw [leafArgs_eq]
  rfl

theorem certify_eq {c : CertifyCmd} {kind : CertKind} {D : Draft} {w1 w2 : σ} {t : Asn}
    (hst : InService s.st) (hfit : AlgorithmFits cfg ops) (hser : SerialGiven ops)
    (hk : Format c.format kind)
    (hno : NoRefusal (rules s.st loc (.certify c)))
    (hD : Drafted ops kind (leafArgs s.st c.handle loc c.label) s.st s.w D w1)
    (hI : Issued ops (leafArgs s.st c.handle loc c.label) s.st D kind w1 t w2)
    (hl : t.written.length ≤ 65539)
    (hn : t.written.length ≤ (s.out.drop (certifyHdrSize c.variant)).length) :
    exec (ops.env cfg) (.certify c) loc s = (rollHandle ops (s.st.at D.slot) >>=
      certifyEnd c D.slot (BitVec.ofNat 32 t.written.length) D.key)
      ⟨s.st, w2, s.out.take (certifyHdrSize c.variant) ++
        placed t.written (s.out.drop (certifyHdrSize c.variant))⟩ := by
  have hres : Resolves s.st c.handle loc D.slot := hD.slot
  have hgen := (certGen_iff (win := s.out.drop (certifyHdrSize c.variant))
    (res := ⟨BitVec.ofNat 32 t.written.length, D.key, D.exportedCdi.getD (Vector.replicate 32 0)⟩)
    (win' := placed t.written (s.out.drop (certifyHdrSize c.variant)))
    (C01_forest hst).links hfit hser).2 ⟨D, w1, t, hD, hI, hn, hl, rfl, rfl⟩
  rw [certify_run hk hno hres, run_bind]
  unfold runCert
  rw [hgen]
  rfl

theorem certifyReply_length {c : CertifyCmd} {p : Profile} {hd : Handle} {key : PubKey} {cert : Bytes}
    (h : c.wants key) :
    (certifyReply p hd key cert).length = 32 + c.keyBytes + cert.length := by
  have : (successBytes p).length = 12 := rfl
  simp [certifyReply, keyFields_length h, le32, this]; omega

/-- CertifyKey succeeds exactly like this. -/
theorem certify_iff {c : CertifyCmd} {n : Nat} {s' : Sys cfg σ} (hst : InService s.st)
    (hfit : AlgorithmFits cfg ops) (hser : SerialGiven ops) :
    exec (ops.env cfg) (.certify c) loc s = (.ok n, s') ↔
    NoRefusal (rules s.st loc (.certify c)) ∧
    ∃ kind D w1 t w2 hd w3, Format c.format kind ∧
      Drafted ops kind (leafArgs s.st c.handle loc c.label) s.st s.w D w1 ∧
      Issued ops (leafArgs s.st c.handle loc c.label) s.st D kind w1 t w2 ∧
      c.wants D.key ∧ t.written.length ≤ 65539 ∧
      Redrawn ops s.st (s.st.at D.slot).handle w2 hd w3 ∧
      n = 32 + c.keyBytes + t.written.length ∧ n ≤ s.out.length ∧
      s' = ⟨s.st.setCtx D.slot { s.st.at D.slot with handle := hd }, w3,
        certifyReply cfg.profile hd D.key t.written ++ s.out.drop n⟩ := by
  have hsize : ∀ k : PubKey, c.wants k → ∀ hd cert, ∃ hdr,
      certifyHdrBytes c.variant cfg.profile hd cert k = some hdr := by
    intro k hw hd cert
    cases c <;> cases k <;> first
      | exact hw.elim
      | exact ⟨_, rfl⟩
  have hhs : certifyHdrSize c.variant = 32 + c.keyBytes := by cases c <;> rfl
  constructor
  · intro h
    have hno : NoRefusal (rules s.st loc (.certify c)) := C53_success hst h
    obtain ⟨kind, D, w1, t, w2, _, h1, h2, h3, h4, h5, _, h7, h8, h9⟩ := certify_issues hst hfit hser h
    rw [certifyReply_length h4] at h7
    have hn : t.written.length ≤ (s.out.drop (certifyHdrSize c.variant)).length := by
      rw [List.length_drop, hhs]; omega
    rw [certify_eq hst hfit hser h1 hno h2 h3 h5 hn, run_bind] at h
    rcases hr : rollHandle ops (s.st.at D.slot) (⟨s.st, w2, s.out.take (certifyHdrSize c.variant) ++
        placed t.written (s.out.drop (certifyHdrSize c.variant))⟩ : Sys cfg σ) with ⟨e | ctx, s2⟩
    · rw [hr] at h; cases h
    · rw [hr] at h
      obtain ⟨hd, w3, g1, rfl, rfl⟩ := roll_iff.1 hr
      simp only at h
      unfold certifyEnd at h
      rw [run_modify, run_okOr] at h
      obtain ⟨hdr, hh⟩ := hsize D.key h4 hd (BitVec.ofNat 32 t.written.length)
      rw [hh] at h
      simp only at h
      obtain ⟨e1, e2, e3⟩ := certifyHdr_of hh
      have hfit' : hdr.length ≤ s.out.length := by rw [e3, hhs]; omega
      obtain ⟨x1, x2⟩ := reply_out e3.symm hn hfit'
      rw [run_writeAt0, if_pos, run_pure] at h
      · injection h with i1 i2
        subst i2
        refine ⟨hno, kind, D, w1, t, w2, hd, w3, h1, h2, h3, h4, h5, g1, h7, h8, ?_⟩
        rw [x1]
        have : certifyReply cfg.profile hd D.key t.written = hdr ++ t.written := by rw [e2, certifyReply, word_eq]
        rw [this, h7, List.length_append, e3, hhs]
      · simp only [List.length_append, List.length_take, placed_length hn, List.length_drop]
        omega
  · rintro ⟨hno, kind, D, w1, t, w2, hd, w3, h1, h2, h3, h4, h5, h6, h7, h8, rfl⟩
    have hn : t.written.length ≤ (s.out.drop (certifyHdrSize c.variant)).length := by
      rw [List.length_drop, hhs]; omega
    rw [certify_eq hst hfit hser h1 hno h2 h3 h5 hn, run_bind, roll_iff.2 ⟨hd, w3, h6, rfl, rfl⟩]
    simp only
    unfold certifyEnd
    rw [run_modify, run_okOr]
    obtain ⟨hdr, hh⟩ := hsize D.key h4 hd (BitVec.ofNat 32 t.written.length)
    simp only [hh]
    obtain ⟨e1, e2, e3⟩ := certifyHdr_of hh
    have hfit' : hdr.length ≤ s.out.length := by rw [e3, hhs]; omega
    obtain ⟨x1, x2⟩ := reply_out e3.symm hn hfit'
    rw [run_writeAt0, if_pos, run_pure]
    · have hlen : (BitVec.ofNat 32 t.written.length).toNat = t.written.length := by
        simp; omega
      simp only [x1, hlen]
      have : certifyReply cfg.profile hd D.key t.written = hdr ++ t.written := by rw [e2, certifyReply, word_eq]
      rw [this, h7, List.length_append, e3, hhs]
    · simp only [List.length_append, List.length_take, placed_length hn, List.length_drop]
      omega

theorem deriveParent_drawn {c : DeriveCmd cfg} {i : Nat} {w w' : σ} {st : State cfg} {out : Bytes} :
    (∃ p', deriveParent ops c (st.at i) (⟨st, w, out⟩ : Sys cfg σ) = (.ok p', ⟨st, w', out⟩)) ↔
      ParentDrawn ops c st i w w' := by
  unfold deriveParent ParentDrawn
  by_cases h1 : Bit c.flags DFlag.retainParent
  · rw [if_pos (show c.retain = true from h1)]
    have : (if (!(st.at i).handle.isDefault) = true then do
        let h ← generateNewHandle ops
        pure { st.at i with handle := h } else pure (st.at i) : M cfg σ (Context cfg)) =
        rollHandle ops (st.at i) := by
      unfold rollHandle
      cases (st.at i).handle.isDefault <;> rfl
    rw [this]
    constructor
    · rintro ⟨p', h⟩
      obtain ⟨hd, w2, g1, _, g2⟩ := roll_iff.1 h
      injection g2 with _ g2 _
      subst g2
      exact .inr ⟨h1, hd, g1⟩
    · rintro (⟨h, _⟩ | ⟨_, hd, h⟩)
      · exact absurd h1 h
      · exact ⟨_, roll_iff.2 ⟨hd, w', h, rfl, rfl⟩⟩
  · rw [if_neg (show ¬ c.retain = true from h1)]
    constructor
    · rintro ⟨p', h⟩
      cases h
      exact .inl ⟨h1, rfl⟩
    · rintro (⟨_, rfl⟩ | ⟨h, _⟩)
      · exact ⟨_, rfl⟩
      · exact absurd h h1

/-- Exporting DeriveContext succeeds. -/
theorem export_runs {c : DeriveCmd cfg} {D : Draft} {w0 w1 w2 w3 : σ} {t : Asn}
    {u : BArr 48} {k : U32} {cdi : BArr 32}
    (hst : InService s.st) (hfit : AlgorithmFits cfg ops) (hser : SerialGiven ops)
    (hx : Bit c.flags DFlag.exportCdi) (hno : NoRefusal (rules s.st loc (.derive c)))
    (hr : ParentDrawn ops c s.st D.slot s.w w0)
    (hu : ops.ueid w0 = (.ok (u, k), w1)) (hk : k.toNat ≤ 48)
    (hD : Drafted ops .exportedX509 (exportedArgs s.st c.handle loc (u.toList.take k.toNat)) s.st w1 D w2)
    (hI : Issued ops (exportedArgs s.st c.handle loc (u.toList.take k.toNat)) s.st D .exportedX509 w2 t w3)
    (hc : D.exportedCdi = some cdi) (hl : t.written.length ≤ 65539)
    (hn : 80 + t.written.length ≤ s.out.length) :
    ∃ n s', exec (ops.env cfg) (.derive c) loc s = (.ok n, s') := by
  have hx' : c.exportCdi = true := hx
  have wf := hst.wf
  have hres : Resolves s.st c.handle loc D.slot := hD.slot
  have hlen : exportHdrSize = 80 := rfl
  simp only [NoRefusal, rules, earlyRules, lateRules, lookupRules, List.cons_append, List.nil_append,
    List.mem_cons, List.not_mem_nil, or_false, forall_eq_or_imp, forall_eq] at hno
  obtain ⟨q1, _, _, q4, _, _, q7, _, _⟩ := hno
  rw [named_iff hres] at q4 q7
  have hbad : deriveBadArgs (s.st.at D.slot) c = false := by
    rw [← Bool.not_eq_true, badArgs_iff]; exact q4
  have hb : c.createCert = true ∧ c.recursive = false := by
    simp only [deriveBadArgs, hx', Bool.true_and, Bool.or_eq_false_iff, Bool.not_eq_false'] at hbad
    tauto
  have hgen := (certGen_iff (win := s.out.drop exportHdrSize)
    (res := ⟨BitVec.ofNat 32 t.written.length, D.key, D.exportedCdi.getD (Vector.replicate 32 0)⟩)
    (win' := placed t.written (s.out.drop exportHdrSize))
    (C01_forest hst).links hfit hser).2 ⟨D, w2, t, hD, hI, by rw [List.length_drop]; omega, hl, rfl, rfl⟩
  show ∃ n s', deriveCtx (ops.env cfg) c loc s = (.ok n, s')
  unfold deriveCtx
  rw [run_get, run_failIf, if_neg (fun h => q1 (deriveUnsupported_iff.1 h)), run_lift,
    findActive_iff.2 hres]
  simp only
  rw [run_get_ctx hres, run_failIf, if_neg (by rw [hbad]; exact Bool.false_ne_true)]
  simp only [hb.2, Bool.false_eq_true, if_false]
  rw [typeUnique_total (fun x hx => ((mem_childList _ _ _).mp hx).1), run_lift]
  simp only
  rw [run_failIf, if_neg, run_bind]
  rotate_left
  · rw [Bool.not_not, List.any_eq_true]
    rintro ⟨j, h1, h2⟩
    exact q7 ⟨by rw [show Bit c.flags DFlag.recursive ↔ c.recursive = true from Iff.rfl, hb.2]; simp,
      j, ((mem_childList _ _ _).mp h1).2, by simpa using h2⟩
  obtain ⟨p', hp⟩ := (deriveParent_drawn (out := s.out)).2 hr
  rw [show (ops.env cfg).toOps = ops from rfl, show s = ⟨s.st, s.w, s.out⟩ from rfl, hp]
  simp only [hb.1, hx', Bool.and_self, if_true]
  unfold deriveExport
  rw [run_bind]
  simp only [M.platform, show (ops.env cfg).ueid w0 = _ from hu]
  rw [run_lift]
  simp only [ueidGet, if_pos hk]
  rw [run_get, run_bind]
  unfold runCert
  rw [exportedArgs_eq, hgen]
  simp only
  rw [run_get, run_get_ctx hres]
  have hdes : ∃ st', (if (!c.retain && !(s.st.at D.slot).hasChildren) = true then
      destroyContext s.st c.handle loc else .ok (s.st.setCtx D.slot p')) = .ok st' := by
    by_cases hc : (!c.retain && !(s.st.at D.slot).hasChildren) = true
    · rw [if_pos hc]
      obtain ⟨S, hS, _⟩ := destroySet_spec wf (findActive_iff.mpr hres)
      exact ⟨s.st.clear S, by unfold destroyContext; rw [hS]; rfl⟩
    · rw [if_neg hc]; exact ⟨_, rfl⟩
  obtain ⟨st', hdes⟩ := hdes
  rw [hdes, run_lift]
  simp only [run_modify, run_okOr, getElem?_of_lt (st := st') hres.lt]
  rw [run_writeAt0, if_pos, run_pure]
  · exact ⟨_, _, rfl⟩
  · rw [(exportHdr_eq _ _ _ _).2]
    simp only [List.length_append, List.length_take]
    omega

theorem exportReply_length {p : Profile} {hd : Handle} {cdi : BArr 32} {cert : Bytes} :
    (exportReply p hd cdi cert).length = 80 + cert.length := by
  have : (successBytes p).length = 12 := rfl
  simp [exportReply, le32, this]; omega

theorem export_draws {c : DeriveCmd cfg} {n : Nat} {s' : Sys cfg σ}
    (hst : InService s.st) (hfit : AlgorithmFits cfg ops)
    (hser : SerialGiven ops) (hx : Bit c.flags DFlag.exportCdi)
    (h : exec (ops.env cfg) (.derive c) loc s = (.ok n, s')) :
    ∃ u k w0 w1 D w2 t w3, ParentDrawn ops c s.st D.slot s.w w0 ∧
      ops.ueid w0 = (.ok (u, k), w1) ∧ k.toNat ≤ 48 ∧
      Drafted ops .exportedX509 (exportedArgs s.st c.handle loc (u.toList.take k.toNat)) s.st w1 D w2 ∧
      Issued ops (exportedArgs s.st c.handle loc (u.toList.take k.toNat)) s.st D .exportedX509 w2 t w3 ∧
      t.written.length ≤ 65539 ∧ ∃ cdi, D.exportedCdi = some cdi ∧
      n = 80 + t.written.length ∧ n ≤ s.out.length ∧
      s'.out = exportReply cfg.profile (s'.st.at D.slot).handle cdi t.written ++ s.out.drop n := by
  obtain ⟨u, k, w0, w1, D, w2, t, w3, h0, h1, h2, h3, h4, h5, cdi, h6, h7, h8, h9⟩ :=
    export_issues hst hfit hser hx h
  refine ⟨u, k, w0, w1, D, w2, t, w3, ?_, h1, h2, h3, h4, h5, cdi, h6, by rw [h7, exportReply_length],
    h8, h9⟩
  obtain ⟨p', hp⟩ := h0
  exact deriveParent_drawn.1 ⟨p', hp⟩

/-- Exporting DeriveContext succeeds exactly then. -/
theorem export_iff {c : DeriveCmd cfg} (hst : InService s.st) (hfit : AlgorithmFits cfg ops)
    (hser : SerialGiven ops) (hx : Bit c.flags DFlag.exportCdi) :
    (∃ n s', exec (ops.env cfg) (.derive c) loc s = (.ok n, s')) ↔
    NoRefusal (rules s.st loc (.derive c)) ∧
    ∃ u k w0 w1 D w2 t w3, ParentDrawn ops c s.st D.slot s.w w0 ∧
      ops.ueid w0 = (.ok (u, k), w1) ∧ k.toNat ≤ 48 ∧
      Drafted ops .exportedX509 (exportedArgs s.st c.handle loc (u.toList.take k.toNat)) s.st w1 D w2 ∧
      Issued ops (exportedArgs s.st c.handle loc (u.toList.take k.toNat)) s.st D .exportedX509 w2 t w3 ∧
      t.written.length ≤ 65539 ∧ 80 + t.written.length ≤ s.out.length := by
  constructor
  · rintro ⟨n, s', h⟩
    obtain ⟨u, k, w0, w1, D, w2, t, w3, h0, h1, h2, h3, h4, h5, cdi, h6, h7, h8, h9⟩ :=
      export_draws hst hfit hser hx h
    exact ⟨C53_success hst h, u, k, w0, w1, D, w2, t, w3, h0, h1, h2, h3, h4, h5, by omega⟩
  · rintro ⟨hno, u, k, w0, w1, D, w2, t, w3, h0, h1, h2, h3, h4, h5, h6⟩
    have h3' := h3
    obtain ⟨_, _, _, _, _, _, _, _, _, _, _, _, ⟨cdi, _, hc, _⟩, _⟩ := h3'
    exact export_runs hst hfit hser hx hno h0 h1 h2 h3 h4 hc h5 h6

end Dpe
