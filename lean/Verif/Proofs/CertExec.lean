import Verif.Spec.Certify
import Verif.Proofs.X509Create
import Verif.Proofs.Effects
import Verif.Proofs.Refine
import Verif.Props.Structure
/-
Certificates at the level of commands.
-/
namespace Dpe
variable {cfg : Cfg} {σ : Type} {ops : Ops σ} {loc : U32} {s s' : Sys cfg σ} {n : Nat}

theorem hdrBytes_success (p : Profile) : hdrBytes p .noError = successBytes p := by
  cases p <;> decide

theorem leafArgs_eq (st : State cfg) (c : CertifyCmd) (loc : U32) :
    certifyArgs st c loc = leafArgs st c.handle loc c.label := by
  unfold certifyArgs leafArgs
  congr 1
  cases cfg.profile <;> rfl

theorem exportedArgs_eq (st : State cfg) (c : DeriveCmd cfg) (loc : U32) (u : Bytes) :
    exportArgs st c loc u = exportedArgs st c.handle loc u := by
  unfold exportArgs exportedArgs
  congr 1 <;> cases cfg.profile <;> rfl

theorem format_of {f : U32} {k : CertKind} (h : certKindOf f = .ok k) : Format f k := by
  unfold certKindOf at h
  by_cases h0 : f = 0
  · rw [if_pos h0] at h; injection h with h; exact .inl ⟨h0, h.symm⟩
  · rw [if_neg h0] at h
    by_cases h1 : f = 1
    · rw [if_pos h1] at h; injection h with h; exact .inr ⟨h1, h.symm⟩
    · rw [if_neg h1] at h; cases h

theorem certifyHdr_of {c : CertifyCmd} {p : Profile} {h : Handle} {size : U32} {k : PubKey}
    {hdr : Bytes} (e : certifyHdrBytes c.variant p h size k = some hdr) :
    c.wants k ∧ hdr = successBytes p ++ h.toList ++ keyFields k ++ le32 size ∧
      hdr.length = certifyHdrSize c.variant := by
  have hl : ∀ x : U32, (le32 x).length = 4 := fun x => by simp [le32]
  have hs : (successBytes p).length = 12 := rfl
  cases c <;> cases k <;> simp [certifyHdrBytes, CertifyCmd.variant] at e <;>
    subst e <;> simp [CertifyCmd.wants, hdrBytes_success, keyFields, hl, hs, certifyHdrSize,
      CertifyCmd.variant]

theorem certGen_iff {kind : CertKind} {a : CertArgs} {st : State cfg} {w w' : σ} {win win' : Bytes}
    {res : CertResult} (wf : Links st) (hfit : AlgorithmFits cfg ops) (hser : SerialGiven ops) :
    (ops.env cfg).certGen kind a st w win = ((.ok res, w'), win') ↔
      ∃ D w1 t, Drafted ops kind a st w D w1 ∧ Issued ops a st D kind w1 t w' ∧
        t.written.length ≤ win.length ∧ t.written.length ≤ 65539 ∧
        res = ⟨BitVec.ofNat 32 t.written.length, D.key, D.exportedCdi.getD (Vector.replicate 32 0)⟩ ∧
        win' = placed t.written win := by
  have hrun := fun s' => createCert_iff (ops := ops) (kind := kind) (a := a) (st := st) (w := w)
    (win := win) (r := res) (s' := s') wf hfit hser
  rcases hc : createCert ops kind a ⟨st, w, win⟩ with ⟨r, s'⟩
  have hg : (ops.env cfg).certGen kind a st w win = ((r, s'.w), s'.out) := by
    show (match createCert ops kind a ⟨st, w, win⟩ with | (r, s') => ((r, s'.w), s'.out)) = _
    rw [hc]
  rw [hg]
  constructor
  · intro h
    injection h with h1 h2
    injection h1 with h1 h3
    subst h1
    obtain ⟨D, w1, t, w2, h4, h5, h6, h7, h8, h9⟩ := (hrun s').1 hc
    subst h9
    simp only at h2 h3
    subst h3
    exact ⟨D, w1, t, h4, h5, h6, h7, h8, h2.symm⟩
  · rintro ⟨D, w1, t, h4, h5, h6, h7, h8, h9⟩
    have := (hrun ⟨st, w', placed t.written win⟩).2 ⟨D, w1, t, w', h4, h5, h6, h7, h8, rfl⟩
    rw [hc] at this
    injection this with e1 e2
    subst e1 e2
    rw [h9]

/-- The response: a header that is then followed by the certificate. -/
theorem reply_out {out hdr cert : Bytes} {base : Nat} (hb : base = hdr.length)
    (hc : cert.length ≤ (out.drop base).length) (hpos : hdr.length ≤ out.length) :
    hdr ++ (out.take base ++ placed cert (out.drop base)).drop hdr.length =
      hdr ++ cert ++ out.drop (hdr ++ cert).length ∧ (hdr ++ cert).length ≤ out.length := by
  subst hb
  rw [List.length_drop] at hc
  have h2 : (out.take hdr.length).length = hdr.length := by simp [hpos]
  constructor
  · rw [List.drop_append, h2, Nat.sub_self, List.drop_eq_nil_of_le (by omega), List.nil_append,
      List.drop_zero, placed, List.drop_drop, List.length_append, List.append_assoc]
  · rw [List.length_append]; omega

theorem placed_length {cert win : Bytes} (h : cert.length ≤ win.length) :
    (placed cert win).length = win.length := by
  simp [placed]; omega

theorem Drafted.slot {kind : CertKind} {a : CertArgs} {st : State cfg} {w w' : σ} {D : Draft}
    (h : Drafted ops kind a st w D w') : Resolves st a.handle a.locality D.slot := by
  obtain ⟨_, _, _, _, _, _, _, _, _, h, _⟩ := h
  exact h

/-- A successful CertifyKey. -/
theorem certify_issues {c : CertifyCmd} (hst : InService s.st) (hfit : AlgorithmFits cfg ops)
    (hser : SerialGiven ops) (h : exec (ops.env cfg) (.certify c) loc s = (.ok n, s')) :
    ∃ kind D w1 t w2 hd, Format c.format kind ∧
      Drafted ops kind (leafArgs s.st c.handle loc c.label) s.st s.w D w1 ∧
      Issued ops (leafArgs s.st c.handle loc c.label) s.st D kind w1 t w2 ∧
      c.wants D.key ∧ t.written.length ≤ 65539 ∧
      NextHandle s.st (s.st.at D.slot).handle hd ∧
      n = (certifyReply cfg.profile hd D.key t.written).length ∧ n ≤ s.out.length ∧
      s'.out = certifyReply cfg.profile hd D.key t.written ++ s.out.drop n := by
  have h : certifyKey (ops.env cfg) c loc s = (.ok n, s') := h
  rcases certifyKey_inv h with ⟨⟨e, h1⟩, _⟩ |
    ⟨idx, ctx, hd, kind, res, w1, win, h1, h2, _, _, h3, h4, h5, h6, h7⟩
  · cases h1
  rw [leafArgs_eq, certGen_iff (C01_forest hst).links hfit hser] at h4
  obtain ⟨D, w2, t, d1, d2, d3, d4, d5, d6⟩ := h4
  subst d5 d6
  rcases h7 with ⟨_, h7⟩ | ⟨hdr, h7, h8⟩
  · cases h7
  obtain ⟨e1, e2, e3⟩ := certifyHdr_of h7
  rcases h8 with ⟨h8, h9, h10⟩ | ⟨h8, _⟩
  · injection h8 with h8
    have hlen : (BitVec.ofNat 32 t.written.length).toNat = t.written.length := by
      simp; omega
    simp only at h9 h10 h8
    rw [hlen] at h8
    have hfit' : hdr.length ≤ s.out.length := by
      rw [List.length_append, List.length_take, placed_length d3, List.length_drop] at h9
      omega
    obtain ⟨g1, g2⟩ := reply_out e3.symm d3 hfit'
    rw [g1] at h10
    have hr : hdr ++ t.written = certifyReply cfg.profile hd D.key t.written := by
      rw [e2, certifyReply, word_eq]
    have hn : n = (hdr ++ t.written).length := by rw [h8, List.length_append, e3]
    refine ⟨kind, D, w2, t, w1, hd, format_of h3, d1, d2, e1, d4, ?_, by rw [hn, hr], by rw [hn]; exact g2,
      by rw [h10, hn, hr]⟩
    have hr := d1.slot.unique (findActive_iff.1 h1)
    rw [hr, at_of_getElem? h2]
    exact h5.next
  · cases h8

theorem exportHdr_eq (p : Profile) (hp : Handle) (cdi : BArr 32) (size : U32) :
    exportHdrBytes p Handle.invalid hp cdi size = successBytes p ++ List.replicate 16 0xFF ++
      hp.toList ++ cdi.toList ++ le32 size ∧
    (exportHdrBytes p Handle.invalid hp cdi size).length = exportHdrSize := by
  have hi : Handle.invalid.toList = List.replicate 16 0xFF := by decide
  have hs : (successBytes p).length = 12 := rfl
  rw [exportHdrBytes, hdrBytes_success, hi]
  refine ⟨rfl, ?_⟩
  simp [hs, le32, exportHdrSize]

/-- A successful exporting DeriveContext. -/
theorem export_issues {c : DeriveCmd cfg} (hst : InService s.st) (hfit : AlgorithmFits cfg ops)
    (hser : SerialGiven ops) (hx : Bit c.flags DFlag.exportCdi)
    (h : exec (ops.env cfg) (.derive c) loc s = (.ok n, s')) :
    ∃ u k w0 w1 D w2 t w3,
      (∃ p', deriveParent ops c (s.st.at D.slot) s = (.ok p', { s with w := w0 })) ∧
      ops.ueid w0 = (.ok (u, k), w1) ∧ k.toNat ≤ 48 ∧
      Drafted ops .exportedX509 (exportedArgs s.st c.handle loc (u.toList.take k.toNat)) s.st w1 D w2 ∧
      Issued ops (exportedArgs s.st c.handle loc (u.toList.take k.toNat)) s.st D .exportedX509 w2 t w3 ∧
      t.written.length ≤ 65539 ∧ ∃ cdi, D.exportedCdi = some cdi ∧
      n = (exportReply cfg.profile (s'.st.at D.slot).handle cdi t.written).length ∧
      n ≤ s.out.length ∧
      s'.out = exportReply cfg.profile (s'.st.at D.slot).handle cdi t.written ++ s.out.drop n := by
  have h : deriveCtx (ops.env cfg) c loc s = (.ok n, s') := h
  have hx' : c.exportCdi = true := hx
  rcases deriveCtx_inv h with ⟨⟨e, h1⟩, _⟩ | ⟨idx, p, h0, h1, h2, h3, h4⟩
  · cases h1
  have hb : c.createCert = true ∧ c.recursive = false := by
    simp only [deriveBadArgs, hx', Bool.true_and, Bool.or_eq_false_iff, Bool.not_eq_false'] at h3
    tauto
  rcases h4 with ⟨h4, _⟩ | ⟨_, _, p', _, h4 | ⟨h4, _⟩⟩
  · rw [hb.2] at h4; cases h4
  · obtain ⟨_, _, u, ueid, res, w0, w1, w2, win, st', now, g1', g2, g3, g4, _, g6, g7, g8⟩ := h4
    obtain ⟨ub, k⟩ := u
    have hk : k.toNat ≤ 48 ∧ ueid = ub.toList.take k.toNat := by
      unfold ueidGet at g3
      by_cases hk : k.toNat ≤ 48
      · rw [if_pos hk] at g3; injection g3 with g3; exact ⟨hk, g3.symm⟩
      · rw [if_neg hk] at g3; cases g3
    obtain ⟨hk, hu⟩ := hk
    subst hu
    rw [exportedArgs_eq, certGen_iff (C01_forest hst).links hfit hser] at g4
    obtain ⟨D, w3, t, d1, d2, d3, d4, d5, d6⟩ := g4
    subst d5 d6
    have hr := d1.slot.unique (findActive_iff.1 h1)
    have hnow : (s'.st.at D.slot).handle = now.handle := by
      rw [hr, g7, at_of_getElem? g6]
    obtain ⟨cdi, hcdi⟩ : ∃ cdi, D.exportedCdi = some cdi := by
      obtain ⟨_, _, _, _, _, _, _, _, _, _, _, _, ⟨hd, _, h9, _⟩, _⟩ := d1
      exact ⟨hd, h9⟩
    rcases g8 with ⟨h8, h9, h10⟩ | ⟨h8, _⟩
    · injection h8 with h8
      have hlen : (BitVec.ofNat 32 t.written.length).toNat = t.written.length := by
        simp; omega
      simp only [hcdi, Option.getD_some] at h9 h10 h8
      rw [hlen] at h8
      obtain ⟨e2, e3⟩ := exportHdr_eq cfg.profile now.handle cdi (BitVec.ofNat 32 t.written.length)
      generalize exportHdrBytes cfg.profile Handle.invalid now.handle cdi
        (BitVec.ofNat 32 t.written.length) = hdr at h9 h10 e2 e3
      have hfit' : hdr.length ≤ s.out.length := by
        rw [List.length_append, List.length_take, placed_length d3, List.length_drop] at h9
        omega
      obtain ⟨g1, g2'⟩ := reply_out e3.symm d3 hfit'
      rw [g1] at h10
      have hrr : hdr ++ t.written = exportReply cfg.profile now.handle cdi t.written := by
        rw [e2, exportReply, word_eq]
      have hn : n = (hdr ++ t.written).length := by rw [h8, List.length_append, e3]
      refine ⟨ub, k, w0, w1, D, w3, t, w2, ⟨p', by rw [hr, at_of_getElem? h2]; exact g1'⟩, g2, hk, d1, d2, d4, cdi, hcdi, ?_, by rw [hn]; exact g2', ?_⟩
      · rw [hnow, hn, hrr]
      · rw [hnow, h10, hn, hrr]
    · cases h8
  · rw [hx', hb.1] at h4; cases h4

end Dpe
