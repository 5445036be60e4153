import Verif.Proofs.CertRun
import Verif.Proofs.CertDet
import Verif.Proofs.CertFront
import Verif.Examples.CertRuns
/-
C42: no truncated certificate is ever reported as success.

`Drafted` and `Issued` (Spec/Issue) say which calls of crypto and platform lead to which tree;
`Asn.written` is its complete encoding.
-/
namespace Dpe
variable {cfg : Cfg} {σ : Type} {ops : Ops σ} {loc : U32} {s s' : Sys cfg σ} {n : Nat}

theorem Format.unique {f : U32} {k k' : CertKind} (h : Format f k) (h' : Format f k') : k = k' := by
  rcases h with ⟨a1, rfl⟩ | ⟨a1, rfl⟩ <;> rcases h' with ⟨b1, rfl⟩ | ⟨b1, rfl⟩
  · rfl
  · rw [a1] at b1; cases b1
  · rw [a1] at b1; cases b1
  · rfl

/-- When CertifyKey reports success with `n` octets, these are the response with the complete
certificate, they fit in the buffer, and the rest of the buffer is as before. -/
theorem C42_certify {c : CertifyCmd} (hst : InService s.st) (hfit : AlgorithmFits cfg ops)
    (hser : SerialGiven ops) (h : exec (ops.env cfg) (.certify c) loc s = (.ok n, s')) :
    ∃ kind D w1 t w2 hd, Format c.format kind ∧
      Drafted ops kind (leafArgs s.st c.handle loc c.label) s.st s.w D w1 ∧
      Issued ops (leafArgs s.st c.handle loc c.label) s.st D kind w1 t w2 ∧
      n = (certifyReply cfg.profile hd D.key t.written).length ∧ n ≤ s.out.length ∧
      s'.out = certifyReply cfg.profile hd D.key t.written ++ s.out.drop n ∧
      certIn c s'.out n = t.written := by
  obtain ⟨_, kind, D, w1, t, w2, hd, w3, h1, h2, h3, h4, h5, h6, h7, h8, rfl⟩ :=
    (certify_iff hst hfit hser).1 h
  have hn : n = (certifyReply cfg.profile hd D.key t.written).length := by
    rw [certifyReply_length h4]; exact h7
  exact ⟨kind, D, w1, t, w2, hd, h1, h2, h3, hn, h8, rfl, by rw [hn, certIn_reply h4]⟩

/-- If the response does not fit in the buffer, CertifyKey fails. -/
theorem C42_certify_small {c : CertifyCmd} {kind : CertKind} {D : Draft} {w1 w2 : σ} {t : Asn}
    (hst : InService s.st) (hfit : AlgorithmFits cfg ops) (hser : SerialGiven ops)
    (hk : Format c.format kind)
    (hD : Drafted ops kind (leafArgs s.st c.handle loc c.label) s.st s.w D w1)
    (hI : Issued ops (leafArgs s.st c.handle loc c.label) s.st D kind w1 t w2)
    (hs : s.out.length < 32 + c.keyBytes + t.written.length) :
    ∃ e s', exec (ops.env cfg) (.certify c) loc s = (.error e, s') := by
  rcases hx : exec (ops.env cfg) (.certify c) loc s with ⟨e | n, s'⟩
  · exact ⟨e, s', rfl⟩
  · obtain ⟨_, kind', D', w1', t', w2', hd, w3, h1, h2, h3, h4, h5, h6, h7, h8, rfl⟩ :=
      (certify_iff hst hfit hser).1 hx
    obtain rfl := h1.unique hk
    obtain ⟨rfl, rfl⟩ := h2.det hD
    obtain ⟨rfl, rfl⟩ := h3.det hI
    omega

/-- When everything else is in order, CertifyKey succeeds exactly if the response fits. -/
theorem C42_certify_fits {c : CertifyCmd} {kind : CertKind} {D : Draft} {w1 w2 w3 : σ} {t : Asn}
    {hd : Handle} (hst : InService s.st) (hfit : AlgorithmFits cfg ops) (hser : SerialGiven ops)
    (hno : NoRefusal (rules s.st loc (.certify c))) (hk : Format c.format kind)
    (hD : Drafted ops kind (leafArgs s.st c.handle loc c.label) s.st s.w D w1)
    (hI : Issued ops (leafArgs s.st c.handle loc c.label) s.st D kind w1 t w2)
    (hw : c.wants D.key) (hl : t.written.length ≤ 65539)
    (hr : Redrawn ops s.st (s.st.at D.slot).handle w2 hd w3) :
    (∃ n s', exec (ops.env cfg) (.certify c) loc s = (.ok n, s')) ↔
      32 + c.keyBytes + t.written.length ≤ s.out.length := by
  constructor
  · rintro ⟨n, s', h⟩
    refine Nat.le_of_not_lt fun hs => ?_
    obtain ⟨e, s'', h'⟩ := C42_certify_small hst hfit hser hk hD hI hs
    rw [h] at h'
    cases h'
  · intro h
    exact ⟨_, _, (certify_iff hst hfit hser).2
      ⟨hno, kind, D, w1, t, w2, hd, w3, hk, hD, hI, hw, hl, hr, rfl, h, rfl⟩⟩

/-- The certificate that is written to and the buffer of the example: 726 octets, and the response
header of 96 octets. -/
example (k : Nat) : (∃ n s', exec (Toy.certOps.env Toy.cfg) (Toy.certifyCmd 4 0) 0
    { Toy.s4.sys with out := List.replicate k 0 } = (.ok n, s')) ↔ 822 ≤ k := by
  have hn : NoRefusal (rules Toy.s4.st 0 (Toy.certifyCmd 4 0)) := by
    obtain ⟨n, s', h⟩ := Toy.s4_certificate
    exact C53_success (s := { Toy.s4.sys with out := Toy.bigBuf }) Toy.s4.reach h
  have hl : (Toy.tree (.issuerAndSerial [0x30, 0] [5]) Toy.s4.st .leafX509
      (leafArgs Toy.s4.st (Toy.hd 4) 0 Toy.label.toList)).written.length = 726 := by decide +kernel
  have hd2 : (Toy.s4.st.at 2).handle ≠ Handle.default := by decide +kernel
  have hu : Unused Toy.s4.st (Toy.hd (Toy.s4.p.2 + 1)) := by unfold Unused; decide +kernel
  have h := C42_certify_fits (s := { Toy.s4.sys with out := List.replicate k 0 }) (loc := 0)
    (c := .p256 (Toy.hd 4) 0 0 Toy.label) (hd := Toy.hd (Toy.s4.p.2 + 1))
    Toy.s4.reach Toy.decent_cert.fits Toy.decent_cert.serial hn (.inl ⟨rfl, rfl⟩)
    (Toy.s4_drafted (.issuerAndSerial [0x30, 0] [5]) .leafX509 _ _ rfl rfl)
    (Toy.issued (.issuerAndSerial [0x30, 0] [5]) .leafX509 _ _ _) trivial
    (by show (Toy.tree (.issuerAndSerial [0x30, 0] [5]) Toy.s4.st .leafX509
          (leafArgs Toy.s4.st (Toy.hd 4) 0 Toy.label.toList)).written.length ≤ _
        rw [hl]; decide)
    (.inr ⟨hd2, .hit rfl hu⟩)
  refine h.trans ?_
  show 32 + 64 + (Toy.tree (.issuerAndSerial [0x30, 0] [5]) Toy.s4.st .leafX509
          (leafArgs Toy.s4.st (Toy.hd 4) 0 Toy.label.toList)).written.length ≤
    (List.replicate k (0 : UInt8)).length ↔ _
  rw [hl, List.length_replicate]

/-- When an exporting DeriveContext reports success with `n` octets, these are the response with
the complete certificate, they fit in the buffer, and the rest of the buffer is as before. -/
theorem C42_exported {c : DeriveCmd cfg} (hst : InService s.st) (hfit : AlgorithmFits cfg ops)
    (hser : SerialGiven ops) (hx : Bit c.flags DFlag.exportCdi)
    (h : exec (ops.env cfg) (.derive c) loc s = (.ok n, s')) :
    ∃ u k w0 w1 D w2 t w3 cdi, ops.ueid w0 = (.ok (u, k), w1) ∧
      Drafted ops .exportedX509 (exportedArgs s.st c.handle loc (u.toList.take k.toNat)) s.st w1 D w2 ∧
      Issued ops (exportedArgs s.st c.handle loc (u.toList.take k.toNat)) s.st D .exportedX509 w2 t w3 ∧
      D.exportedCdi = some cdi ∧
      n = (exportReply cfg.profile (s'.st.at D.slot).handle cdi t.written).length ∧ n ≤ s.out.length ∧
      s'.out = exportReply cfg.profile (s'.st.at D.slot).handle cdi t.written ++ s.out.drop n ∧
      exportedCertIn s'.out n = t.written := by
  obtain ⟨u, k, w0, w1, D, w2, t, w3, h0, h1, h2, h3, h4, h5, cdi, h6, h7, h8, h9⟩ :=
    export_draws hst hfit hser hx h
  have hn : n = (exportReply cfg.profile (s'.st.at D.slot).handle cdi t.written).length := by
    rw [exportReply_length]; exact h7
  refine ⟨u, k, w0, w1, D, w2, t, w3, cdi, h1, h3, h4, h6, hn, h8, h9, ?_⟩
  rw [h9, hn, exportedCertIn_reply]

theorem GoodDraw.det {st : State cfg} {k : Nat} {w w1 w2 : σ} {h1 h2 : Handle}
    (g : GoodDraw ops st k w h1 w1) (g' : GoodDraw ops st k w h2 w2) : h1 = h2 ∧ w1 = w2 := by
  have e1 := (genHandle_iff (s' := ⟨st, w1, []⟩) (out := [])).2 ⟨w1, g, rfl⟩
  have e2 := (genHandle_iff (s' := ⟨st, w2, []⟩) (out := [])).2 ⟨w2, g', rfl⟩
  rw [e1] at e2
  injection e2 with a b
  injection a with a
  injection b with _ b _
  exact ⟨a, b⟩

theorem ParentDrawn.det {c : DeriveCmd cfg} {st : State cfg} {i : Nat} {w w1 w2 : σ}
    (h : ParentDrawn ops c st i w w1) (h' : ParentDrawn ops c st i w w2) : w1 = w2 := by
  rcases h with ⟨a, rfl⟩ | ⟨a, _, h⟩ <;> rcases h' with ⟨b, rfl⟩ | ⟨b, _, h'⟩
  · rfl
  · exact absurd b a
  · exact absurd a b
  · rcases h with ⟨a, _, rfl⟩ | ⟨a, h⟩ <;> rcases h' with ⟨b, _, rfl⟩ | ⟨b, h'⟩
    · rfl
    · exact absurd a b
    · exact absurd b a
    · exact (h.det h').2

/-- If the response does not fit in the buffer, an exporting DeriveContext fails. -/
theorem C42_exported_small {c : DeriveCmd cfg} {u : BArr 48} {k : U32} {w0 w1 w2 w3 : σ} {D : Draft}
    {t : Asn} (hst : InService s.st) (hfit : AlgorithmFits cfg ops) (hser : SerialGiven ops)
    (hx : Bit c.flags DFlag.exportCdi) (hp : ParentDrawn ops c s.st D.slot s.w w0)
    (hu : ops.ueid w0 = (.ok (u, k), w1))
    (hD : Drafted ops .exportedX509 (exportedArgs s.st c.handle loc (u.toList.take k.toNat)) s.st w1 D w2)
    (hI : Issued ops (exportedArgs s.st c.handle loc (u.toList.take k.toNat)) s.st D .exportedX509 w2 t w3)
    (hs : s.out.length < 80 + t.written.length) :
    ∃ e s', exec (ops.env cfg) (.derive c) loc s = (.error e, s') := by
  rcases hx' : exec (ops.env cfg) (.derive c) loc s with ⟨e | n, s'⟩
  · exact ⟨e, s', rfl⟩
  · obtain ⟨u', k', w0', w1', D', w2', t', w3', h0, h1, h2, h3, h4, h5, cdi, h6, h7, h8, h9⟩ :=
      export_draws hst hfit hser hx hx'
    have hsl : D'.slot = D.slot := h3.slot.unique hD.slot
    rw [hsl] at h0
    obtain rfl := h0.det hp
    obtain ⟨e, rfl⟩ := call_det h1 hu
    obtain ⟨rfl, rfl⟩ := Prod.mk.inj e
    obtain ⟨rfl, rfl⟩ := h3.det hD
    obtain ⟨rfl, rfl⟩ := h4.det hI
    omega

/-- When everything else is in order, an exporting DeriveContext succeeds exactly if the response
fits. -/
theorem C42_exported_fits {c : DeriveCmd cfg} {u : BArr 48} {k : U32} {w0 w1 w2 w3 : σ} {D : Draft}
    {t : Asn} (hst : InService s.st) (hfit : AlgorithmFits cfg ops) (hser : SerialGiven ops)
    (hx : Bit c.flags DFlag.exportCdi) (hno : NoRefusal (rules s.st loc (.derive c)))
    (hp : ParentDrawn ops c s.st D.slot s.w w0)
    (hu : ops.ueid w0 = (.ok (u, k), w1)) (hk : k.toNat ≤ 48)
    (hD : Drafted ops .exportedX509 (exportedArgs s.st c.handle loc (u.toList.take k.toNat)) s.st w1 D w2)
    (hI : Issued ops (exportedArgs s.st c.handle loc (u.toList.take k.toNat)) s.st D .exportedX509 w2 t w3)
    (hl : t.written.length ≤ 65539) :
    (∃ n s', exec (ops.env cfg) (.derive c) loc s = (.ok n, s')) ↔
      80 + t.written.length ≤ s.out.length := by
  constructor
  · rintro ⟨n, s', h⟩
    refine Nat.le_of_not_lt fun hs => ?_
    obtain ⟨e, s'', h'⟩ := C42_exported_small hst hfit hser hx hp hu hD hI hs
    rw [h] at h'
    cases h'
  · intro h
    exact (export_iff hst hfit hser hx).2
      ⟨hno, u, k, w0, w1, D, w2, t, w3, hp, hu, hk, hD, hI, hl, h⟩

example (k : Nat) : (∃ n s', exec (Toy.certOps.env Toy.cfg) (.derive Toy.exportCmd) 0
    { Toy.v4.sys with out := List.replicate k 0 } = (.ok n, s')) ↔ 739 ≤ k := by
  have hn : NoRefusal (rules Toy.v4.st 0 (.derive Toy.exportCmd)) := by
    obtain ⟨n, s', h⟩ := Toy.v4_exported
    exact C53_success (s := { Toy.v4.sys with out := Toy.bigBuf }) Toy.v4.reach h
  have hl : (Toy.tree (.issuerAndSerial [0x30, 0] [5]) Toy.v4.st .exportedX509
      (exportedArgs Toy.v4.st (Toy.hd 4) 0 ((Vector.replicate 48 3).toList.take 4))).written.length =
      659 := by
    decide +kernel
  have h := C42_exported_fits (s := { Toy.v4.sys with out := List.replicate k 0 }) (loc := 0)
    (c := Toy.exportCmd) (u := Vector.replicate 48 3) (k := 4)
    Toy.v4.reach Toy.decent_cert.fits Toy.decent_cert.serial (by decide) hn (.inl ⟨by decide, rfl⟩)
    rfl (by decide) (Toy.v4_drafted .exportedX509 _ _ rfl rfl)
    (Toy.issued (.issuerAndSerial [0x30, 0] [5]) .exportedX509 _ _ _)
    (by show (Toy.tree (.issuerAndSerial [0x30, 0] [5]) Toy.v4.st .exportedX509
          (exportedArgs Toy.v4.st (Toy.hd 4) 0 ((Vector.replicate 48 3).toList.take 4))).written.length ≤ _
        rw [hl]; decide)
  refine h.trans ?_
  show 80 + (Toy.tree (.issuerAndSerial [0x30, 0] [5]) Toy.v4.st .exportedX509
      (exportedArgs Toy.v4.st (Toy.hd 4) 0 ((Vector.replicate 48 3).toList.take 4))).written.length ≤
    (List.replicate k (0 : UInt8)).length ↔ _
  rw [hl, List.length_replicate]

/-- A failing command leaves the octets before the certificate alone, and the length of the
buffer. -/
theorem C42_failed {e : Err} :
    (∀ c : CertifyCmd, exec (ops.env cfg) (.certify c) loc s = (.error e, s') →
      s'.out.take (32 + c.keyBytes) = s.out.take (32 + c.keyBytes) ∧ s'.out.length = s.out.length) ∧
    (∀ c : DeriveCmd cfg, exec (ops.env cfg) (.derive c) loc s = (.error e, s') →
      s'.out.take 80 = s.out.take 80 ∧ s'.out.length = s.out.length) := by
  constructor
  · intro c h
    have hhs : certifyHdrSize c.variant = 32 + c.keyBytes := by cases c <;> rfl
    rw [← hhs]
    exact certify_front (env_keeps cfg ops) c loc s e s' h
  · intro c h
    exact export_front (env_keeps cfg ops) c loc s e s' h

/-- In a buffer that is too small CertifyKey fails after it has begun to write the certificate. -/
example (k : Nat) (hk : k < 822) : ∃ e s', exec (Toy.certOps.env Toy.cfg) (Toy.certifyCmd 4 0) 0
    { Toy.s4.sys with out := List.replicate k 0 } = (.error e, s') ∧
    s'.out.take 96 = (List.replicate k 0).take 96 := by
  have hl : (Toy.tree (.issuerAndSerial [0x30, 0] [5]) Toy.s4.st .leafX509
      (leafArgs Toy.s4.st (Toy.hd 4) 0 Toy.label.toList)).written.length = 726 := by decide +kernel
  obtain ⟨e, s', h⟩ := C42_certify_small (s := { Toy.s4.sys with out := List.replicate k 0 })
    (loc := 0) (c := .p256 (Toy.hd 4) 0 0 Toy.label)
    Toy.s4.reach Toy.decent_cert.fits Toy.decent_cert.serial (.inl ⟨rfl, rfl⟩)
    (Toy.s4_drafted (.issuerAndSerial [0x30, 0] [5]) .leafX509 _ _ rfl rfl)
    (Toy.issued (.issuerAndSerial [0x30, 0] [5]) .leafX509 _ _ _)
    (by show (List.replicate k (0 : UInt8)).length < 32 + 64 +
          (Toy.tree (.issuerAndSerial [0x30, 0] [5]) Toy.s4.st .leafX509
          (leafArgs Toy.s4.st (Toy.hd 4) 0 Toy.label.toList)).written.length
        rw [hl, List.length_replicate]; exact hk)
  refine ⟨e, s', h, ?_⟩
  have := (C42_failed.1 (.p256 (Toy.hd 4) 0 0 Toy.label) h).1
  have e96 : 32 + CertifyCmd.keyBytes (.p256 (Toy.hd 4) 0 0 Toy.label) = 96 := rfl
  rw [e96] at this
  exact this

end Dpe
