import Verif.Proofs.X509Emit
/-
The encoders of the certificate writer that sign: what is signed, what is emitted, and when they
fail.
-/
namespace Dpe
variable {cfg : Cfg} {σ α : Type}

/-! ### Reading back and filling gaps -/

theorem Holds.read {w0 w : Writer} {A B C : Bytes} (h : Holds w0 w (A ++ (B ++ C)))
    (hf : w0.offset + (A ++ (B ++ C)).length ≤ w0.buf.length) {a : Nat}
    (ha : a = w0.offset + A.length) : (w.buf.drop a).take B.length = B := by
  rw [h.fits hf, ha]
  have hA : (w0.buf.take w0.offset ++ A).length = w0.offset + A.length := by
    rw [List.length_append, List.length_take]
    simp only [List.length_append] at hf
    omega
  have e : w0.buf.take w0.offset ++ (A ++ (B ++ C) ++ w0.buf.drop (w0.offset +
      (A ++ (B ++ C)).length)) = (w0.buf.take w0.offset ++ A) ++ (B ++ (C ++ w0.buf.drop (w0.offset +
      (A ++ (B ++ C)).length))) := by simp
  rw [e, ← hA, List.drop_left, List.take_left]

/-- One step of backfilling. -/
theorem fill_step {w0 w : Writer} {x : σ} {o a n : Nat} {rest : List (Nat × Nat)} {A G C : Bytes}
    (h : Holds w0 w (A ++ (G ++ C))) (ha : a = w0.offset + A.length) (hG : G.length = 3)
    (hs : w.saved = some o) (hb : w.backtracks = (a, a + 3) :: rest) (hw : sizeWidth n = 3)
    (f : Nat → W σ α) :
    ∃ w', (W.pop (sizeWidth n) >>= fun _ => W.enc (encSize n) >>= f : W σ α) (w, x) = f 3 (w', x) ∧
      Holds w0 w' (A ++ (lenBytes n ++ C)) ∧ w'.saved = some o ∧ w'.backtracks = rest ∧
      w'.csrRange = w.csrRange := by
  obtain ⟨w1, w2, e1, e2, o1, b1, h12, _, s2, bt2, c2⟩ := fill_ok (x := x) (n := n) hs hb hw
  refine ⟨w2, by rw [W.bind_ok e1, W.bind_ok e2], ?_, s2, bt2, c2⟩
  have h' : Holds w0 w1 (A ++ (G ++ C)) := ⟨by rw [b1]; exact h.length, fun hf => by
    rw [b1]; exact h.fits hf⟩
  exact h'.fill (by rw [o1, ha]) (by rw [lenBytes_length, hw, hG]) h12

theorem fill_step_bad {w : Writer} {x : σ} {o a n : Nat} {rest : List (Nat × Nat)}
    (hs : w.saved = some o) (hb : w.backtracks = (a, a + 3) :: rest) (hw : sizeWidth n ≠ 3)
    (f : Unit → W σ α) : ∃ w', (W.pop (sizeWidth n) >>= f : W σ α) (w, x) =
      (.error .x509InvalidWidth, (w', x)) := by
  obtain ⟨w', e⟩ := pop_bad (x := x) (n := n) hs hb hw
  exact ⟨w', W.bind_err e⟩

/-! ### Signed payloads -/

/-- What is signed first: the CertificationRequestInfo or the TBSCertificate. -/
def payload (p : Profile) (crit : Bool) (d : CertData cfg) (cs : List (Context cfg))
    (cn sn : Bytes) (csr : Bool) : Asn :=
  if csr then requestInfo p (d.subjectOf crit cs cn sn)
  else tbsCertificate p d.serial d.issuer d.validity (d.subjectOf crit cs cn sn)

/-- The parts of `payload`. -/
def payloadParts (p : Profile) (crit : Bool) (d : CertData cfg) (cs : List (Context cfg))
    (cn sn : Bytes) (csr : Bool) : List Asn :=
  if csr then criParts p (d.subjectOf crit cs cn sn)
  else tbsParts p d.serial d.issuer d.validity (d.subjectOf crit cs cn sn)

theorem payload_eq (p : Profile) (crit : Bool) (d : CertData cfg) (cs : List (Context cfg))
    (cn sn : Bytes) (csr : Bool) : payload p crit d cs cn sn csr =
      .outer 0x30 (payloadParts p crit d cs cn sn csr) := by
  cases csr <;> rfl

/-- A payload with its signature. -/
def signedOf (p : Profile) (t : Asn) (sig : Sig) : Asn := .outer 0x30 [t, sigAlgorithm p, sigBits sig]

/-- How an encoder fails: `n` bytes do not fit, or (`bad`) a length does not take three octets. -/
def Tight (bad : Prop) (w : Writer) (n : Nat) (e : Err) : Prop :=
  (e = .internal .certSizeOverflow ∧ (w.buf.length < w.offset + n ∨ bad)) ∨
  (e = .x509InvalidWidth ∧ bad)

theorem Fail.tight {bad bad' : Prop} {w w1 : Writer} {bs : Bytes} {e : Err} {n : Nat}
    (h : Fail bad w1 bs e) (hb : bad → bad') (hl : w1.buf.length = w.buf.length)
    (hn : w1.offset + bs.length ≤ w.offset + n) : Tight bad' w n e := by
  rcases h with ⟨h1, h2⟩ | ⟨h1, h2⟩
  · refine .inl ⟨h1, h2.imp (fun h => ?_) hb⟩
    rw [hl] at h; omega
  · exact .inr ⟨h1, hb h2⟩

/-- The parts of `signedOf`. -/
def signedParts (p : Profile) (t : Asn) (sig : Sig) : List Asn := [t, sigAlgorithm p, sigBits sig]

/-- Outcomes of encoding, signing and wrapping a payload `t` that consists of `parts`. -/
inductive SignRun (cb : SignCb σ) (p : Profile) (t : Asn) (parts : List Asn) (csr : Bool)
    (w : Writer) (x : σ) (fit : Bool) : Except Err Nat × (Writer × σ) → Prop
  /-- Failure before anything is signed. -/
  | early {e : Err} {w' : Writer} :
      Tight (sizeWidth (Asn.wrs parts).length ≠ 3) w (4 + t.wr.length) e →
      SignRun cb p t parts csr w x fit (.error e, (w', x))
  /-- The signature failed. -/
  | crypto {e : CryptoErr} {w' : Writer} {x' : σ} : cb t.wr csr x = (.error e, x') →
      sizeWidth (Asn.wrs parts).length = 3 →
      SignRun cb p t parts csr w x fit (.error (.crypto e), (w', x'))
  /-- Failure after the signature. -/
  | late {e : Err} {w' : Writer} {x' : σ} {sig : Sig} : cb t.wr csr x = (.ok sig, x') →
      Tight (sizeWidth (Asn.wrs (signedParts p t sig)).length ≠ 3) w (signedOf p t sig).wr.length e →
      sizeWidth (Asn.wrs parts).length = 3 →
      SignRun cb p t parts csr w x fit (.error e, (w', x'))
  /-- Success. -/
  | done {w' : Writer} {x' : σ} {sig : Sig} : cb t.wr csr x = (.ok sig, x') →
      Step w w' (signedOf p t sig).wr →
      (fit = true → w.offset + (signedOf p t sig).wr.length ≤ w.buf.length) →
      sizeWidth (Asn.wrs parts).length = 3 →
      sizeWidth (Asn.wrs (signedParts p t sig)).length = 3 →
      SignRun cb p t parts csr w x fit (.ok (signedOf p t sig).wr.length, (w', x'))

theorem encSigned_run {cb : SignCb σ} {p : Profile} {crit : Bool} {d : CertData cfg}
    {cs : List (Context cfg)} {cn sn : Bytes} {csr : Bool} (hc : ChainOf d.meas cs)
    (hk : keyFits p d.pubKey) (hs : csr = false → d.serial ≠ [])
    (hn : d.subject = ⟨.printable cn, .printable sn⟩) (w : Writer) (x : σ) (hsv : w.saved = none)
    (hb : w.backtracks.length + 2 ≤ 10) :
    SignRun cb p (payload p crit d cs cn sn csr) (payloadParts p crit d cs cn sn csr) csr w x false
      (encSigned cb p crit d csr (w, x)) := by
  have hp : GoesFit 1 (False ∨ sizeWidth (Asn.wrs (payloadParts p crit d cs cn sn csr)).length ≠ 3)
      (encPayload p crit d csr : W σ Nat)
      (payload p crit d cs cn sn csr).wr (payload p crit d cs cn sn csr).wr.length := by
    cases csr
    · exact goes_tbs hc hk (hs rfl) hn
    · exact goes_cri hc hk hn
  generalize hparts : payloadParts p crit d cs cn sn csr = parts at hp ⊢
  generalize ht : payload p crit d cs cn sn csr = t at hp ⊢
  obtain ⟨_, hst⟩ := emits_byte tagSequence w
  have e0 : (W.enc (encByte tagSequence) : W σ Nat) (w, x) =
    (.ok 1, ((encByte tagSequence w).2, x)) := rfl
  generalize (encByte tagSequence w).2 = w1 at hst e0
  have hs1 : w1.saved = none := by rw [hst.saved, hsv]
  have hb1 : w1.backtracks = w.backtracks := hst.backtracks
  have ho1 : w1.offset = w.offset + 1 := hst.offset
  have hpush := push_ok (σ := σ) (w := w1) (x := x) (by rw [hb1]; omega)
  unfold encSigned
  rw [W.bind_ok e0, W.bind_ok hpush]
  rcases hp w1.pushed x hs1 (by show (w1.backtracks.length + 1) + 1 ≤ 10; rw [hb1]; omega) with
    ⟨w3, e3, s3, n3, f3⟩ | ⟨e, w3, e3, f3⟩
  case inr =>
    rw [W.bind_err e3]
    refine .early (f3.tight (fun h => h.elim False.elim id) hst.length ?_)
    show w1.offset + 3 + _ ≤ _
    omega
  rw [W.bind_ok e3]
  have hw0 : sizeWidth (Asn.wrs parts).length = 3 := by
    by_contra hc'; exact n3 (.inr hc')
  have hdata : (w3.buf.drop (w1.offset + 3)).take (w1.offset + 3 + t.wr.length - (w1.offset + 3)) =
      t.wr := by
    have h : Holds w1.pushed w3 ([] ++ (t.wr ++ [])) := by simpa using s3.holds
    have := h.read (by simpa using f3) (a := w1.offset + 3) rfl
    rw [show w1.offset + 3 + t.wr.length - (w1.offset + 3) = t.wr.length by omega]
    exact this
  cases hcb : cb t.wr csr x with
  | mk r x' =>
    cases r with
    | error ce =>
      have e4 : (W.sign cb (w1.offset + 3) (w1.offset + 3 + t.wr.length) csr) (w3, x) =
          (.error (.crypto ce), (w3, x')) := by
        simp only [W.sign, hdata, hcb]
      rw [W.bind_err e4]
      exact .crypto hcb hw0
    | ok sig =>
      have e4 : (W.sign cb (w1.offset + 3) (w1.offset + 3 + t.wr.length) csr) (w3, x) =
          (.ok sig, (w3, x')) := by
        simp only [W.sign, hdata, hcb]
      rw [W.bind_ok e4]
      obtain ⟨h5a, h5⟩ := emits_sigBits p sig w3
      have e5 : (W.enc (encSigBits p sig) : W σ Nat) (w3, x') =
        (.ok ((sigAlgorithm p).wr ++ (sigBits sig).wr).length, ((encSigBits p sig w3).2, x')) := by
        show (Except.ok (encSigBits p sig w3).1, _) = _
        rw [h5a]
      generalize (encSigBits p sig w3).2 = w5 at h5 e5
      rw [W.bind_ok e5]
      have hbody : t.wr ++ ((sigAlgorithm p).wr ++ (sigBits sig).wr) = Asn.wrs (signedParts p t sig) := by
        simp [signedParts, wrs_cons, wrs_nil]
      have s5 : Step w1.pushed w5 (Asn.wrs (signedParts p t sig)) := hbody ▸ s3.trans h5
      have hlen : t.wr.length + ((sigAlgorithm p).wr ++ (sigBits sig).wr).length =
          (Asn.wrs (signedParts p t sig)).length := by rw [← hbody]; simp
      have hwr : (signedOf p t sig).wr = [tagSequence] ++ (lenBytes (Asn.wrs (signedParts p t sig)).length ++
          Asn.wrs (signedParts p t sig)) := by rw [signedOf, outer_wr]; rfl
      rw [hlen]
      by_cases hw : sizeWidth (Asn.wrs (signedParts p t sig)).length = 3
      · obtain ⟨w6, e6, s6⟩ := backfill_ok (x := x') hs1 s5 hw
        rw [W.bind_ok e6, W.pure_def]
        have hl : (Asn.wrs (signedParts p t sig)).length + (1 + 3) = (signedOf p t sig).wr.length := by
          rw [hwr]
          simp only [List.length_append, lenBytes_length, hw, List.length_singleton]
          omega
        rw [hl]
        refine .done hcb ?_ (by simp) ?_ hw
        · rw [hwr]; exact hst.trans s6
        · exact hw0
      · obtain ⟨w6, e6⟩ := backfill_bad (x := x') hs1 s5 hw
        rw [W.bind_err e6]
        exact .late hcb (.inr ⟨rfl, hw⟩) hw0

theorem encCertOrCsr_run {cb : SignCb σ} {p : Profile} {crit : Bool} {d : CertData cfg}
    {cs : List (Context cfg)} {cn sn : Bytes} {csr : Bool} (hc : ChainOf d.meas cs)
    (hk : keyFits p d.pubKey) (hs : csr = false → d.serial ≠ [])
    (hn : d.subject = ⟨.printable cn, .printable sn⟩) (w : Writer) (x : σ) (hsv : w.saved = none)
    (hb : w.backtracks.length + 2 ≤ 10) :
    SignRun cb p (payload p crit d cs cn sn csr) (payloadParts p crit d cs cn sn csr) csr w x true
      (encCertOrCsr cb p crit d csr (w, x)) := by
  have h := encSigned_run (cb := cb) (crit := crit) hc hk hs hn w x hsv hb
  unfold encCertOrCsr
  generalize hr : encSigned cb p crit d csr (w, x) = r at h
  cases h with
  | early h => rw [W.bind_err hr]; exact .early h
  | crypto h h' => rw [W.bind_err hr]; exact .crypto h h'
  | late h1 h2 h3 => rw [W.bind_err hr]; exact .late h1 h2 h3
  | @done w' x' sig h1 h2 _ h4 h5 =>
    rw [W.bind_ok hr]
    by_cases hf : w'.offset > w'.buf.length
    · have e2 : (W.checkFits : W σ Unit) (w', x') = (.error (.internal .certSizeOverflow), (w', x')) := by
        simp only [W.checkFits, if_pos hf]
      rw [W.bind_err e2]
      refine .late h1 (.inl ⟨rfl, .inl ?_⟩) h4
      rw [h2.offset, h2.length] at hf
      omega
    · have e2 : (W.checkFits : W σ Unit) (w', x') = (.ok (), (w', x')) := by
        simp only [W.checkFits, if_neg hf]
      rw [W.bind_ok e2, W.pure_def]
      rw [h2.offset, h2.length] at hf
      exact .done h1 h2 (fun _ => by omega) h4 h5

/-! ### Three nested lengths -/

/-- Three prefixes, each followed by a gap for a length. -/
def open3 (e1 e2 e3 : Enc) : W σ (Nat × Nat × Nat × Nat) := do
  let a ← W.enc e1
  let _ ← W.push sizeTagOffset
  let b ← W.enc e2
  let _ ← W.push sizeTagOffset
  let c ← W.enc e3
  let off ← W.push sizeTagOffset
  pure (a, b, c, off)

theorem enc_run {e : Enc} {bs : Bytes} (h : Emits e bs) (w : Writer) (x : σ) :
    ∃ w', (W.enc e : W σ Nat) (w, x) = (.ok bs.length, (w', x)) ∧ Step w w' bs := by
  obtain ⟨h1, h2⟩ := h w
  refine ⟨(e w).2, ?_, h2⟩
  show (Except.ok (e w).1, _) = _
  rw [h1]

/-- The backtracks that `open3` leaves behind. -/
def gaps3 (o a b c : Nat) : List (Nat × Nat) :=
  [(o + a + 3 + b + 3 + c, o + a + 3 + b + 3 + c + 3), (o + a + 3 + b, o + a + 3 + b + 3),
    (o + a, o + a + 3)]

theorem open3_ok {e1 e2 e3 : Enc} {b1 b2 b3 : Bytes} (h1 : Emits e1 b1) (h2 : Emits e2 b2)
    (h3 : Emits e3 b3) (w : Writer) (x : σ) (hb : w.backtracks.length + 3 ≤ 10) :
    ∃ w' G1 G2 G3, (open3 e1 e2 e3 : W σ _) (w, x) =
        (.ok (b1.length, b2.length, b3.length, w'.offset), (w', x)) ∧
      Holds w w' (b1 ++ (G1 ++ (b2 ++ (G2 ++ (b3 ++ G3))))) ∧
      G1.length = 3 ∧ G2.length = 3 ∧ G3.length = 3 ∧
      w'.offset = w.offset + b1.length + 3 + b2.length + 3 + b3.length + 3 ∧
      w'.saved = w.saved ∧ w'.csrRange = w.csrRange ∧
      w'.backtracks = gaps3 w.offset b1.length b2.length b3.length ++ w.backtracks := by
  obtain ⟨w1, r1, s1⟩ := enc_run h1 w x
  have p1 := push_ok (σ := σ) (w := w1) (x := x) (by rw [s1.backtracks]; omega)
  obtain ⟨w2, r2, s2⟩ := enc_run h2 w1.pushed x
  have t2 : w2.backtracks = (w1.offset, w1.offset + 3) :: w.backtracks := by
    rw [s2.backtracks, ← s1.backtracks]; rfl
  have p2 := push_ok (σ := σ) (w := w2) (x := x) (by rw [t2, List.length_cons]; omega)
  obtain ⟨w3, r3, s3⟩ := enc_run h3 w2.pushed x
  have t3 : w3.backtracks = (w2.offset, w2.offset + 3) :: (w1.offset, w1.offset + 3) ::
      w.backtracks := by
    rw [s3.backtracks, ← t2]; rfl
  have p3 := push_ok (σ := σ) (w := w3) (x := x) (by
    rw [t3, List.length_cons, List.length_cons]; omega)
  have o1 : w1.offset = w.offset + b1.length := s1.offset
  have o2 : w2.offset = w1.offset + 3 + b2.length := s2.offset
  have o3 : w3.offset = w2.offset + 3 + b3.length := s3.offset
  refine ⟨w3.pushed, w1.gap, w2.gap, w3.gap, ?_, ?_, gap_length _, gap_length _, gap_length _,
    ?_, ?_, ?_, ?_⟩
  · unfold open3
    rw [W.bind_ok r1, W.bind_ok p1, W.bind_ok r2, W.bind_ok p2, W.bind_ok r3, W.bind_ok p3]
    rfl
  · refine s1.holds.trans o1 ?_
    refine (pushed_holds w1).trans (by rw [gap_length]; rfl) ?_
    refine s2.holds.trans s2.offset ?_
    refine (pushed_holds w2).trans (by rw [gap_length]; rfl) ?_
    refine s3.holds.trans s3.offset ?_
    exact pushed_holds w3
  · show w3.offset + 3 = _
    omega
  · show w3.saved = _
    rw [s3.saved]; show w2.saved = _
    rw [s2.saved]; show w1.saved = _
    rw [s1.saved]
  · show w3.csrRange = _
    rw [s3.csrRange]; show w2.csrRange = _
    rw [s2.csrRange]; show w1.csrRange = _
    rw [s1.csrRange]
  · show (w3.offset, w3.offset + 3) :: w3.backtracks = _
    rw [t3, o3, o2, o1]
    rfl

theorem start_ok {w : Writer} {x : σ} (hs : w.saved = none) :
    (W.start : W σ Unit) (w, x) = (.ok (), ({ w with saved := some w.offset }, x)) := by
  simp [W.start, hs]

theorem close3_ok {w0 w : Writer} {x : σ} {b1 b2 b3 G1 G2 G3 C : Bytes} {n1 n2 n3 : Nat}
    {rest : List (Nat × Nat)}
    (h : Holds w0 w (b1 ++ (G1 ++ (b2 ++ (G2 ++ (b3 ++ (G3 ++ C)))))))
    (g1 : G1.length = 3) (g2 : G2.length = 3) (g3 : G3.length = 3) (hs : w.saved = none)
    (hb : w.backtracks = gaps3 w0.offset b1.length b2.length b3.length ++ rest)
    (h1 : sizeWidth n1 = 3) (h2 : sizeWidth n2 = 3) (h3 : sizeWidth n3 = 3) :
    ∃ w', (backfillCms n3 n2 n1 : W σ Unit) (w, x) = (.ok (), (w', x)) ∧
      Holds w0 w' (b1 ++ (lenBytes n1 ++ (b2 ++ (lenBytes n2 ++ (b3 ++ (lenBytes n3 ++ C)))))) ∧
      w'.offset = w.offset ∧ w'.saved = none ∧ w'.csrRange = w.csrRange ∧ w'.backtracks = rest := by
  unfold backfillCms
  rw [W.bind_ok (start_ok hs)]
  have h' : Holds w0 { w with saved := some w.offset }
      ((b1 ++ (G1 ++ (b2 ++ (G2 ++ b3)))) ++ (G3 ++ C)) := by
    have := h
    simp only [List.append_assoc] at this ⊢
    exact ⟨this.length, this.fits⟩
  obtain ⟨w1, e1, k1, s1, t1, c1⟩ := fill_step (x := x) (o := w.offset)
    (a := w0.offset + b1.length + 3 + b2.length + 3 + b3.length) (n := n3) h'
    (by simp only [List.length_append, g1, g2]; omega) g3 rfl
    (by show w.backtracks = _; rw [hb]; rfl) h3
    (fun _ => (do
      W.pop (sizeWidth n2)
      let _ ← W.enc (encSize n2)
      W.pop (sizeWidth n1)
      let _ ← W.enc (encSize n1)
      W.finish : W σ Unit))
  rw [e1]
  have k1' : Holds w0 w1 ((b1 ++ (G1 ++ b2)) ++ (G2 ++ (b3 ++ (lenBytes n3 ++ C)))) := by
    simpa only [List.append_assoc] using k1
  obtain ⟨w2, e2, k2, s2, t2, c2⟩ := fill_step (x := x) (o := w.offset)
    (a := w0.offset + b1.length + 3 + b2.length) (n := n2) k1'
    (by simp only [List.length_append, g1]; omega) g2 s1 t1 h2
    (fun _ => (do
      W.pop (sizeWidth n1)
      let _ ← W.enc (encSize n1)
      W.finish : W σ Unit))
  rw [e2]
  have k2' : Holds w0 w2 (b1 ++ (G1 ++ (b2 ++ (lenBytes n2 ++ (b3 ++ (lenBytes n3 ++ C)))))) := by
    simpa only [List.append_assoc] using k2
  obtain ⟨w3, e3, k3, s3, t3, c3⟩ := fill_step (x := x) (o := w.offset)
    (a := w0.offset + b1.length) (n := n1) k2' rfl g1 s2 t2 h1 (fun _ => (W.finish : W σ Unit))
  rw [e3]
  refine ⟨{ w3 with offset := w.offset, saved := none }, by simp only [W.finish, s3],
    ⟨k3.length, k3.fits⟩, rfl, rfl, ?_, t3⟩
  show w3.csrRange = _
  rw [c3, c2, c1]

theorem close3_bad {w0 w : Writer} {x : σ} {b1 b2 b3 G1 G2 G3 C : Bytes} {n1 n2 n3 : Nat}
    {rest : List (Nat × Nat)}
    (h : Holds w0 w (b1 ++ (G1 ++ (b2 ++ (G2 ++ (b3 ++ (G3 ++ C)))))))
    (g1 : G1.length = 3) (g2 : G2.length = 3) (g3 : G3.length = 3) (hs : w.saved = none)
    (hb : w.backtracks = gaps3 w0.offset b1.length b2.length b3.length ++ rest)
    (hbad : ¬ (sizeWidth n1 = 3 ∧ sizeWidth n2 = 3 ∧ sizeWidth n3 = 3)) :
    ∃ w', (backfillCms n3 n2 n1 : W σ Unit) (w, x) = (.error .x509InvalidWidth, (w', x)) := by
  unfold backfillCms
  rw [W.bind_ok (start_ok hs)]
  by_cases h3 : sizeWidth n3 = 3
  case neg =>
    exact fill_step_bad (o := w.offset)
      (a := w0.offset + b1.length + 3 + b2.length + 3 + b3.length) rfl
      (by show w.backtracks = _; rw [hb]; rfl) h3 _
  have h' : Holds w0 { w with saved := some w.offset }
      ((b1 ++ (G1 ++ (b2 ++ (G2 ++ b3)))) ++ (G3 ++ C)) := by
    have := h
    simp only [List.append_assoc] at this ⊢
    exact ⟨this.length, this.fits⟩
  obtain ⟨w1, e1, k1, s1, t1, c1⟩ := fill_step (x := x) (o := w.offset)
    (a := w0.offset + b1.length + 3 + b2.length + 3 + b3.length) (n := n3) h'
    (by simp only [List.length_append, g1, g2]; omega) g3 rfl
    (by show w.backtracks = _; rw [hb]; rfl) h3
    (fun _ => (do
      W.pop (sizeWidth n2)
      let _ ← W.enc (encSize n2)
      W.pop (sizeWidth n1)
      let _ ← W.enc (encSize n1)
      W.finish : W σ Unit))
  rw [e1]
  by_cases h2 : sizeWidth n2 = 3
  case neg => exact fill_step_bad s1 t1 h2 _
  have k1' : Holds w0 w1 ((b1 ++ (G1 ++ b2)) ++ (G2 ++ (b3 ++ (lenBytes n3 ++ C)))) := by
    simpa only [List.append_assoc] using k1
  obtain ⟨w2, e2, k2, s2, t2, c2⟩ := fill_step (x := x) (o := w.offset)
    (a := w0.offset + b1.length + 3 + b2.length) (n := n2) k1'
    (by simp only [List.length_append, g1]; omega) g2 s1 t1 h2
    (fun _ => (do
      W.pop (sizeWidth n1)
      let _ ← W.enc (encSize n1)
      W.finish : W σ Unit))
  rw [e2]
  exact fill_step_bad s2 t2 (fun h1 => hbad ⟨h1, h2, h3⟩) _

/-! ### The encapsulated request -/

/-- EncapsulatedContentInfo. -/
def encapOf (csr : Asn) : Asn := .outer 0x30 [idData, .outer 0xA0 [.outer 0x04 [csr]]]

/-- The lengths inside `encapOf`. -/
def encapLens (csr : Asn) : List Nat :=
  [(Asn.wrs [idData, .outer 0xA0 [.outer 0x04 [csr]]]).length, (Asn.outer 0x04 [csr]).wr.length,
    csr.wr.length]

theorem encSize_seq (n : Nat) (f : Nat → W σ α) :
    ((W.enc (encSize n) : W σ Nat) >>= f) = (W.enc (encSize n) >>= fun _ => f (sizeWidth n)) := by
  funext s
  obtain ⟨h1, _⟩ := emits_size n s.1
  rw [lenBytes_length] at h1
  show f (encSize n s.1).1 _ = f (sizeWidth n) _
  rw [h1]

theorem wrs_single (t : Asn) : Asn.wrs [t] = t.wr := by simp [wrs_cons, wrs_nil]

theorem outer_length (n : UInt8) (ps : List Asn) :
    (Asn.outer n ps).wr.length = tl (Asn.wrs ps).length := by
  rw [outer_wr, List.length_cons, List.length_append, lenBytes_length, tl]; omega

/-- The object identifier and tag between the first two lengths. -/
def encapMid : Bytes := idData.wr ++ [0xA0]

theorem encapMid_emits : Emits (Enc.all [encOid oidData,
    encByte (tagContext ||| tagConstructed ||| 0x0)]) encapMid := by
  apply Emits.cast
  · exact emits_cons (emits_oid _) (emits_cons (emits_byte _) emits_nil)
  · rw [encapMid, idData_eq, List.append_nil]
    rfl

theorem backfillEncap_eq (csr : Asn) : (backfillEncap csr.wr.length (encapMid.length + 1) : W σ Nat) =
    (backfillCms csr.wr.length (Asn.outer 0x04 [csr]).wr.length
      (Asn.wrs [idData, .outer 0xA0 [.outer 0x04 [csr]]]).length >>= fun _ =>
      pure ((Asn.wrs [idData, .outer 0xA0 [.outer 0x04 [csr]]]).length + (1 +
        sizeWidth (Asn.wrs [idData, .outer 0xA0 [.outer 0x04 [csr]]]).length))) := by
  have k1 : keyIdSize csr.wr.length false false = csr.wr.length := by
    simp [keyIdSize, structSize_false]
  have k2 : keyIdSize csr.wr.length true false = (Asn.outer 0x04 [csr]).wr.length := by
    rw [outer_length, wrs_single]; simp [keyIdSize, structSize_false, structSize_true]
  have k3 : encapMid.length + 1 + sizeWidth csr.wr.length +
      sizeWidth (Asn.outer 0x04 [csr]).wr.length + csr.wr.length =
      (Asn.wrs [idData, .outer 0xA0 [.outer 0x04 [csr]]]).length := by
    have hx := outer_length 0x04 [csr]
    rw [wrs_single] at hx
    rw [wrs_cons, wrs_single, List.length_append, outer_length 0xA0, wrs_single, encapMid,
      List.length_append]
    simp only [tl, List.length_singleton] at hx ⊢
    omega
  unfold backfillEncap backfillCms
  simp only [k1, k2, W.assoc]
  simp only [encSize_seq, k3]

/-- How many bytes come before the request. -/
def encapPre : Nat := 1 + 3 + encapMid.length + 3 + 1 + 3

/-- Outcomes of encoding a signed request inside EncapsulatedContentInfo. -/
inductive EncapRun (cb : SignCb σ) (p : Profile) (t : Asn) (parts : List Asn) (w : Writer) (x : σ) :
    Except Err Nat × (Writer × σ) → Prop
  | early {e : Err} {w' : Writer} :
      Tight (sizeWidth (Asn.wrs parts).length ≠ 3) w (encapPre + 4 + t.wr.length) e →
      EncapRun cb p t parts w x (.error e, (w', x))
  | crypto {e : CryptoErr} {w' : Writer} {x' : σ} : cb t.wr true x = (.error e, x') →
      sizeWidth (Asn.wrs parts).length = 3 →
      EncapRun cb p t parts w x (.error (.crypto e), (w', x'))
  | late {e : Err} {w' : Writer} {x' : σ} {sig : Sig} : cb t.wr true x = (.ok sig, x') →
      Tight (¬ ∀ n ∈ (Asn.wrs (signedParts p t sig)).length :: encapLens (signedOf p t sig),
        sizeWidth n = 3) w (encapPre + (signedOf p t sig).wr.length) e →
      sizeWidth (Asn.wrs parts).length = 3 →
      EncapRun cb p t parts w x (.error e, (w', x'))
  | done {w' : Writer} {x' : σ} {sig : Sig} : cb t.wr true x = (.ok sig, x') →
      Holds w w' (encapOf (signedOf p t sig)).wr →
      w'.offset = w.offset + (encapOf (signedOf p t sig)).wr.length →
      w'.saved = none → w'.backtracks = w.backtracks →
      w'.csrRange = some (w.offset + encapPre,
        w.offset + encapPre + (signedOf p t sig).wr.length) →
      w.offset + (encapOf (signedOf p t sig)).wr.length ≤ w.buf.length →
      sizeWidth (Asn.wrs parts).length = 3 →
      (∀ n ∈ (Asn.wrs (signedParts p t sig)).length :: encapLens (signedOf p t sig),
        sizeWidth n = 3) →
      EncapRun cb p t parts w x (.ok (encapOf (signedOf p t sig)).wr.length, (w', x'))

theorem encEncap_eq (cb : SignCb σ) (p : Profile) (crit : Bool) (d : CertData cfg) :
    encEncap cb p crit d = (do
      let r ← open3 (encByte tagSequence) (Enc.all [encOid oidData,
        encByte (tagContext ||| tagConstructed ||| 0x0)]) (encByte tagOctetString)
      let csr ← encCertOrCsr cb p crit d true
      W.setCsrRange r.2.2.2 (r.2.2.2 + csr)
      backfillEncap csr (r.2.1 + r.2.2.1)) := by
  simp only [encEncap, open3, W.assoc, W.pure_bind']

theorem encapOf_wr (csr : Asn) : (encapOf csr).wr =
    [0x30] ++ (lenBytes (Asn.wrs [idData, .outer 0xA0 [.outer 0x04 [csr]]]).length ++ (encapMid ++
      (lenBytes (Asn.outer 0x04 [csr]).wr.length ++ ([0x04] ++ (lenBytes csr.wr.length ++ csr.wr))))) := by
  rw [encapOf, outer_wr]
  rw [wrs_cons, wrs_single, outer_wr 0xA0, wrs_single, outer_wr 0x04, wrs_single, encapMid]
  simp

theorem encEncap_run {cb : SignCb σ} {p : Profile} {crit : Bool} {d : CertData cfg}
    {cs : List (Context cfg)} {cn sn : Bytes} (hc : ChainOf d.meas cs)
    (hk : keyFits p d.pubKey)
    (hn : d.subject = ⟨.printable cn, .printable sn⟩) (w : Writer) (x : σ) (hsv : w.saved = none)
    (hb : w.backtracks.length + 5 ≤ 10) :
    EncapRun cb p (payload p crit d cs cn sn true) (payloadParts p crit d cs cn sn true) w x
      (encEncap cb p crit d (w, x)) := by
  rw [encEncap_eq]
  obtain ⟨w1, G1, G2, G3, e1, k1, g1, g2, g3, o1, s1, c1, t1⟩ := open3_ok (e1 := encByte tagSequence)
    (e3 := encByte tagOctetString) (emits_byte _) encapMid_emits (emits_byte _) w x (by omega)
  rw [W.bind_ok e1]
  have ho : w1.offset = w.offset + encapPre := by
    rw [o1]; simp only [encapPre, List.length_singleton]; omega
  have h := encCertOrCsr_run (cb := cb) (crit := crit) (csr := true) hc hk (by simp) hn w1 x
    (by rw [s1, hsv]) (by rw [t1, List.length_append]; simp only [gaps3, List.length_cons, List.length_nil]; omega)
  generalize hr : encCertOrCsr cb p crit d true (w1, x) = r at h
  generalize payload p crit d cs cn sn true = t at h ⊢
  generalize payloadParts p crit d cs cn sn true = parts at h ⊢
  cases h with
  | early h =>
    rw [W.bind_err hr]
    refine .early ?_
    rcases h with ⟨h1, h2⟩ | h
    · refine .inl ⟨h1, h2.imp (fun h => ?_) id⟩
      rw [k1.length, ho] at h; omega
    · exact .inr h
  | crypto h h' => rw [W.bind_err hr]; exact .crypto h h'
  | late h1 h2 hw0 =>
    rw [W.bind_err hr]
    refine .late h1 ?_ hw0
    rcases h2 with ⟨h2, h3⟩ | ⟨h2, h3⟩
    · refine .inl ⟨h2, h3.imp (fun h => ?_) (fun h hc => h (hc _ (List.mem_cons_self ..)))⟩
      rw [k1.length, ho] at h; omega
    · exact .inr ⟨h2, fun hc => h3 (hc _ (List.mem_cons_self ..))⟩
  | @done w2 x' sig h1 h2 h3 h4 h5 =>
    rw [W.bind_ok hr]
    generalize hT : signedOf p t sig = T at h2 h3
    have e3 : (W.setCsrRange w1.offset (w1.offset + T.wr.length) : W σ Unit) (w2, x') =
      (.ok (), ({ w2 with csrRange := some (w1.offset, w1.offset + T.wr.length) }, x')) := rfl
    rw [W.bind_ok e3]
    have hbw : encapMid.length + [tagOctetString].length = encapMid.length + 1 := rfl
    rw [hbw, backfillEncap_eq]
    have h12 : Holds w { w2 with csrRange := some (w1.offset, w1.offset + T.wr.length) }
        ([0x30] ++ (G1 ++ (encapMid ++ (G2 ++ ([0x04] ++ (G3 ++ T.wr)))))) := by
      have := k1.trans (by
        rw [o1]; simp only [List.length_append, g1, g2, g3]; omega) h2.holds
      simp only [List.append_assoc] at this
      exact ⟨this.length, this.fits⟩
    have hs2 : w2.saved = none := by rw [h2.saved, s1, hsv]
    have ht2 : w2.backtracks = gaps3 w.offset 1 encapMid.length 1 ++ w.backtracks := by
      rw [h2.backtracks, t1]; rfl
    by_cases hw : sizeWidth (Asn.wrs [idData, .outer 0xA0 [.outer 0x04 [T]]]).length = 3 ∧
        sizeWidth (Asn.outer 0x04 [T]).wr.length = 3 ∧ sizeWidth T.wr.length = 3
    · obtain ⟨w3, e4, k4, o4, s4, c4, t4⟩ := close3_ok (x := x') h12 g1 g2 g3 hs2 ht2 hw.1 hw.2.1 hw.2.2
      rw [W.bind_ok e4, W.pure_def]
      have hl : (Asn.wrs [idData, .outer 0xA0 [.outer 0x04 [T]]]).length + (1 +
          sizeWidth (Asn.wrs [idData, .outer 0xA0 [.outer 0x04 [T]]]).length) =
          (encapOf T).wr.length := by
        rw [encapOf, outer_length, tl]; omega
      have hl2 : (encapOf T).wr.length = encapPre + T.wr.length := by
        rw [encapOf_wr]
        simp only [List.length_append, lenBytes_length, hw.1, hw.2.1, hw.2.2, encapPre,
          List.length_singleton]
        omega
      rw [hl]
      subst hT
      refine .done h1 ?_ ?_ s4 t4 ?_ ?_ h4 ?_
      · rw [encapOf_wr]; exact k4
      · rw [o4]; show w2.offset = _
        rw [h2.offset, ho, hl2]; omega
      · rw [c4, ← ho]
      · have := h3 rfl
        rw [k1.length, ho] at this
        rw [hl2]; omega
      · intro n hn
        simp only [encapLens, List.mem_cons, List.not_mem_nil, or_false] at hn
        rcases hn with rfl | rfl | rfl | rfl
        · exact h5
        · exact hw.1
        · exact hw.2.1
        · exact hw.2.2
    · obtain ⟨w3, e4⟩ := close3_bad (x := x') h12 g1 g2 g3 hs2 ht2 hw
      rw [W.bind_err e4]
      subst hT
      refine .late h1 (.inr ⟨rfl, fun hc => hw ⟨hc _ ?_, hc _ ?_, hc _ ?_⟩⟩) h4 <;> simp [encapLens]

/-! ### CMS -/

/-- The parts of SignedData. -/
def sdParts (p : Profile) (sid : SignerId) (csr : Asn) (sig : Sig) : List Asn :=
  [asnInt (cmsVersionOf sid), setOf [hashAlgorithm p], encapOf csr,
    setOf [signerInfo p (cmsVersionOf sid) (signerIdentifier' sid) sig]]

/-- The CMS message as DPE writes it. -/
def cmsOf (p : Profile) (sid : SignerId) (csr : Asn) (sig : Sig) : Asn :=
  .outer 0x30 [idSignedData, .outer 0xA0 [.outer 0x30 (sdParts p sid csr sig)]]

theorem cmsOf_eq (p : Profile) (sid : SignerId) (csr : Asn) (sig : Sig) : cmsOf p sid csr sig =
    signedRequest p (cmsVersionOf sid) (signerIdentifier' sid) csr sig := rfl

/-- The lengths inside `cmsOf`, except those inside `encapOf`. -/
def cmsLens (p : Profile) (sid : SignerId) (csr : Asn) (sig : Sig) : List Nat :=
  [(Asn.wrs [idSignedData, .outer 0xA0 [.outer 0x30 (sdParts p sid csr sig)]]).length,
    (Asn.outer 0x30 (sdParts p sid csr sig)).wr.length, (Asn.wrs (sdParts p sid csr sig)).length]

/-- The object identifier and tag between the first two lengths. -/
def cmsMid : Bytes := idSignedData.wr ++ [0xA0]

theorem cmsMid_emits : Emits (Enc.all [encOid oidSignedData,
    encByte (tagContext ||| tagConstructed ||| 0x0)]) cmsMid := by
  apply Emits.cast
  · exact emits_cons (emits_oid _) (emits_cons (emits_byte _) emits_nil)
  · rw [cmsMid, idSignedData_eq, List.append_nil]
    rfl

/-- The version and hash algorithm. -/
def cmsHead (p : Profile) (sid : SignerId) : Bytes :=
  (asnInt (cmsVersionOf sid)).wr ++ (setOf [hashAlgorithm p]).wr

theorem cmsHead_emits (p : Profile) (sid : SignerId) : Emits (Enc.all [encInt (cmsVersion sid) true,
    encByte tagSetOf, encSize (hashAlgSize p true), encHashAlg p]) (cmsHead p sid) := by
  rw [cmsVersion_eq]
  apply Emits.cast
  · exact emits_cons (emits_int (cmsVersion_lt sid)) (emits_cons (emits_byte _)
      (emits_cons (emits_size _) (emits_cons (emits_hashAlg p) emits_nil)))
  · rw [cmsHead, setOf_wr, hashAlgSize_eq, wrs_single, fss_cons, fss_nil]
    simp [tagSetOf]

/-- How many bytes come before the EncapsulatedContentInfo. -/
def cmsPre (p : Profile) (sid : SignerId) : Nat :=
  1 + 3 + cmsMid.length + 3 + 1 + 3 + (cmsHead p sid).length

/-- SET OF SignerInfo. -/
def cmsTail (p : Profile) (sid : SignerId) (sig : Sig) : Asn :=
  setOf [signerInfo p (cmsVersionOf sid) (signerIdentifier' sid) sig]

theorem cmsTail_emits (p : Profile) (sid : SignerId) (sig : Sig)
    (h : ∀ i, sid ≠ .issuerAndSerial i []) : Emits (Enc.all [encByte tagSetOf,
      encSize (signerInfoSize p sig sid true), encSignerInfo p sig sid]) (cmsTail p sid sig).wr := by
  apply Emits.cast
  · exact emits_cons (emits_byte _) (emits_cons (emits_size _)
      (emits_cons (emits_signerInfo p sig sid h) emits_nil))
  · rw [cmsTail, setOf_wr, signerInfoSize_eq p sig sid h, wrs_single, fss_cons, fss_nil]
    simp [tagSetOf]

theorem cmsOf_wr (p : Profile) (sid : SignerId) (csr : Asn) (sig : Sig) : (cmsOf p sid csr sig).wr =
    [0x30] ++ (lenBytes (Asn.wrs [idSignedData, .outer 0xA0 [.outer 0x30 (sdParts p sid csr sig)]]).length ++
      (cmsMid ++ (lenBytes (Asn.outer 0x30 (sdParts p sid csr sig)).wr.length ++ ([0x30] ++
        (lenBytes (Asn.wrs (sdParts p sid csr sig)).length ++
          (cmsHead p sid ++ ((encapOf csr).wr ++ (cmsTail p sid sig).wr))))))) := by
  have hs : Asn.wrs (sdParts p sid csr sig) =
      cmsHead p sid ++ ((encapOf csr).wr ++ (cmsTail p sid sig).wr) := by
    simp [sdParts, wrs_cons, wrs_nil, cmsHead, cmsTail]
  rw [← hs, cmsOf, outer_wr]
  rw [wrs_cons, wrs_single, outer_wr 0xA0, wrs_single, outer_wr 0x30 (sdParts p sid csr sig), cmsMid]
  simp

/-- Outcomes of encoding a CMS message. -/
inductive CmsRun (cb : SignCb σ) (p : Profile) (sid : SignerId) (t : Asn) (parts : List Asn)
    (w : Writer) (x : σ) : Except Err Nat × (Writer × σ) → Prop
  /-- Failure before anything is signed. -/
  | early {e : Err} {w' : Writer} : Tight (sizeWidth (Asn.wrs parts).length ≠ 3) w
        (cmsPre p sid + encapPre + 4 + t.wr.length) e →
      CmsRun cb p sid t parts w x (.error e, (w', x))
  /-- The signature of the request failed. -/
  | crypto {e : CryptoErr} {w' : Writer} {x' : σ} : cb t.wr true x = (.error e, x') →
      sizeWidth (Asn.wrs parts).length = 3 →
      CmsRun cb p sid t parts w x (.error (.crypto e), (w', x'))
  /-- Failure between the signatures. -/
  | mid {e : Err} {w' : Writer} {x' : σ} {sig : Sig} : cb t.wr true x = (.ok sig, x') →
      Tight (¬ ∀ n ∈ (Asn.wrs (signedParts p t sig)).length :: encapLens (signedOf p t sig),
        sizeWidth n = 3) w (cmsPre p sid + encapPre + (signedOf p t sig).wr.length) e →
      sizeWidth (Asn.wrs parts).length = 3 →
      CmsRun cb p sid t parts w x (.error e, (w', x'))
  /-- The signature of the message failed. -/
  | crypto2 {e : CryptoErr} {w' : Writer} {x' x'' : σ} {sig : Sig} :
      cb t.wr true x = (.ok sig, x') → cb (signedOf p t sig).wr false x' = (.error e, x'') →
      sizeWidth (Asn.wrs parts).length = 3 →
      (∀ n ∈ (Asn.wrs (signedParts p t sig)).length :: encapLens (signedOf p t sig),
        sizeWidth n = 3) →
      CmsRun cb p sid t parts w x (.error (.crypto e), (w', x''))
  /-- Failure after the signatures. -/
  | late {e : Err} {w' : Writer} {x' x'' : σ} {sig sig' : Sig} : cb t.wr true x = (.ok sig, x') →
      cb (signedOf p t sig).wr false x' = (.ok sig', x'') →
      Tight (¬ ∀ n ∈ cmsLens p sid (signedOf p t sig) sig', sizeWidth n = 3) w
        (cmsOf p sid (signedOf p t sig) sig').wr.length e →
      sizeWidth (Asn.wrs parts).length = 3 →
      (∀ n ∈ (Asn.wrs (signedParts p t sig)).length :: encapLens (signedOf p t sig),
        sizeWidth n = 3) →
      CmsRun cb p sid t parts w x (.error e, (w', x''))
  /-- Success. -/
  | done {w' : Writer} {x' x'' : σ} {sig sig' : Sig} : cb t.wr true x = (.ok sig, x') →
      cb (signedOf p t sig).wr false x' = (.ok sig', x'') →
      Holds w w' (cmsOf p sid (signedOf p t sig) sig').wr →
      w.offset + (cmsOf p sid (signedOf p t sig) sig').wr.length ≤ w.buf.length →
      sizeWidth (Asn.wrs parts).length = 3 →
      (∀ n ∈ (Asn.wrs (signedParts p t sig)).length :: encapLens (signedOf p t sig),
        sizeWidth n = 3) →
      (∀ n ∈ cmsLens p sid (signedOf p t sig) sig', sizeWidth n = 3) →
      CmsRun cb p sid t parts w x
        (.ok (cmsOf p sid (signedOf p t sig) sig').wr.length, (w', x''))

theorem encCms_eq (cb : SignCb σ) (p : Profile) (crit : Bool) (d : CertData cfg) (sid : SignerId) :
    encCms cb p crit d sid = (do
      let r ← open3 (encByte tagSequence) (Enc.all [encOid oidSignedData,
        encByte (tagContext ||| tagConstructed ||| 0x0)]) (encByte tagSequence)
      let a ← W.enc (Enc.all [encInt (cmsVersion sid) true, encByte tagSetOf,
        encSize (hashAlgSize p true), encHashAlg p])
      let b ← encEncap cb p crit d
      let q ← W.csrRange
      let sig ← W.sign cb q.1 q.2 false
      let c ← W.enc (Enc.all [encByte tagSetOf, encSize (signerInfoSize p sig sid true),
        encSignerInfo p sig sid])
      W.checkFits
      backfillCms (a + b + c) (r.2.2.1 + sizeTagOffset + (a + b + c))
        (r.2.1 + sizeTagOffset + (r.2.2.1 + sizeTagOffset + (a + b + c)))
      W.checkPopped
      W.checkFits
      pure (r.1 + sizeTagOffset + (r.2.1 + sizeTagOffset +
        (r.2.2.1 + sizeTagOffset + (a + b + c))))) := by
  simp only [encCms, open3, W.assoc, W.pure_bind']

theorem checkFits_bad {w : Writer} {x : σ} (h : w.buf.length < w.offset) :
    (W.checkFits : W σ Unit) (w, x) = (.error (.internal .certSizeOverflow), (w, x)) := by
  simp only [W.checkFits, if_pos h]

theorem checkFits_ok {w : Writer} {x : σ} (h : w.offset ≤ w.buf.length) :
    (W.checkFits : W σ Unit) (w, x) = (.ok (), (w, x)) := by
  simp only [W.checkFits, if_neg (Nat.not_lt.2 h)]

theorem encCms_run {cb : SignCb σ} {p : Profile} {crit : Bool} {d : CertData cfg}
    {cs : List (Context cfg)} {cn sn : Bytes} {sid : SignerId} (hc : ChainOf d.meas cs)
    (hk : keyFits p d.pubKey) (hi : ∀ i, sid ≠ .issuerAndSerial i [])
    (hn : d.subject = ⟨.printable cn, .printable sn⟩) (w : Writer) (x : σ) (hsv : w.saved = none)
    (hb : w.backtracks = []) :
    CmsRun cb p sid (payload p crit d cs cn sn true) (payloadParts p crit d cs cn sn true) w x
      (encCms cb p crit d sid (w, x)) := by
  rw [encCms_eq]
  obtain ⟨w1, G1, G2, G3, e1, k1, g1, g2, g3, o1, s1, c1, t1⟩ := open3_ok (e1 := encByte tagSequence)
    (e3 := encByte tagSequence) (emits_byte _) cmsMid_emits (emits_byte _) w x (by simp [hb])
  rw [W.bind_ok e1]
  obtain ⟨w2, e2, s2⟩ := enc_run (cmsHead_emits p sid) w1 x
  rw [W.bind_ok e2]
  have ho : w2.offset = w.offset + cmsPre p sid := by
    rw [s2.offset, o1]; simp only [cmsPre, List.length_singleton]; omega
  have hl2 : w2.buf.length = w.buf.length := by rw [s2.length, k1.length]
  have ht2 : w2.backtracks = gaps3 w.offset 1 cmsMid.length 1 ++ [] := by
    rw [s2.backtracks, t1, hb]; rfl
  have h := encEncap_run (cb := cb) (crit := crit) hc hk hn w2 x (by rw [s2.saved, s1, hsv])
    (by rw [ht2]; simp [gaps3])
  generalize hr : encEncap cb p crit d (w2, x) = r at h
  generalize payload p crit d cs cn sn true = t at h ⊢
  generalize payloadParts p crit d cs cn sn true = parts at h ⊢
  cases h with
  | early h =>
    rw [W.bind_err hr]
    refine .early ?_
    rcases h with ⟨h1, h2⟩ | h
    · refine .inl ⟨h1, h2.imp (fun h => ?_) id⟩
      rw [hl2, ho] at h; omega
    · exact .inr h
  | crypto h h' => rw [W.bind_err hr]; exact .crypto h h'
  | late h1 h2 hw0 =>
    rw [W.bind_err hr]
    refine .mid h1 ?_ hw0
    rcases h2 with ⟨h2, h3⟩ | h2
    · refine .inl ⟨h2, h3.imp (fun h => ?_) id⟩
      rw [hl2, ho] at h; omega
    · exact .inr h2
  | @done w3 x' sig h1 h2 h3 h4 h5 h6 h7 h8 h9 =>
    rw [W.bind_ok hr]
    generalize hT : signedOf p t sig = T at h2 h3 h6 h7
    have e4 : (W.csrRange : W σ _) (w3, x') = (.ok (w2.offset + encapPre,
        w2.offset + encapPre + T.wr.length), (w3, x')) := by simp only [W.csrRange, h6]
    rw [W.bind_ok e4]
    have hwd : sizeWidth (Asn.wrs [idData, .outer 0xA0 [.outer 0x04 [T]]]).length = 3 ∧
        sizeWidth (Asn.outer 0x04 [T]).wr.length = 3 ∧ sizeWidth T.wr.length = 3 := by
      rw [hT] at h9
      exact ⟨h9 _ (by simp [encapLens]), h9 _ (by simp [encapLens]), h9 _ (by simp [encapLens])⟩
    have hdata : (w3.buf.drop (w2.offset + encapPre)).take
        (w2.offset + encapPre + T.wr.length - (w2.offset + encapPre)) = T.wr := by
      rw [show w2.offset + encapPre + T.wr.length - (w2.offset + encapPre) = T.wr.length by omega]
      rw [encapOf_wr] at h2 h7
      have hh : Holds w2 w3 (([0x30] ++ (lenBytes (Asn.wrs [idData, .outer 0xA0 [.outer 0x04 [T]]]).length ++
          (encapMid ++ (lenBytes (Asn.outer 0x04 [T]).wr.length ++ ([0x04] ++
            lenBytes T.wr.length))))) ++ (T.wr ++ [])) := by
        simpa only [List.append_assoc, List.append_nil] using h2
      refine hh.read (by simpa only [List.append_assoc, List.append_nil] using h7) ?_
      simp only [List.length_append, lenBytes_length, hwd.1, hwd.2.1, hwd.2.2, encapPre,
        List.length_singleton]
      omega
    cases hcb : cb T.wr false x' with
    | mk r x'' =>
    cases r with
    | error ce =>
      have e5 : (W.sign cb (w2.offset + encapPre) (w2.offset + encapPre + T.wr.length) false) (w3, x') =
          (.error (.crypto ce), (w3, x'')) := by
        simp only [W.sign, hdata, hcb]
      rw [W.bind_err e5]
      exact .crypto2 h1 (hT ▸ hcb) h8 h9
    | ok sig' =>
      have e5 : (W.sign cb (w2.offset + encapPre) (w2.offset + encapPre + T.wr.length) false) (w3, x') =
          (.ok sig', (w3, x'')) := by
        simp only [W.sign, hdata, hcb]
      rw [W.bind_ok e5]
      obtain ⟨w4, e6, s4⟩ := enc_run (cmsTail_emits p sid sig' hi) w3 x''
      rw [W.bind_ok e6]
      have hsd : (cmsHead p sid).length + (encapOf T).wr.length + (cmsTail p sid sig').wr.length =
          (Asn.wrs (sdParts p sid T sig')).length := by
        simp [sdParts, wrs_cons, wrs_nil, cmsHead, cmsTail]; omega
      have hC : Holds w w4 ([0x30] ++ (G1 ++ (cmsMid ++ (G2 ++ ([0x30] ++ (G3 ++
          (cmsHead p sid ++ ((encapOf T).wr ++ (cmsTail p sid sig').wr)))))))) := by
        have a1 := k1.trans (by
          rw [o1]; simp only [List.length_append, g1, g2, g3]; omega) s2.holds
        have a2 := a1.trans (by
          rw [s2.offset, o1]; simp only [List.length_append, g1, g2, g3]; omega) h2
        have a3 := a2.trans (by
          rw [h3, s2.offset, o1]; simp only [List.length_append, g1, g2, g3]; omega) s4.holds
        simp only [List.append_assoc] at a3
        exact a3
      have o4 : w4.offset = w.offset + (1 + 3 + cmsMid.length + 3 + 1 + 3) +
          (Asn.wrs (sdParts p sid T sig')).length := by
        rw [s4.offset, h3, ho, ← hsd]; simp only [cmsPre]; omega
      have hs4 : w4.saved = none := by rw [s4.saved, h4]
      have ht4 : w4.backtracks = gaps3 w.offset 1 cmsMid.length 1 ++ [] := by
        rw [s4.backtracks, h5, ht2]
      have hl4 : w4.buf.length = w.buf.length := hC.length
      -- lengths
      generalize hn3 : (Asn.wrs (sdParts p sid T sig')).length = n3 at *
      have hn2 : (Asn.outer 0x30 (sdParts p sid T sig')).wr.length = 1 + sizeWidth n3 + n3 := by
        rw [outer_length, hn3, tl]
      have hn1 : (Asn.wrs [idSignedData, .outer 0xA0 [.outer 0x30 (sdParts p sid T sig')]]).length =
          cmsMid.length + sizeWidth (1 + sizeWidth n3 + n3) + (1 + sizeWidth n3 + n3) := by
        rw [wrs_cons, wrs_single, List.length_append, outer_length 0xA0, wrs_single, hn2, cmsMid,
          List.length_append, tl]
        simp only [List.length_singleton]; omega
      have hn0 : (cmsOf p sid T sig').wr.length = 1 + sizeWidth (cmsMid.length +
          sizeWidth (1 + sizeWidth n3 + n3) + (1 + sizeWidth n3 + n3)) + (cmsMid.length +
          sizeWidth (1 + sizeWidth n3 + n3) + (1 + sizeWidth n3 + n3)) := by
        rw [cmsOf, outer_length, hn1, tl]
      have hlens : ∀ n, n ∈ cmsLens p sid T sig' ↔ n = cmsMid.length +
          sizeWidth (1 + sizeWidth n3 + n3) + (1 + sizeWidth n3 + n3) ∨
          n = 1 + sizeWidth n3 + n3 ∨ n = n3 := by
        intro n
        simp only [cmsLens, hn1, hn2, hn3, List.mem_cons, List.not_mem_nil, or_false]
      by_cases hf : w4.buf.length < w4.offset
      · rw [W.bind_err (checkFits_bad hf)]
        subst hT
        refine .late h1 hcb (.inl ⟨rfl, ?_⟩) h8 h9
        by_cases hbad : ∀ n ∈ cmsLens p sid (signedOf p t sig) sig', sizeWidth n = 3
        · left
          have b3 := hbad n3 ((hlens _).2 (.inr (.inr rfl)))
          have b2 := hbad _ ((hlens _).2 (.inr (.inl rfl)))
          have b1 := hbad _ ((hlens _).2 (.inl rfl))
          rw [hn0, b1, b2, b3]
          rw [o4, hl4] at hf
          omega
        · exact .inr hbad
      · rw [W.bind_ok (checkFits_ok (Nat.not_lt.1 hf))]
        rw [hsd]
        have hone : ([tagSequence] : Bytes).length = 1 := rfl
        have h3' : sizeTagOffset = 3 := rfl
        simp only [hone, h3']
        by_cases hw3 : sizeWidth (cmsMid.length + 3 + (1 + 3 + n3)) = 3 ∧ sizeWidth (1 + 3 + n3) = 3 ∧
            sizeWidth n3 = 3
        · obtain ⟨v1, v2, v3⟩ := hw3
          obtain ⟨w5, e7, k7, o7, s7, c7, t7⟩ := close3_ok (x := x'') hC g1 g2 g3 hs4 ht4 v1 v2 v3
          rw [W.bind_ok e7]
          have e8 : (W.checkPopped : W σ Unit) (w5, x'') = (.ok (), (w5, x'')) := by
            simp [W.checkPopped, t7]
          rw [W.bind_ok e8]
          have l5 : w5.buf.length = w.buf.length := k7.length
          have f5 : w5.offset ≤ w5.buf.length := by rw [o7, l5, ← hl4]; omega
          rw [W.bind_ok (checkFits_ok f5), W.pure_def]
          have hq : (cmsOf p sid T sig').wr.length = 1 + 3 + (cmsMid.length + 3 + (1 + 3 + n3)) := by
            rw [hn0, v3, v2, v1]
          have hlw : ∀ n ∈ cmsLens p sid T sig', sizeWidth n = 3 := by
            intro n hn
            rw [hlens, v3, v2] at hn
            rcases hn with rfl | rfl | rfl
            · exact v1
            · exact v2
            · exact v3
          rw [← hq]
          have hwr : Holds w w5 (cmsOf p sid T sig').wr := by
            rw [cmsOf_wr, hn1, hn2, hn3, v3, v2]
            exact k7
          subst hT
          refine .done h1 hcb hwr ?_ h8 h9 hlw
          rw [hq]
          rw [o7, o4, l5] at f5
          omega
        · obtain ⟨w5, e7⟩ := close3_bad (x := x'') hC g1 g2 g3 hs4 ht4 hw3
          rw [W.bind_err e7]
          subst hT
          refine .late h1 hcb (.inr ⟨rfl, fun hbad => hw3 ?_⟩) h8 h9
          have b3 := hbad n3 ((hlens _).2 (.inr (.inr rfl)))
          have b2 := hbad _ ((hlens _).2 (.inr (.inl rfl)))
          have b1 := hbad _ ((hlens _).2 (.inl rfl))
          rw [b2, b3] at b1
          rw [b3] at b2
          exact ⟨b1, b2, b3⟩

end Dpe
