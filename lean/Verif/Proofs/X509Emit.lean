import Verif.Proofs.X509Fields
/-
The encoders of the certificate writer that can fail: what they emit, and when they fail.
-/
namespace Dpe
variable {cfg : Cfg} {σ α β : Type}

/-! ### The monad of the writer -/

theorem W.bind_def (x : W σ α) (f : α → W σ β) (s : Writer × σ) : (x >>= f) s =
    match x s with
    | (.ok a, s') => f a s'
    | (.error e, s') => (.error e, s') := rfl

theorem W.pure_def (a : α) (s : Writer × σ) : (pure a : W σ α) s = (.ok a, s) := rfl

theorem W.bind_ok {x : W σ α} {f : α → W σ β} {s s' : Writer × σ} {a : α}
    (h : x s = (.ok a, s')) : (x >>= f) s = f a s' := by rw [W.bind_def, h]

theorem W.bind_err {x : W σ α} {f : α → W σ β} {s s' : Writer × σ} {e : Err}
    (h : x s = (.error e, s')) : (x >>= f) s = (.error e, s') := by rw [W.bind_def, h]

theorem W.assoc {γ : Type} (x : W σ α) (f : α → W σ β) (g : β → W σ γ) :
    (x >>= f) >>= g = x >>= fun a => f a >>= g := by
  funext s
  rw [W.bind_def, W.bind_def, W.bind_def]
  rcases x s with ⟨r, s'⟩
  cases r <;> rfl

theorem W.pure_bind' (a : α) (f : α → W σ β) : (pure a : W σ α) >>= f = f a := rfl

theorem W.lift_ok (a : α) (f : α → W σ β) : (W.lift (.ok a) : W σ α) >>= f = f a := rfl

/-! ### Buffers -/

/-- The buffer of `w` is that of `w0` with `bs` written at the offset of `w0`, if that fits. -/
structure Holds (w0 w : Writer) (bs : Bytes) : Prop where
  length : w.buf.length = w0.buf.length
  fits : w0.offset + bs.length ≤ w0.buf.length →
    w.buf = w0.buf.take w0.offset ++ (bs ++ w0.buf.drop (w0.offset + bs.length))

theorem Step.holds {w w' : Writer} {bs : Bytes} (h : Step w w' bs) : Holds w w' bs :=
  ⟨h.length, h.fits⟩

theorem Holds.trans {w w1 w2 : Writer} {a b : Bytes} (h1 : Holds w w1 a)
    (ho : w1.offset = w.offset + a.length) (h2 : Holds w1 w2 b) : Holds w w2 (a ++ b) := by
  have s1 : Step w { w with buf := w1.buf, offset := w1.offset } a :=
    ⟨ho, rfl, rfl, rfl, h1.length, h1.fits⟩
  have s2 : Step { w with buf := w1.buf, offset := w1.offset }
      { w with buf := w2.buf, offset := w1.offset + b.length } b :=
    ⟨rfl, rfl, rfl, rfl, h2.length, h2.fits⟩
  exact ⟨(s1.trans s2).length, (s1.trans s2).fits⟩

/-- After `push_backtrack(3)`. -/
def Writer.pushed (w : Writer) : Writer :=
  { w with backtracks := (w.offset, w.offset + 3) :: w.backtracks, offset := w.offset + 3 }

/-- What happens to be in the three bytes that are skipped. -/
def Writer.gap (w : Writer) : Bytes :=
  if w.offset + 3 ≤ w.buf.length then (w.buf.drop w.offset).take 3 else [0, 0, 0]

theorem gap_length (w : Writer) : w.gap.length = 3 := by
  unfold Writer.gap
  split
  · simp; omega
  · rfl

theorem pushed_holds (w : Writer) : Holds w w.pushed w.gap where
  length := rfl
  fits := by
    rw [gap_length]
    intro h
    show w.buf = _
    rw [Writer.gap, if_pos h]
    have h1 : w.buf.drop w.offset =
        (w.buf.drop w.offset).take 3 ++ w.buf.drop (w.offset + 3) := by
      rw [← List.drop_drop, List.take_append_drop]
    rw [← h1, List.take_append_drop]

theorem push_ok {w : Writer} {x : σ} (h : w.backtracks.length < 10) :
    W.push sizeTagOffset (w, x) = (.ok (w.offset + 3), (w.pushed, x)) := by
  simp only [W.push, if_pos h]; rfl

theorem splice (A G C L : Bytes) :
    (A ++ (G ++ C)).take A.length ++ (L ++ (A ++ (G ++ C)).drop (A.length + G.length)) =
      A ++ (L ++ C) := by
  have h : (A ++ (G ++ C)).drop (A.length + G.length) = C := by
    rw [← List.append_assoc, ← List.length_append, List.drop_left]
  rw [List.take_left, h]

/-- Overwriting a gap. -/
theorem Holds.fill {w0 w w' : Writer} {A G C L : Bytes} (h : Holds w0 w (A ++ (G ++ C)))
    (ho : w.offset = w0.offset + A.length) (hl : L.length = G.length)
    (hs : Holds w w' L) : Holds w0 w' (A ++ (L ++ C)) where
  length := by rw [hs.length, h.length]
  fits := by
    simp only [List.length_append]
    intro hf
    have hb := h.fits (by simp only [List.length_append]; omega)
    have hb' := hs.fits (by rw [h.length, ho]; omega)
    have hA : (w0.buf.take w0.offset).length = w0.offset := by rw [List.length_take]; omega
    have := splice (w0.buf.take w0.offset ++ A) G
      (C ++ w0.buf.drop (w0.offset + (A ++ (G ++ C)).length)) L
    rw [List.length_append, hA, ← ho] at this
    rw [hb', hl]
    have e : w.buf = (w0.buf.take w0.offset ++ A) ++ (G ++ (C ++
        w0.buf.drop (w0.offset + (A ++ (G ++ C)).length))) := by
      rw [hb]; simp
    rw [e, this]
    simp

/-- `pop_backtrack(width)` followed by writing the size field. -/
theorem fill_ok {w : Writer} {x : σ} {o a n : Nat} {rest : List (Nat × Nat)}
    (hs : w.saved = some o) (hb : w.backtracks = (a, a + 3) :: rest) (hw : sizeWidth n = 3) :
    ∃ w1 w', W.pop (sizeWidth n) (w, x) = (.ok (), (w1, x)) ∧
      W.enc (encSize n) (w1, x) = (.ok 3, (w', x)) ∧
      w1.offset = a ∧ w1.buf = w.buf ∧ Holds w1 w' (lenBytes n) ∧ w'.offset = a + 3 ∧
      w'.saved = some o ∧ w'.backtracks = rest ∧ w'.csrRange = w.csrRange := by
  obtain ⟨h1, h2⟩ := emits_size n { w with backtracks := rest, offset := a }
  refine ⟨{ w with backtracks := rest, offset := a }, _, ?_, ?_, rfl, rfl, h2.holds, ?_, ?_, ?_, ?_⟩
  · simp only [W.pop, hs, hb, hw]
    simp
  · simp only [W.enc]
    rw [h1, lenBytes_length, hw]
  · rw [h2.offset, lenBytes_length, hw]
  · rw [h2.saved]; exact hs
  · rw [h2.backtracks]
  · rw [h2.csrRange]

/-- `pop_backtrack` with the wrong width. -/
theorem pop_bad {w : Writer} {x : σ} {o a n : Nat} {rest : List (Nat × Nat)}
    (hs : w.saved = some o) (hb : w.backtracks = (a, a + 3) :: rest) (hw : sizeWidth n ≠ 3) :
    ∃ w', W.pop (sizeWidth n) (w, x) = (.error .x509InvalidWidth, (w', x)) := by
  refine ⟨{ w with backtracks := rest }, ?_⟩
  simp only [W.pop, hs, hb]
  rw [if_neg (by simp), if_pos]
  simp
  omega

/-! ### Runs -/

/-- How an encoder fails: the output does not fit, or (`bad`) a length does not take three octets. -/
def Fail (bad : Prop) (w : Writer) (bs : Bytes) (e : Err) : Prop :=
  (e = .internal .certSizeOverflow ∧ (w.buf.length < w.offset + bs.length ∨ bad)) ∨
  (e = .x509InvalidWidth ∧ bad)

theorem Fail.imp {b b' : Prop} {w : Writer} {bs : Bytes} {e : Err} (h : Fail b w bs e)
    (hb : b → b') : Fail b' w bs e := by
  rcases h with ⟨h1, h2⟩ | ⟨h1, h2⟩
  · exact .inl ⟨h1, h2.imp id hb⟩
  · exact .inr ⟨h1, hb h2⟩

/-- With room for `d` backtracks, the encoder emits `bs` and returns `v` without touching the
world behind the signing callback, or fails. -/
def Goes (d : Nat) (bad : Prop) (m : W σ α) (bs : Bytes) (v : α) : Prop :=
  ∀ w x, w.saved = none → w.backtracks.length + d ≤ 10 →
    (∃ w', m (w, x) = (.ok v, (w', x)) ∧ Step w w' bs ∧ ¬ bad) ∨
    (∃ e w', m (w, x) = (.error e, (w', x)) ∧ Fail bad w bs e)

theorem Goes.mono {d d' : Nat} {bad : Prop} {m : W σ α} {bs : Bytes} {v : α} (h : Goes d bad m bs v)
    (hd : d ≤ d') : Goes d' bad m bs v := fun w x hs hb => h w x hs (by omega)

theorem Goes.cast {d : Nat} {bad : Prop} {m : W σ α} {a b : Bytes} {v u : α}
    (h : Goes d bad m a v) (hab : a = b) (hv : v = u) : Goes d bad m b u := hab ▸ hv ▸ h

theorem Fail.left {bad : Prop} {w : Writer} {a b : Bytes} {e : Err} (h : Fail bad w a e) :
    Fail bad w (a ++ b) e := by
  rcases h with ⟨h1, h2⟩ | h
  · exact .inl ⟨h1, h2.imp (by rw [List.length_append]; omega) id⟩
  · exact .inr h

theorem Fail.right {bad : Prop} {w w1 : Writer} {a b : Bytes} {e : Err} (hs : Step w w1 a)
    (h : Fail bad w1 b e) : Fail bad w (a ++ b) e := by
  rcases h with ⟨h1, h2⟩ | h
  · refine .inl ⟨h1, ?_⟩
    rw [hs.length, hs.offset] at h2
    rw [List.length_append]
    exact h2.imp (by omega) id
  · exact .inr h

theorem goes_pure (v : α) : Goes 0 False (pure v : W σ α) [] v :=
  fun w _ _ _ => .inl ⟨w, rfl, Step.nil w, id⟩

theorem goes_enc {e : Enc} {bs : Bytes} (h : Emits e bs) :
    Goes 0 False (W.enc e : W σ Nat) bs bs.length := fun w x _ _ => by
  obtain ⟨h1, h2⟩ := h w
  exact .inl ⟨(e w).2, by simp only [W.enc, h1], h2, id⟩

theorem goes_bind {d : Nat} {b1 b2 : Prop} {m : W σ α} {f : α → W σ β} {a b : Bytes} {v : α} {u : β}
    (h1 : Goes d b1 m a v) (h2 : Goes d b2 (f v) b u) :
    Goes d (b1 ∨ b2) (m >>= f) (a ++ b) u := by
  intro w x hs hb
  rcases h1 w x hs hb with ⟨w1, e1, s1, n1⟩ | ⟨e, w1, e1, f1⟩
  · rw [W.bind_ok e1]
    rcases h2 w1 x (by rw [s1.saved, hs]) (by rw [s1.backtracks]; exact hb) with
      ⟨w2, e2, s2, n2⟩ | ⟨e, w2, e2, f2⟩
    · exact .inl ⟨w2, e2, s1.trans s2, fun h => h.elim n1 n2⟩
    · exact .inr ⟨e, w2, e2, (Fail.right s1 f2).imp .inr⟩
  · exact .inr ⟨e, w1, W.bind_err e1, (f1.left (b := b)).imp .inl⟩

/-- First encoders that never fail over a length. -/
theorem goes_seq {d : Nat} {bad : Prop} {m : W σ α} {f : α → W σ β} {a b : Bytes} {v : α} {u : β}
    (h1 : Goes 0 False m a v) (h2 : Goes d bad (f v) b u) : Goes d bad (m >>= f) (a ++ b) u := by
  have h := goes_bind (h1.mono (Nat.zero_le d)) h2
  intro w x hs hb
  rcases h w x hs hb with ⟨w', e, s, n⟩ | ⟨e, w', e1, f⟩
  · exact .inl ⟨w', e, s, fun hb => n (.inr hb)⟩
  · exact .inr ⟨e, w', e1, f.imp (fun h => h.elim False.elim id)⟩

theorem goes_lift {d : Nat} {bad : Prop} {r : Except Err α} {f : α → W σ β} {b : Bytes} {v : α}
    {u : β} (hr : r = .ok v) (h2 : Goes d bad (f v) b u) :
    Goes d bad (W.lift r >>= f) b u := by
  subst hr; exact h2

theorem goes_checkFits : Goes 0 False (W.checkFits : W σ Unit) [] () := by
  intro w x _ _
  by_cases h : w.offset > w.buf.length
  · exact .inr ⟨.internal .certSizeOverflow, w, by simp only [W.checkFits, if_pos h],
      .inl ⟨rfl, .inl (by simp; omega)⟩⟩
  · exact .inl ⟨w, by simp only [W.checkFits, if_neg h], Step.nil w, id⟩

/-- A tag, a gap for the length, contents, and the length filled in afterwards. -/
def sized (tag : UInt8) (m : W σ Nat) : W σ (Nat × Nat × Nat) := do
  let pre ← W.enc (encByte tag)
  let _ ← W.push sizeTagOffset
  let n ← m
  let k ← backfill n
  pure (pre, k, n)

theorem backfill_ok {w1 w3 : Writer} {x : σ} {body : Bytes} (hs : w1.saved = none)
    (h : Step w1.pushed w3 body) (hw : sizeWidth body.length = 3) :
    ∃ w4, backfill body.length (w3, x) = (.ok 3, (w4, x)) ∧
      Step w1 w4 (lenBytes body.length ++ body) := by
  have hs3 : w3.saved = none := by rw [h.saved]; exact hs
  have hb3 : w3.backtracks = (w1.offset, w1.offset + 3) :: w1.backtracks := by
    rw [h.backtracks]; rfl
  obtain ⟨w5, w6, e1, e2, o5, b5, h56, o6, s6, bt6, c6⟩ :=
    fill_ok (w := { w3 with saved := some w3.offset }) (x := x) (n := body.length) rfl hb3 hw
  have hl3 : (lenBytes body.length).length = 3 := by rw [lenBytes_length, hw]
  have h13 : Holds w1 w3 (w1.gap ++ body) :=
    (pushed_holds w1).trans (by rw [gap_length]; rfl) h.holds
  have h15 : Holds w1 w5 ([] ++ (w1.gap ++ body)) := by
    refine ⟨by rw [b5]; exact h13.length, fun hf => ?_⟩
    rw [b5]
    exact h13.fits hf
  have h16 := h15.fill (by rw [o5]; rfl) (by rw [hl3, gap_length]) h56
  refine ⟨{ w6 with offset := w3.offset, saved := none }, ?_, ?_⟩
  · unfold backfill
    rw [W.bind_ok (a := ()) (s' := ({ w3 with saved := some w3.offset }, x))
      (by simp only [W.start, hs3]; rfl)]
    rw [W.bind_ok e1, W.bind_ok e2]
    rw [W.bind_ok (a := ()) (s' := ({ w6 with offset := w3.offset, saved := none }, x))
      (by simp only [W.finish, s6])]
    rfl
  · refine ⟨?_, bt6, hs.symm, ?_, h16.length, ?_⟩
    · show w3.offset = _
      rw [h.offset, List.length_append, hl3]
      show w1.offset + 3 + body.length = _
      omega
    · show w6.csrRange = _
      rw [c6]
      exact h.csrRange
    · exact h16.fits

theorem backfill_bad {w1 w3 : Writer} {x : σ} {body : Bytes} (hs : w1.saved = none)
    (h : Step w1.pushed w3 body) (hw : sizeWidth body.length ≠ 3) :
    ∃ w4, backfill body.length (w3, x) = (.error .x509InvalidWidth, (w4, x)) := by
  have hs3 : w3.saved = none := by rw [h.saved]; exact hs
  have hb3 : w3.backtracks = (w1.offset, w1.offset + 3) :: w1.backtracks := by
    rw [h.backtracks]; rfl
  obtain ⟨w4, e4⟩ :=
    pop_bad (w := { w3 with saved := some w3.offset }) (x := x) (n := body.length) rfl hb3 hw
  refine ⟨w4, ?_⟩
  unfold backfill
  rw [W.bind_ok (a := ()) (s' := ({ w3 with saved := some w3.offset }, x))
    (by simp only [W.start, hs3]; rfl)]
  exact W.bind_err e4

theorem goes_sized {d : Nat} {bad : Prop} {tag : UInt8} {m : W σ Nat} {body : Bytes}
    (h : Goes d bad m body body.length) :
    Goes (d + 1) (bad ∨ sizeWidth body.length ≠ 3) (sized tag m)
      (tag :: (lenBytes body.length ++ body)) (1, 3, body.length) := by
  intro w x hs hb
  obtain ⟨_, hst⟩ := emits_byte tag w
  have e0 : (W.enc (encByte tag) : W σ Nat) (w, x) = (.ok 1, ((encByte tag w).2, x)) := rfl
  generalize (encByte tag w).2 = w1 at hst e0
  have hs1 : w1.saved = none := by rw [hst.saved, hs]
  have hb1 : w1.backtracks = w.backtracks := hst.backtracks
  have hpush := push_ok (σ := σ) (w := w1) (x := x) (by rw [hb1]; omega)
  have hrun : sized tag m (w, x) = (do
      let n ← m
      let k ← backfill n
      pure (1, k, n) : W σ _) (w1.pushed, x) := by
    unfold sized
    rw [W.bind_ok e0, W.bind_ok hpush]
  rw [hrun]
  rcases h w1.pushed x hs1 (by show (w1.backtracks.length + 1) + d ≤ 10; rw [hb1]; omega) with
    ⟨w3, e3, s3, n3⟩ | ⟨e, w3, e3, f3⟩
  · rw [W.bind_ok e3]
    by_cases hw : sizeWidth body.length = 3
    · obtain ⟨w4, e4, s4⟩ := backfill_ok (x := x) hs1 s3 hw
      rw [W.bind_ok e4]
      exact .inl ⟨w4, rfl, hst.trans s4, fun hc => hc.elim n3 (fun h => h hw)⟩
    · obtain ⟨w4, e4⟩ := backfill_bad (x := x) hs1 s3 hw
      rw [W.bind_err e4]
      exact .inr ⟨_, w4, rfl, .inr ⟨rfl, .inr hw⟩⟩
  · rw [W.bind_err e3]
    refine .inr ⟨e, w3, rfl, ?_⟩
    rcases f3 with ⟨h1, h2⟩ | ⟨h1, h2⟩
    · refine .inl ⟨h1, ?_⟩
      have hl : w1.pushed.buf.length = w.buf.length := hst.length
      have ho : w1.pushed.offset = w.offset + 1 + 3 := by
        show w1.offset + 3 = _
        rw [hst.offset]; rfl
      rw [hl, ho] at h2
      by_cases hw : sizeWidth body.length = 3
      · refine h2.imp (fun h => ?_) .inl
        simp only [List.length_cons, List.length_append, lenBytes_length, hw]
        omega
      · exact .inr (.inr hw)
    · exact .inr ⟨h1, .inl h2⟩

/-! ### Extensions -/

/-- The measurement data describe the ancestry `cs`, root first. -/
structure ChainOf (md : MeasData cfg) (cs : List (Context cfg)) : Prop where
  ne : cs ≠ []
  it : ∃ it, ChainIter.new md.start md.contexts = .ok it ∧ it.pathLen = cs.length ∧
    it.backItems md.contexts (cfg.maxHandles + 2) = cs.map .ok

theorem ChainOf.first {md : MeasData cfg} {c : Context cfg} {cs : List (Context cfg)}
    (h : ChainOf md (c :: cs)) : md.firstNode = .ok c.tci := by
  obtain ⟨it, h1, _, h3⟩ := h.it
  unfold MeasData.firstNode
  simp only [h1]
  simp only [ChainIter.backItems] at h3
  generalize it.nextBack md.contexts = r at h3 ⊢
  obtain ⟨r, it'⟩ := r
  cases r with
  | none => simp at h3
  | some x =>
    simp only [List.map_cons, List.cons.injEq] at h3
    simp only [h3.1]

/-- The value of the MultiTcbInfo extension. -/
theorem multiTcb_fs (p : Profile) (a : Attested cfg) (t : Tci cfg) (ts : List (Tci cfg))
    (h : a.chain = t :: ts) : (multiTcbInfo p a).fs =
      tl ((t :: ts).length * tcbInfoSize p t a.recursive true) := by
  rw [multiTcbInfo, h, Asn.fs, List.map_cons, Asn.fsHead, tcbInfoSize_eq]
  simp

theorem tcbInfosSize_ok {p : Profile} {md : MeasData cfg} {c : Context cfg}
    {cs : List (Context cfg)} (h : ChainOf md (c :: cs)) :
    tcbInfosSize p md = .ok ((c :: cs).length * tcbInfoSize p c.tci md.recursive true) := by
  obtain ⟨it, h1, h2, _⟩ := h.it
  simp only [tcbInfosSize, h1, h.first, h2, Nat.mul_comm]
  rw [if_neg (by simp)]

theorem multiTcbSize_ok {p : Profile} {crit : Bool} {md : MeasData cfg}
    {cs : List (Context cfg)} (h : ChainOf md cs) :
    multiTcbSize p crit md true =
      .ok (extension idMultiTcbInfo crit
        (multiTcbInfo p (md.attested crit (cs.map (·.tci))))).fs := by
  cases cs with
  | nil => exact absurd rfl h.ne
  | cons c cs =>
    obtain ⟨it, h1, h2, _⟩ := h.it
    rw [idMultiTcbInfo_eq, ← extSize_eq, multiTcb_fs p _ c.tci (cs.map (·.tci)) rfl]
    simp only [multiTcbSize, h1, h.first, h2]
    rw [if_neg (by simp)]
    simp [structSize_true, MeasData.attested]

theorem extsSize_ok {p : Profile} {crit : Bool} {md : MeasData cfg} {cs : List (Context cfg)}
    (h : ChainOf md cs) (tag exp cert : Bool) : extsSize p crit md tag exp cert =
      .ok (structSize (structSize (Asn.fss (extension idMultiTcbInfo crit
        (multiTcbInfo p (md.attested crit (cs.map (·.tci)))) ::
          otherExtensions (md.attested crit (cs.map (·.tci))) cert)) exp) tag) := by
  have he : Asn.fss (extension idMultiTcbInfo crit
        (multiTcbInfo p (md.attested crit (cs.map (·.tci)))) ::
          otherExtensions (md.attested crit (cs.map (·.tci))) cert) =
      (extension idMultiTcbInfo crit (multiTcbInfo p (md.attested crit (cs.map (·.tci))))).fs +
      ueidSize crit md true + basicSize md true + keyUsageSize true +
      extKeyUsageSize md true + subjectKeyIdSize md true cert +
      authorityKeyIdSize md true cert + altNameSize md true := by
    rw [otherExtensions_eq, ueidSize_eq, basicSize_eq, keyUsageSize_eq md.isCa, extKeyUsageSize_eq,
      subjectKeyIdSize_eq, authorityKeyIdSize_eq, altNameSize_eq]
    simp only [fss_cons, Asn.fss_append]
    omega
  simp only [extsSize, multiTcbSize_ok h, he]

theorem goes_tcbLoop (p : Profile) (r : Bool) : ∀ cs : List (Context cfg),
    Goes 0 False (tcbLoop p r (cs.map .ok) : W σ Nat)
      (Asn.wrs ((cs.map (·.tci)).map (tcbInfo p r)))
      (Asn.wrs ((cs.map (·.tci)).map (tcbInfo p r))).length
  | [] => by simp only [List.map_nil, tcbLoop]; exact (goes_pure 0).cast (by rw [wrs_nil]) rfl
  | c :: cs => by
    simp only [List.map_cons, tcbLoop]
    refine goes_lift rfl ?_
    apply Goes.cast
    · apply goes_seq (goes_enc (emits_tcbInfo p c.tci r))
      apply goes_seq (goes_tcbLoop p r cs)
      exact goes_pure _
    · rw [wrs_cons, List.append_nil]
    · rw [wrs_cons, List.length_append]

theorem goes_multiTcb {p : Profile} {crit : Bool} {md : MeasData cfg} {cs : List (Context cfg)}
    (h : ChainOf md cs) : Goes 0 False (encMultiTcb p crit md : W σ Nat)
      (extension idMultiTcbInfo crit (multiTcbInfo p (md.attested crit (cs.map (·.tci))))).wr
      (extension idMultiTcbInfo crit
        (multiTcbInfo p (md.attested crit (cs.map (·.tci))))).wr.length := by
  cases cs with
  | nil => exact absurd rfl h.ne
  | cons c cs =>
    unfold encMultiTcb
    refine goes_lift (tcbInfosSize_ok h) ?_
    obtain ⟨it, h1, _, h3⟩ := h.it
    generalize hn : (c :: cs).length * tcbInfoSize p c.tci md.recursive true = n
    have hv : (multiTcbInfo p (md.attested crit ((c :: cs).map (·.tci)))).fs = tl n := by
      rw [← hn, multiTcb_fs p _ c.tci (cs.map (·.tci)) rfl]; simp [MeasData.attested]
    have hwr : (extension idMultiTcbInfo crit
        (multiTcbInfo p (md.attested crit ((c :: cs).map (·.tci))))).wr =
        extHead oidMultiTcb crit (tl n) ++ (0x30 :: (lenBytes n ++
          Asn.wrs (((c :: cs).map (·.tci)).map (tcbInfo p md.recursive)))) := by
      rw [idMultiTcbInfo_eq, extension_wr, hv, multiTcbInfo, Asn.wr]
      simp only [MeasData.attested, List.map_cons, Asn.fsHead]
      rw [← tcbInfoSize_eq]
      simp only [List.length_cons, List.length_map] at hn ⊢
      rw [hn]
    apply Goes.cast
    · apply goes_seq (goes_enc (emits_cons (emits_extHeader oidMultiTcb crit (structSize n true))
        (emits_cons (emits_byte _) (emits_cons (emits_size n) emits_nil))))
      apply goes_lift h1
      rw [h3]
      apply goes_seq (goes_tcbLoop p md.recursive (c :: cs))
      exact goes_pure _
    · rw [hwr, structSize_true]
      simp [tagSequence]
    · rw [hwr, structSize_true]
      simp [Nat.add_assoc, Nat.add_comm, Nat.add_left_comm]

/-- All extensions of the writer's measurement data. -/
def allExts (p : Profile) (crit : Bool) (md : MeasData cfg) (cs : List (Context cfg))
    (cert : Bool) : List Asn :=
  extension idMultiTcbInfo crit (multiTcbInfo p (md.attested crit (cs.map (·.tci)))) ::
    otherExtensions (md.attested crit (cs.map (·.tci))) cert

theorem extensions_eq (p : Profile) (crit : Bool) (md : MeasData cfg) (cs : List (Context cfg))
    (cert : Bool) : extensions p (md.attested crit (cs.map (·.tci))) cert =
      seqOf (allExts p crit md cs cert) := rfl

theorem seqOf_fs (ps : List Asn) : (seqOf ps).fs = tl (Asn.fss ps) := by
  rw [seqOf, fs_node]; simp

theorem seqOf_wr (ps : List Asn) :
    (seqOf ps).wr = 0x30 :: (lenBytes (Asn.fss ps) ++ Asn.wrs ps) := by
  rw [seqOf, wr_node]; simp

theorem setOf_fs (ps : List Asn) : (setOf ps).fs = tl (Asn.fss ps) := by
  rw [setOf, fs_node]; simp

theorem setOf_wr (ps : List Asn) :
    (setOf ps).wr = 0x31 :: (lenBytes (Asn.fss ps) ++ Asn.wrs ps) := by
  rw [setOf, wr_node]; simp

theorem tagged_fs (n : UInt8) (ps : List Asn) : (tagged n ps).fs = tl (Asn.fss ps) := by
  rw [tagged, fs_node]; simp

theorem tagged_wr (n : UInt8) (ps : List Asn) :
    (tagged n ps).wr = (0xA0 ||| n) :: (lenBytes (Asn.fss ps) ++ Asn.wrs ps) := by
  rw [tagged, wr_node]; simp

theorem outer_wr (n : UInt8) (ps : List Asn) :
    (Asn.outer n ps).wr = n :: (lenBytes (Asn.wrs ps).length ++ Asn.wrs ps) := by
  rw [Asn.wr]

/-- The extensions of a certificate come in an explicit `[3]`. -/
def extsTree (p : Profile) (crit : Bool) (md : MeasData cfg) (cs : List (Context cfg)) :
    Bool → Asn
  | true => tagged 3 [extensions p (md.attested crit (cs.map (·.tci))) true]
  | false => extensions p (md.attested crit (cs.map (·.tci))) false

theorem goes_exts {p : Profile} {crit : Bool} {md : MeasData cfg} {cs : List (Context cfg)}
    (h : ChainOf md cs) (cert : Bool) : Goes 0 False (encExts p crit md cert : W σ Nat)
      (extsTree p crit md cs cert).wr (extsTree p crit md cs cert).wr.length := by
  have hsize := extsSize_ok (p := p) (crit := crit) h
  have hm := goes_multiTcb (σ := σ) (p := p) (crit := crit) h
  have ho := emits_otherExtensions md crit (cs.map (·.tci)) cert
  have hwrapper : Goes 0 False (encExtsWrapper p crit md cert : W σ Nat)
      (if cert then [0xA3] ++ lenBytes (tl (Asn.fss (allExts p crit md cs cert))) else [])
      (if cert then 1 + (lenBytes (tl (Asn.fss (allExts p crit md cs cert)))).length else 0) := by
    unfold encExtsWrapper
    cases cert
    · exact goes_pure 0
    · simp only [if_true]
      apply Goes.cast
      · apply goes_seq (goes_enc (emits_byte _))
        apply goes_lift (hsize true false true)
        apply goes_seq (goes_enc (emits_size _))
        exact goes_pure _
      · simp [structSize_true, structSize_false, allExts]
        decide
      · simp [structSize_true, structSize_false, allExts]
  unfold encExts
  apply Goes.cast
  · apply goes_seq hwrapper
    apply goes_seq (goes_enc (emits_byte _))
    apply goes_lift (hsize false false cert)
    apply goes_seq (goes_enc (emits_size _))
    apply goes_seq hm
    apply goes_seq (goes_enc ho)
    exact goes_pure _
  · cases cert
    · simp only [extsTree, extensions_eq, seqOf_wr]
      simp [allExts, wrs_cons, fss_cons, structSize_false, tagSequence]
    · simp only [extsTree, extensions_eq, seqOf_wr, tagged_wr, wrs_cons, wrs_nil, fss_cons, fss_nil,
        seqOf_fs, if_true]
      simp [allExts, wrs_cons, fss_cons, structSize_false, tagSequence]
      decide
  · cases cert
    · simp only [extsTree, extensions_eq, seqOf_wr]
      simp [allExts, wrs_cons, fss_cons, structSize_false, tagSequence]
      omega
    · simp only [extsTree, extensions_eq, seqOf_wr, tagged_wr, wrs_cons, wrs_nil, fss_cons, fss_nil,
        seqOf_fs, if_true]
      simp [allExts, wrs_cons, fss_cons, structSize_false, tagSequence]
      omega

/-! ### To be signed -/

/-- The public key is of the kind of the profile. -/
def keyFits (p : Profile) (k : PubKey) : Prop := k.isMldsa = true ↔ p = .mldsa87

theorem goes_spki {p : Profile} {k : PubKey} (h : keyFits p k) :
    Goes 0 False (encSpki p k : W σ Nat) (keyInfo p k).wr (keyInfo p k).wr.length := by
  have h256 : keyAlgorithm .p256 = seqOf [oidOf oidEcPub, oidOf oidCurve256] := by
    rw [keyAlgorithm, idEcPublicKey_eq, idPrime256v1_eq]
  have h384 : keyAlgorithm .p384 = seqOf [oidOf oidEcPub, oidOf oidCurve384] := by
    rw [keyAlgorithm, idEcPublicKey_eq, idSecp384r1_eq]
  cases k with
  | p256 x y =>
    cases p with
    | p256 => exact goes_enc (emits_ecSpki rfl (by simp) h256)
    | p384 => exact goes_enc (emits_ecSpki rfl (by simp) h384)
    | mldsa87 => exact absurd (h.2 rfl) (by simp [PubKey.isMldsa])
  | p384 x y =>
    cases p with
    | p256 => exact goes_enc (emits_ecSpki rfl (by simp) h256)
    | p384 => exact goes_enc (emits_ecSpki rfl (by simp) h384)
    | mldsa87 => exact absurd (h.2 rfl) (by simp [PubKey.isMldsa])
  | mldsa k =>
    have hp := h.1 rfl
    subst hp
    exact goes_enc (emits_mldsaSpki k)

theorem goes_rdn (cn sn : Bytes) :
    Goes 0 False (encRdnChecked ⟨.printable cn, .printable sn⟩ : W σ Nat) (nameOf cn sn).wr
      (nameOf cn sn).wr.length := by
  unfold encRdnChecked
  apply Goes.cast
  · apply goes_seq (goes_enc (emits_rdn cn sn))
    apply goes_seq goes_checkFits
    exact goes_pure _
  · simp
  · rfl

/-- The writer's arguments as certificate contents. -/
def CertData.subjectOf (d : CertData cfg) (crit : Bool) (cs : List (Context cfg)) (cn sn : Bytes) :
    Subject cfg :=
  { cn := cn, serialName := sn, key := d.pubKey, attested := d.meas.attested crit (cs.map (·.tci)) }

/-- The parts between `push_backtrack` and the backfilling in `encode_tbs`. -/
def tbsBody (p : Profile) (crit : Bool) (d : CertData cfg) : W σ Nat := do
  let a ← W.enc (Enc.all [encVersion, encIntBytes d.serial true, encSigAlg p, encBytes d.issuer,
    encValidity d.validity])
  let b ← encRdnChecked d.subject
  let c ← encSpki p d.pubKey
  let e ← encExts p crit d.meas true
  pure (a + b + c + e)

theorem encTbs_eq (p : Profile) (crit : Bool) (d : CertData cfg) :
    (encTbs p crit d : W σ Nat) = (do
      let r ← sized tagSequence (tbsBody p crit d)
      W.checkFits
      pure (r.1 + r.2.1 + r.2.2)) := by
  simp only [encTbs, sized, tbsBody, W.assoc, W.pure_bind']

/-- The parts of the TBSCertificate. -/
def tbsParts (p : Profile) (serial issuer : Bytes) (v : Validity) (s : Subject cfg) : List Asn :=
  [tagged 0 [asnInt 2], asnInt (beValue serial), sigAlgorithm p, .raw issuer,
    validityOf v, nameOf s.cn s.serialName, keyInfo p s.key,
    tagged 3 [extensions p s.attested true]]

theorem tbsCertificate_eq (p : Profile) (serial issuer : Bytes) (v : Validity) (s : Subject cfg) :
    tbsCertificate p serial issuer v s = .outer 0x30 (tbsParts p serial issuer v s) := rfl

theorem goes_tbsBody {p : Profile} {crit : Bool} {d : CertData cfg} {cs : List (Context cfg)}
    {cn sn : Bytes} (hc : ChainOf d.meas cs) (hk : keyFits p d.pubKey) (hs : d.serial ≠ [])
    (hn : d.subject = ⟨.printable cn, .printable sn⟩) :
    Goes 0 False (tbsBody p crit d : W σ Nat)
      (Asn.wrs (tbsParts p d.serial d.issuer d.validity (d.subjectOf crit cs cn sn)))
      (Asn.wrs (tbsParts p d.serial d.issuer d.validity (d.subjectOf crit cs cn sn))).length := by
  unfold tbsBody
  rw [hn]
  apply Goes.cast
  · apply goes_seq (goes_enc (emits_cons emits_version (emits_cons (emits_intTagged hs)
      (emits_cons (emits_sigAlg p) (emits_cons (emits_bytes d.issuer)
        (emits_cons (emits_validity d.validity) emits_nil))))))
    apply goes_seq (goes_rdn cn sn)
    apply goes_seq (goes_spki hk)
    apply goes_seq (goes_exts hc true)
    exact goes_pure _
  · simp [tbsParts, wrs_cons, wrs_nil, CertData.subjectOf, extsTree, Asn.wr]
  · simp [tbsParts, wrs_cons, wrs_nil, CertData.subjectOf, extsTree, Asn.wr]
    omega

/-- Like `Goes`, and success means that the output fits. -/
def GoesFit (d : Nat) (bad : Prop) (m : W σ α) (bs : Bytes) (v : α) : Prop :=
  ∀ w x, w.saved = none → w.backtracks.length + d ≤ 10 →
    (∃ w', m (w, x) = (.ok v, (w', x)) ∧ Step w w' bs ∧ ¬ bad ∧
      w.offset + bs.length ≤ w.buf.length) ∨
    (∃ e w', m (w, x) = (.error e, (w', x)) ∧ Fail bad w bs e)

theorem goesFit_sized {bad : Prop} {tag : UInt8} {m : W σ Nat} {body : Bytes}
    (h : Goes 0 bad m body body.length) :
    GoesFit 1 (bad ∨ sizeWidth body.length ≠ 3) (do
      let r ← sized tag m
      W.checkFits
      pure (r.1 + r.2.1 + r.2.2)) (tag :: (lenBytes body.length ++ body))
      (tag :: (lenBytes body.length ++ body)).length := by
  intro w x hs hb
  rcases goes_sized (tag := tag) h w x hs hb with ⟨w1, e1, s1, n1⟩ | ⟨e, w1, e1, f1⟩
  · rw [W.bind_ok e1]
    by_cases hf : w1.offset > w1.buf.length
    · have e2 : (W.checkFits : W σ Unit) (w1, x) = (.error (.internal .certSizeOverflow), (w1, x)) := by
        simp only [W.checkFits, if_pos hf]
      refine .inr ⟨_, w1, W.bind_err e2, .inl ⟨rfl, .inl ?_⟩⟩
      rw [s1.offset, s1.length] at hf
      omega
    · have e2 : (W.checkFits : W σ Unit) (w1, x) = (.ok (), (w1, x)) := by
        simp only [W.checkFits, if_neg hf]
      refine .inl ⟨w1, ?_, s1, n1, by rw [s1.offset, s1.length] at hf; omega⟩
      rw [W.bind_ok e2, W.pure_def]
      have hw : sizeWidth body.length = 3 := by
        by_contra hc; exact n1 (.inr hc)
      simp only [List.length_cons, List.length_append, lenBytes_length, hw]
      congr 2
      omega
  · exact .inr ⟨e, w1, W.bind_err e1, f1⟩

theorem goes_tbs {p : Profile} {crit : Bool} {d : CertData cfg} {cs : List (Context cfg)}
    {cn sn : Bytes} (hc : ChainOf d.meas cs) (hk : keyFits p d.pubKey) (hs : d.serial ≠ [])
    (hn : d.subject = ⟨.printable cn, .printable sn⟩) :
    GoesFit 1 (False ∨ sizeWidth (Asn.wrs (tbsParts p d.serial d.issuer d.validity
        (d.subjectOf crit cs cn sn))).length ≠ 3) (encTbs p crit d : W σ Nat)
      (tbsCertificate p d.serial d.issuer d.validity (d.subjectOf crit cs cn sn)).wr
      (tbsCertificate p d.serial d.issuer d.validity (d.subjectOf crit cs cn sn)).wr.length := by
  rw [encTbs_eq, tbsCertificate_eq, outer_wr]
  exact goesFit_sized (goes_tbsBody hc hk hs hn)

/-! ### Certification requests -/

/-- The Extension request attribute. -/
def attributes (p : Profile) (s : Subject cfg) : Asn :=
  tagged 0 [seqOf [idExtensionRequest, setOf [extensions p s.attested false]]]

theorem goes_attributes {p : Profile} {crit : Bool} {d : CertData cfg} {cs : List (Context cfg)}
    {cn sn : Bytes} (h : ChainOf d.meas cs) : Goes 0 False (encAttributes p crit d.meas : W σ Nat)
      (attributes p (d.subjectOf crit cs cn sn)).wr
      (attributes p (d.subjectOf crit cs cn sn)).wr.length := by
  have h3 := extsSize_ok (p := p) (crit := crit) h true false false
  have hx : (extensions p (d.subjectOf crit cs cn sn).attested false).fs =
      tl (Asn.fss (allExts p crit d.meas cs false)) := by
    rw [CertData.subjectOf, extensions_eq, seqOf_fs]
  have ho : oidData.length = oidExtRequest.length := rfl
  have h2 : attributeSize p crit d.meas false = .ok (tl oidExtRequest.length +
      tl (tl (Asn.fss (allExts p crit d.meas cs false)))) := by
    simp only [attributeSize, h3, ho, structSize_true, structSize_false]; rfl
  have h1 : attributesSize p crit d.meas false = .ok (tl (tl oidExtRequest.length +
      tl (tl (Asn.fss (allExts p crit d.meas cs false))))) := by
    simp only [attributesSize, attributeSize, h3, ho, structSize_true, structSize_false]; rfl
  unfold encAttributes
  apply Goes.cast
  · apply goes_seq (goes_enc (emits_byte _))
    apply goes_lift h1
    apply goes_seq (goes_enc (emits_cons (emits_size _) (emits_cons (emits_byte _) emits_nil)))
    apply goes_lift h2
    apply goes_seq (goes_enc (emits_cons (emits_size _) (emits_cons (emits_oid _)
      (emits_cons (emits_byte _) emits_nil))))
    apply goes_lift h3
    apply goes_seq (goes_enc (emits_size _))
    apply goes_seq (goes_exts h false)
    exact goes_pure _
  · rw [attributes, idExtensionRequest_eq]
    simp only [tagged_wr, seqOf_wr, setOf_wr, seqOf_fs, setOf_fs, fss_cons, fss_nil, wrs_cons,
      wrs_nil, hx]
    simp [structSize_true, structSize_false, tagSequence, tagSetOf, extsTree, CertData.subjectOf,
      oidOf, fs_prim, allExts, fss_cons]
    decide
  · rw [attributes, idExtensionRequest_eq]
    simp only [tagged_wr, seqOf_wr, setOf_wr, seqOf_fs, setOf_fs, fss_cons, fss_nil, wrs_cons,
      wrs_nil, hx]
    simp [structSize_true, structSize_false, tagSequence, tagSetOf, extsTree, CertData.subjectOf,
      oidOf, fs_prim, allExts, fss_cons]
    omega

/-- The parts of the CertificationRequestInfo. -/
def criParts (p : Profile) (s : Subject cfg) : List Asn :=
  [asnInt 0, nameOf s.cn s.serialName, keyInfo p s.key, attributes p s]

theorem requestInfo_eq (p : Profile) (s : Subject cfg) :
    requestInfo p s = .outer 0x30 (criParts p s) := rfl

/-- The parts between `push_backtrack` and the backfilling in
`encode_certification_request_info`. -/
def criBody (p : Profile) (crit : Bool) (d : CertData cfg) : W σ Nat := do
  let a ← W.enc (encInt 0 true)
  let b ← encRdnChecked d.subject
  let c ← encSpki p d.pubKey
  let e ← encAttributes p crit d.meas
  pure (a + b + c + e)

theorem encCri_eq (p : Profile) (crit : Bool) (d : CertData cfg) :
    (encCri p crit d : W σ Nat) = (do
      let r ← sized tagSequence (criBody p crit d)
      W.checkFits
      pure (r.1 + r.2.1 + r.2.2)) := by
  simp only [encCri, sized, criBody, W.assoc, W.pure_bind']

theorem goes_criBody {p : Profile} {crit : Bool} {d : CertData cfg} {cs : List (Context cfg)}
    {cn sn : Bytes} (hc : ChainOf d.meas cs) (hk : keyFits p d.pubKey)
    (hn : d.subject = ⟨.printable cn, .printable sn⟩) :
    Goes 0 False (criBody p crit d : W σ Nat)
      (Asn.wrs (criParts p (d.subjectOf crit cs cn sn)))
      (Asn.wrs (criParts p (d.subjectOf crit cs cn sn))).length := by
  unfold criBody
  rw [hn]
  apply Goes.cast
  · apply goes_seq (goes_enc (emits_int (n := 0) (by decide)))
    apply goes_seq (goes_rdn cn sn)
    apply goes_seq (goes_spki hk)
    apply goes_seq (goes_attributes (cn := cn) (sn := sn) hc)
    exact goes_pure _
  · simp only [criParts, wrs_cons, wrs_nil]
    simp [CertData.subjectOf]
  · simp only [criParts, wrs_cons, wrs_nil]
    simp [CertData.subjectOf]
    omega

theorem goes_cri {p : Profile} {crit : Bool} {d : CertData cfg} {cs : List (Context cfg)}
    {cn sn : Bytes} (hc : ChainOf d.meas cs) (hk : keyFits p d.pubKey)
    (hn : d.subject = ⟨.printable cn, .printable sn⟩) :
    GoesFit 1 (False ∨ sizeWidth (Asn.wrs (criParts p
        (d.subjectOf crit cs cn sn))).length ≠ 3) (encCri p crit d : W σ Nat)
      (requestInfo p (d.subjectOf crit cs cn sn)).wr
      (requestInfo p (d.subjectOf crit cs cn sn)).wr.length := by
  rw [encCri_eq, requestInfo_eq, outer_wr]
  exact goesFit_sized (goes_criBody hc hk hn)

end Dpe
