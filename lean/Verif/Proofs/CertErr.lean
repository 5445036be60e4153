import Verif.Proofs.CertSafe
import Verif.Proofs.X509Create
import Verif.Spec.Faults
/-
Why the certificate generator fails.
-/
namespace Dpe
section
variable {cfg : Cfg} {σ α β : Type} {ops : Ops σ} {st : State cfg}

theorem wr_len_le (t : Asn) : t.wr.length ≤ t.written.length := (Asn.wr_le t).1

theorem long_of_width {n : Nat} (h1 : 256 ≤ n) (h : sizeWidth n ≠ 3) : 65539 < tl n := by
  by_contra hc
  exact h (width_of_le h1 (by omega))

theorem tl_mono {m n : Nat} (h : m ≤ n) : tl m ≤ tl n := by
  have : sizeWidth m ≤ sizeWidth n := by
    unfold sizeWidth
    repeat' split
    all_goals omega
  unfold tl
  omega

/-- How a tree that does not fit is reported. -/
theorem Tight.overflows {bad : Prop} {w : Writer} {n : Nat} {e : Err} {t : Asn} (h : Tight bad w n e)
    (ho : w.offset = 0) (hn : n ≤ t.written.length ∨ 65539 < t.written.length)
    (hb : bad → 65539 < t.written.length) : Overflows w.buf.length t e := by
  rcases h with ⟨rfl, h | h⟩ | ⟨rfl, h⟩
  · rcases hn with hn | hn
    · exact .inl ⟨rfl, .inl (by omega)⟩
    · exact .inl ⟨rfl, .inr hn⟩
  · exact .inl ⟨rfl, .inr (hb h)⟩
  · exact .inr ⟨rfl, hb h⟩

theorem signedOf_ge {t : Asn} {parts : List Asn} (hs : Sized t parts) (p : Profile) (sig : Sig) :
    4 + t.wr.length ≤ (signedOf p t sig).written.length ∧
    (sizeWidth (Asn.wrs parts).length ≠ 3 → 65539 < (signedOf p t sig).written.length) ∧
    (sizeWidth (Asn.wrs (signedParts p t sig)).length ≠ 3 →
      65539 < (signedOf p t sig).written.length) := by
  have hw := wr_len_le (signedOf p t sig)
  have hl := signed_length p t sig
  have hp := signed_part p t sig
  have hle := hs.least
  have hlen := hs.length
  have hg := tl_ge (Asn.wrs parts).length
  have hg' := tl_ge (Asn.wrs (signedParts p t sig)).length
  refine ⟨?_, fun h => ?_, fun h => ?_⟩
  · have : 3 ≤ sizeWidth (Asn.wrs (signedParts p t sig)).length := by
      have h256 : 256 ≤ (Asn.wrs (signedParts p t sig)).length := by omega
      unfold sizeWidth
      repeat' split
      all_goals omega
    unfold tl at hl
    omega
  · have := long_of_width hle h
    omega
  · have := long_of_width (by omega) h
    omega

/-- The errors of writing a certificate. -/
theorem signRun_error {cb : SignCb σ} {p : Profile} {t : Asn} {parts : List Asn} {csr : Bool}
    (hs : Sized t parts) {w : Writer} {x : σ} (ho : w.offset = 0)
    {e : Err} {w' : Writer} {x' : σ} (h : SignRun cb p t parts csr w x true (.error e, (w', x'))) :
    (∀ sig, Overflows w.buf.length (signedOf p t sig) e) ∨
    (∃ ce, e = .crypto ce ∧ cb t.written csr x = (.error ce, x')) ∨
    ∃ sig, cb t.written csr x = (.ok sig, x') ∧ Overflows w.buf.length (signedOf p t sig) e := by
  have ht : sizeWidth (Asn.wrs parts).length = 3 → t.wr = t.written := by
    intro h
    have hl := hs.length
    rw [tl_three h] at hl
    have := sizeWidth_three.1 h
    exact Asn.short_written _ hs.short (by omega)
  cases h with
  | early h =>
    left
    intro sig
    obtain ⟨h1, h2, _⟩ := signedOf_ge hs p sig
    exact h.overflows ho (.inl h1) h2
  | crypto h1 h2 =>
    rw [ht h2] at h1
    exact .inr (.inl ⟨_, rfl, h1⟩)
  | late h1 h2 h3 =>
    rw [ht h3] at h1
    refine .inr (.inr ⟨_, h1, h2.overflows ho (.inl (wr_len_le _)) (signedOf_ge hs p _).2.2⟩)

theorem cmsOf_ge {t : Asn} {parts : List Asn} (hs : Sized t parts) (p : Profile) (sid : SignerId)
    (sig sig' : Sig) :
    (65539 < (cmsOf p sid (signedOf p t sig) sig').written.length) ∨
    (sizeWidth (Asn.wrs parts).length = 3 ∧
      (∀ n ∈ (Asn.wrs (signedParts p t sig)).length :: encapLens (signedOf p t sig),
        sizeWidth n = 3) ∧
      (∀ n ∈ cmsLens p sid (signedOf p t sig) sig', sizeWidth n = 3) ∧
      cmsPre p sid + encapPre + (signedOf p t sig).wr.length ≤
        (cmsOf p sid (signedOf p t sig) sig').written.length ∧
      cmsPre p sid + encapPre + 4 + t.wr.length ≤
        (cmsOf p sid (signedOf p t sig) sig').written.length) := by
  by_cases h : (cmsOf p sid (signedOf p t sig) sig').wr.length ≤ 65539
  · right
    have hw := wr_len_le (cmsOf p sid (signedOf p t sig) sig')
    have hc := cms_contains p sid (signedOf p t sig) sig'
    have hl := signed_length p t sig
    have hp := signed_part p t sig
    have hg := tl_ge (Asn.wrs (signedParts p t sig)).length
    have hle := hs.least
    have hlen := hs.length
    have hg' := tl_ge (Asn.wrs parts).length
    obtain ⟨c1, c2, c3⟩ := cms_widths (p := p) (sid := sid) (c := signedOf p t sig) (sig := sig')
      (by omega) h
    have b1 : sizeWidth (Asn.wrs parts).length = 3 := width_of_le hle (by omega)
    have b2 : sizeWidth (Asn.wrs (signedParts p t sig)).length = 3 :=
      width_of_le (by omega) (by omega)
    rw [tl_three b2] at hl
    refine ⟨b1, ?_, c2, by omega, by omega⟩
    intro n hn
    rw [List.mem_cons] at hn
    rcases hn with rfl | hn
    · exact b2
    · exact c1 n hn
  · left
    have := wr_len_le (cmsOf p sid (signedOf p t sig) sig')
    omega

/-- The errors of writing a signed request. -/
theorem cmsRun_error {cb : SignCb σ} {p : Profile} {sid : SignerId} {t : Asn} {parts : List Asn}
    (hs : Sized t parts) {w : Writer} {x : σ} (ho : w.offset = 0)
    {e : Err} {w' : Writer} {x'' : σ} (h : CmsRun cb p sid t parts w x (.error e, (w', x''))) :
    (∀ sig sig', Overflows w.buf.length (cmsOf p sid (signedOf p t sig) sig') e) ∨
    (∃ ce, e = .crypto ce ∧ cb t.written true x = (.error ce, x'')) ∨
    ∃ sig x', cb t.written true x = (.ok sig, x') ∧
      ((∀ sig', Overflows w.buf.length (cmsOf p sid (signedOf p t sig) sig') e) ∨
      (∃ ce, e = .crypto ce ∧ cb (signedOf p t sig).written false x' = (.error ce, x'')) ∨
      ∃ sig', cb (signedOf p t sig).written false x' = (.ok sig', x'') ∧
        Overflows w.buf.length (cmsOf p sid (signedOf p t sig) sig') e) := by
  have ht : sizeWidth (Asn.wrs parts).length = 3 → t.wr = t.written := by
    intro h
    have hl := hs.length
    rw [tl_three h] at hl
    have := sizeWidth_three.1 h
    exact Asn.short_written _ hs.short (by omega)
  have ht' : ∀ sig, (∀ n ∈ (Asn.wrs (signedParts p t sig)).length :: encapLens (signedOf p t sig),
        sizeWidth n = 3) → (signedOf p t sig).wr = (signedOf p t sig).written := by
    intro sig h
    have h := h _ List.mem_cons_self
    have hl := signed_length p t sig
    rw [tl_three h] at hl
    have := sizeWidth_three.1 h
    exact Asn.short_written _ (hs.signed p sig) (by omega)
  cases h with
  | early h =>
    left
    intro sig sig'
    rcases cmsOf_ge hs p sid sig sig' with h1 | ⟨h1, _, _, _, h5⟩
    · exact h.overflows ho (.inr h1) fun _ => h1
    · exact h.overflows ho (.inl h5) fun hc => absurd h1 hc
  | crypto h1 h2 =>
    rw [ht h2] at h1
    exact .inr (.inl ⟨_, rfl, h1⟩)
  | @mid _ _ _ sig h1 h2 h3 =>
    rw [ht h3] at h1
    refine .inr (.inr ⟨sig, _, h1, .inl fun sig' => ?_⟩)
    rcases cmsOf_ge hs p sid sig sig' with h4 | ⟨_, h4, _, h5, _⟩
    · exact h2.overflows ho (.inr h4) fun _ => h4
    · exact h2.overflows ho (.inl h5) fun hc => absurd h4 hc
  | @crypto2 _ _ _ _ sig h1 h2 h3 h4 =>
    rw [ht h3] at h1
    rw [ht' _ h4] at h2
    exact .inr (.inr ⟨sig, _, h1, .inr (.inl ⟨_, rfl, h2⟩)⟩)
  | @late _ _ _ _ sig sig' h1 h2 h3 h4 h5 =>
    rw [ht h4] at h1
    rw [ht' _ h5] at h2
    refine .inr (.inr ⟨sig, _, h1, .inr (.inr ⟨sig', h2, ?_⟩)⟩)
    rcases cmsOf_ge hs p sid sig sig' with h6 | ⟨_, _, h6, _⟩
    · exact h3.overflows ho (.inl (wr_len_le _)) fun _ => h6
    · exact h3.overflows ho (.inl (wr_len_le _)) fun hc => absurd h6 hc

theorem signCb_error {a : CertArgs} {digest data : Bytes} {h : Option (BArr 32)} {x x' : σ}
    {e : CryptoErr} (hc : signCb ops a digest false h data true x = (.error e, x')) :
    (∃ w', ops.deriveCdi digest a.cdiLabel x = (.error e, w')) ∨
    ∃ cdi w1, ops.deriveCdi digest a.cdiLabel x = (.ok cdi, w1) ∧
      ((∃ w', ops.deriveKeyPair cdi a.keyLabel a.context w1 = (.error e, w')) ∨
      ∃ key w2, ops.deriveKeyPair cdi a.keyLabel a.context w1 = (.ok key, w2) ∧
        ops.sign key (.buffer data) w2 = (.error e, x')) := by
  unfold signCb thenCall at hc
  simp only [if_true, Bool.false_eq_true, if_false] at hc
  rcases h1 : ops.deriveCdi digest a.cdiLabel x with ⟨e1 | cdi, w1⟩
  · rw [h1] at hc
    cases hc
    exact .inl ⟨_, rfl⟩
  · rw [h1] at hc
    simp only at hc
    rcases h2 : ops.deriveKeyPair cdi a.keyLabel a.context w1 with ⟨e2 | key, w2⟩
    · rw [h2] at hc
      cases hc
      exact .inr ⟨cdi, w1, rfl, .inl ⟨_, h2⟩⟩
    · rw [h2] at hc
      exact .inr ⟨cdi, w1, rfl, .inr ⟨key, w2, h2, hc⟩⟩

/-- Writing a signed request, with the data of a draft. -/
theorem draft_cms_run {D : Draft} {a : CertArgs} (wf : Links st)
    (hp : Path st D.slot D.path) (hk : keyFits cfg.profile D.key)
    (hi : ∀ i, D.signer ≠ .issuerAndSerial i []) (w : σ) (win : Bytes) :
    ∃ parts, Sized (D.info a st) parts ∧
      CmsRun (signCb ops a D.digest CertKind.leafCsr.exported D.exportedCdi) cfg.profile D.signer
        (D.info a st) parts (Writer.new win) w
        (encCms (signCb ops a D.digest CertKind.leafCsr.exported D.exportedCdi) cfg.profile a.critDice
          (D.data .leafCsr a st []) D.signer (Writer.new win, w)) := by
  have hch : ChainOf (D.data .leafCsr a st []).meas (D.path.reverse.map st.at) := chainOf_path wf hp rfl rfl
  have hsz := sized_payload (kind := .leafCsr) (a := a) hp hk [] [] true
  have hrun := encCms_run (cb := signCb ops a D.digest CertKind.leafCsr.exported D.exportedCdi)
    (p := cfg.profile) (crit := a.critDice) (d := D.data .leafCsr a st []) (sid := D.signer)
    hch hk hi rfl (Writer.new win) w rfl rfl
  have hpl : payload cfg.profile a.critDice (D.data .leafCsr a st [])
      (D.path.reverse.map st.at)
      (if CertKind.leafCsr.exported then ascii "DPE Exported CDI" else ascii "DPE Leaf")
      (serialText D.nameHash) true = D.info a st := by
    unfold payload Draft.info
    rw [if_pos rfl]
    exact congrArg _ (D.data_subject .leafCsr a st [] [])
  change Sized (payload cfg.profile a.critDice (D.data .leafCsr a st []) _ _ _ true)
    (payloadParts cfg.profile a.critDice (D.data .leafCsr a st []) _ _ _ true) at hsz
  change CmsRun _ _ _ (payload cfg.profile a.critDice (D.data .leafCsr a st []) _
    (if CertKind.leafCsr.exported then ascii "DPE Exported CDI" else ascii "DPE Leaf") _ true)
    (payloadParts cfg.profile a.critDice (D.data .leafCsr a st []) _
    (if CertKind.leafCsr.exported then ascii "DPE Exported CDI" else ascii "DPE Leaf") _ true) _ _ _ at hrun
  rw [hpl] at hsz hrun
  exact ⟨_, hsz, hrun⟩

/-- Writing a certificate, with the data of a draft. -/
theorem draft_cert_run {D : Draft} {kind : CertKind} {a : CertArgs} (wf : Links st)
    (hp : Path st D.slot D.path) (hk : keyFits cfg.profile D.key) (issuer : Bytes) (w : σ)
    (win : Bytes) :
    ∃ parts, Sized (D.tbs kind a st issuer) parts ∧
      SignRun (signCb ops a D.digest kind.exported D.exportedCdi) cfg.profile
        (D.tbs kind a st issuer) parts false (Writer.new win) w true
        (encCertOrCsr (signCb ops a D.digest kind.exported D.exportedCdi) cfg.profile a.critDice
          { D.data kind a st issuer with serial := (serialText D.nameHash).take 20 } false
          (Writer.new win, w)) := by
  have hsn : (serialText D.nameHash).length = 64 := serialText_length _
  have e : payload cfg.profile a.critDice { D.data kind a st issuer with
      serial := (serialText D.nameHash).take 20 } (D.path.reverse.map st.at)
      (if kind.exported then ascii "DPE Exported CDI" else ascii "DPE Leaf")
      (serialText D.nameHash) false = D.tbs kind a st issuer := by
    unfold payload Draft.tbs
    rw [if_neg (by decide), D.data_subject]
    rfl
  have h := encCertOrCsr_run (cb := signCb ops a D.digest kind.exported D.exportedCdi)
    (p := cfg.profile) (crit := a.critDice)
    (d := { D.data kind a st issuer with serial := (serialText D.nameHash).take 20 }) (csr := false)
    (chainOf_path wf hp rfl rfl) hk (fun _ h => by
      have := congrArg List.length h
      simp [hsn] at this) rfl (Writer.new win) w rfl (by simp [Writer.new])
  have hz := sized_payload (kind := kind) (a := a) hp hk issuer ((serialText D.nameHash).take 20) false
  rw [e] at h hz
  exact ⟨_, hz, h⟩

theorem runWriter_error {α : Type} {m : W σ α} {s s' : Sys cfg σ} {e : Err}
    (h : runWriter m s = (.error e, s')) :
    ∃ w' x', m (Writer.new s.out, s.w) = (.error e, (w', x')) := by
  unfold runWriter at h
  rcases hm : m (Writer.new s.out, s.w) with ⟨r, w', x'⟩
  rw [hm] at h
  injection h with h1 h2
  exact ⟨w', x', by rw [h1]⟩

theorem err_bind {x : M cfg σ α} {f : α → M cfg σ β} {s s' : Sys cfg σ} {e : Err}
    (h : (x >>= f) s = (.error e, s')) :
    x s = (.error e, s') ∨ ∃ a s1, x s = (.ok a, s1) ∧ f a s1 = (.error e, s') := by
  rcases bind_iff.1 h with ⟨e', h1, h2⟩ | h
  · cases h2; exact .inl h1
  · exact .inr h

theorem lift_error {x : Except Err α} {s s' : Sys cfg σ} {e : Err}
    (h : (M.lift x : M cfg σ α) s = (.error e, s')) : x = .error e := (Prod.mk.inj h).1

/-- Why the last stage fails. -/
theorem finishCert_error {D : Draft} {kind : CertKind} {a : CertArgs} (wf : Links st)
    (hp : Path st D.slot D.path) (hk : keyFits cfg.profile D.key)
    (hi : ∀ i, D.signer ≠ .issuerAndSerial i []) {w : σ} {win : Bytes} {e : Err} {s' : Sys cfg σ}
    (h : finishCert ops (signCb ops a D.digest kind.exported D.exportedCdi) kind a.critDice
        (D.data kind a st []) D.signer ⟨st, w, win⟩ = (.error e, s')) :
    IssueFails ops a st D win.length kind w e := by
  have hbuf : (Writer.new win).buf.length = win.length := rfl
  by_cases hkind : kind = .leafCsr
  · subst hkind
    unfold finishCert at h
    rw [if_pos rfl] at h
    unfold generate at h
    simp only at h
    obtain ⟨parts, hsz, hrun⟩ := draft_cms_run (a := a) (ops := ops) wf hp hk hi w win
    rcases err_bind h with h | ⟨n, s1, h, h'⟩
    · obtain ⟨w', x', h⟩ := runWriter_error h
      have h' : encCms (signCb ops a D.digest CertKind.leafCsr.exported D.exportedCdi) cfg.profile
          a.critDice (D.data .leafCsr a st []) D.signer (Writer.new win, w) = (.error e, (w', x')) := h
      rw [h'] at hrun
      rcases cmsRun_error hsz rfl hrun with h1 | ⟨ce, rfl, h1⟩ | ⟨sig, x1, h1, h2⟩
      · exact .info h1
      · rcases signCb_error h1 with ⟨_, h1⟩ | ⟨_, _, h1, ⟨_, h2⟩ | ⟨_, _, h2, h3⟩⟩
        · exact .cdi h1
        · exact .key h1 h2
        · exact .signInfo h1 h2 h3
      · obtain ⟨cdi, w1, key, w2, d1, d2, d3⟩ := signCb_derived.1 h1
        rcases h2 with h2 | ⟨ce, rfl, h2⟩ | ⟨sig', h2, h3⟩
        · exact .request d1 d2 d3 h2
        · exact .signRequest d1 d2 d3 h2
        · exact .message d1 d2 d3 h2 h3
    · exfalso
      obtain ⟨w', x', h3, rfl⟩ := runWriter_iff.1 h
      have h4 : encCms (signCb ops a D.digest CertKind.leafCsr.exported D.exportedCdi) cfg.profile
          a.critDice (D.data .leafCsr a st []) D.signer (Writer.new win, w) = (.ok n, (w', x')) := h3
      rw [h4] at hrun
      obtain ⟨_, _, _, _, _, _, h5, rfl⟩ := (cmsRun_iff hsz rfl hrun).1 ⟨w', rfl⟩
      have := lift_error h'
      unfold toU32 at this
      rw [if_pos (Nat.lt_of_le_of_lt h5 (by decide))] at this
      cases this
  · unfold finishCert at h
    rw [if_neg hkind] at h
    unfold getIssuer generate at h
    rcases err_bind h with h | ⟨issuer, s1, h, h'⟩
    · rcases err_bind h with h | ⟨r, s1, h, h'⟩
      · rcases platform_iff.1 h with ⟨pe, w', h1, h2, _⟩ | ⟨_, _, _, h2, _⟩
        · cases h2
          exact .issuer hkind h1
        · cases h2
      · obtain ⟨w1, h1, rfl⟩ := (OkIs.platform _ _ _ _).1 h
        rcases err_bind h' with h | ⟨_, _, _, h⟩
        · unfold M.failIf at h
          by_cases hc : decide (r.1 > 128) = true
          · rw [if_pos hc] at h
            cases h
            exact .longIssuer (n := r.1) (name := r.2) hkind h1 (of_decide_eq_true hc)
          · rw [if_neg hc] at h; cases h
        · cases h
    · have hiss : ∃ k name w1, ops.issuerName w = (.ok (k, name), w1) ∧
          issuer = name.toList.take k ∧ s1 = ⟨st, w1, win⟩ := by
        obtain ⟨r, s2, h1, h2⟩ := bind_ok_iff.1 h
        obtain ⟨w1, h5, rfl⟩ := (OkIs.platform _ _ _ _).1 h1
        obtain ⟨_, s3, h3, h4⟩ := bind_ok_iff.1 h2
        obtain ⟨w2, ⟨_, rfl⟩, rfl⟩ := (OkIs.failIf _ _ _ _ _).1 h3
        cases h4
        exact ⟨r.1, r.2, _, h5, rfl, rfl⟩
      obtain ⟨k, name, w1, h1, rfl, rfl⟩ := hiss
      have hsn : (serialText D.nameHash).length = 64 := serialText_length _
      rcases err_bind h' with h | ⟨_, s2, h, h'⟩
      · exfalso
        unfold M.failIf at h
        rw [if_neg (by
          show ¬ decide ((serialText D.nameHash).length < 20) = true
          simp [hsn])] at h
        cases h
      · obtain ⟨w2, ⟨_, rfl⟩, rfl⟩ := (OkIs.failIf _ _ _ _ _).1 h
        obtain ⟨parts, hsz, hrun⟩ := draft_cert_run (kind := kind) (a := a) (ops := ops) wf hp hk
          (name.toList.take k) w2 win
        rcases err_bind h' with h | ⟨n, s3, h, h'⟩
        · obtain ⟨w', x', h⟩ := runWriter_error h
          have h' : encCertOrCsr (signCb ops a D.digest kind.exported D.exportedCdi) cfg.profile
              a.critDice { D.data kind a st (name.toList.take k) with
                serial := (serialText D.nameHash).take 20 } false (Writer.new win, w2) =
              (.error e, (w', x')) := h
          rw [h'] at hrun
          rcases signRun_error hsz rfl hrun with h2 | ⟨ce, rfl, h2⟩ | ⟨sig, h2, h3⟩
          · exact .tbs hkind h1 h2
          · exact .signTbs hkind h1 h2
          · exact .certificate hkind h1 h2 h3
        · exfalso
          obtain ⟨w', x', h3, rfl⟩ := runWriter_iff.1 h
          have h4 : encCertOrCsr (signCb ops a D.digest kind.exported D.exportedCdi) cfg.profile
              a.critDice { D.data kind a st (name.toList.take k) with
                serial := (serialText D.nameHash).take 20 } false (Writer.new win, w2) =
              (.ok n, (w', x')) := h3
          rw [h4] at hrun
          obtain ⟨_, _, _, h5, rfl⟩ := (signRun_iff hsz rfl hrun).1 ⟨w', rfl⟩
          have := lift_error h'
          unfold toU32 at this
          rw [if_pos (Nat.lt_of_le_of_lt h5 (by decide))] at this
          cases this

theorem draft_errors (cfg : Cfg) (ops : Ops σ) (kind : CertKind) :
    CertErrors cfg ops kind (DraftFault cfg ops kind) where
  hasher w e h := .crypto ⟨w, .inl h⟩
  hashInit w e h := .crypto ⟨w, .inr (.inl h)⟩
  hashUpdate b w e h := .crypto ⟨w, .inr (.inr (.inl ⟨b, h⟩))⟩
  hashFinish w e h := .crypto ⟨w, .inr (.inr (.inr (.inl h)))⟩
  deriveCdi hk d l w e h := .crypto ⟨w, .inr (.inr (.inr (.inr (.inl ⟨hk, .inl ⟨d, l, h⟩⟩))))⟩
  deriveKeyPair hk c l x w e h :=
    .crypto ⟨w, .inr (.inr (.inr (.inr (.inl ⟨hk, .inr ⟨c, l, x, h⟩⟩))))⟩
  deriveExportedCdi hk d l w e h :=
    .crypto ⟨w, .inr (.inr (.inr (.inr (.inr (.inl ⟨hk, .inl ⟨d, l, h⟩⟩)))))⟩
  deriveKeyPairExported hk c l x w e h :=
    .crypto ⟨w, .inr (.inr (.inr (.inr (.inr (.inl ⟨hk, .inr ⟨c, l, x, h⟩⟩)))))⟩
  publicKey k w e h := .crypto ⟨w, .inr (.inr (.inr (.inr (.inr (.inr ⟨k, h⟩)))))⟩
  vendorId w e h := .platform ⟨w, .inl h⟩
  vendorSku w e h := .platform ⟨w, .inr (.inl h)⟩
  issuerKeyId w e h := .platform ⟨w, .inr (.inr (.inl h))⟩
  altName w e h hn := .platform ⟨w, .inr (.inr (.inr (.inl ⟨h, hn⟩)))⟩
  validity w e h := .platform ⟨w, .inr (.inr (.inr (.inr (.inl h))))⟩
  signerId w e h := .platform ⟨w, .inr (.inr (.inr (.inr (.inr h))))⟩
  digestSize h := .size (.inl h)
  wrongKind k w w' pk h hk := .kind h hk
  longDigest w d w' h hl := .size (.inr ⟨w, d, w', h, hl⟩)
  shortDigest w d w' h hl := .short h hl
  chunk off len ch w w' h hl := .chunk h hl
  endless w h := .endless h

theorem slot_errors {a : CertArgs} {i : Nat} {l : List Nat} (hr : st.findActive a.handle a.locality = .ok i)
    (hp : Path st i l) (Q : Err → Prop) : SlotErrors a st Q where
  lookup e h := by rw [hr] at h; cases h
  new j e hj h := by
    rw [hr] at hj; cases hj
    obtain ⟨it, e1, _⟩ := ChainIter.new_path hp
    rw [e1] at h; cases h
  items j it x e hj hn hx h := by
    rw [hr] at hj; cases hj
    obtain ⟨it', e1, r⟩ := ChainIter.new_path hp
    rw [e1] at hn; cases hn
    have hl := hp.length_le
    rw [items_rem _ r (show l.length < cfg.maxHandles + 2 by omega)] at hx
    obtain ⟨y, _, rfl⟩ := List.mem_map.1 hx
    cases h
  nodes j e hj h := by
    rw [hr] at hj; cases hj
    rw [tciNodesNew_path hp] at h; cases h

theorem M.Safe.error {Q : Err → Prop} {P : α → Prop} {m : M cfg σ α} (h : M.Safe st Q P m) {w : σ}
    {win : Bytes} {e : Err} {s' : Sys cfg σ} (he : m ⟨st, w, win⟩ = (.error e, s')) : Q e := by
  have := (h ⟨st, w, win⟩ rfl).2.2.2 e
  rw [he] at this
  exact this rfl

/-- Why the generator fails. -/
theorem createCert_error {kind : CertKind} {a : CertArgs} (wf : Links st) (hfit : AlgorithmFits cfg ops)
    (hser : SerialGiven ops) (hres : ∃ i, Resolves st a.handle a.locality i) {w : σ} {win : Bytes}
    {e : Err} {s' : Sys cfg σ} (h : createCert ops kind a ⟨st, w, win⟩ = (.error e, s')) :
    DraftFault cfg ops kind e ∨ ∃ D w1, Drafted ops kind a st w D w1 ∧
      IssueFails ops a st D win.length kind w1 e := by
  obtain ⟨i, hr⟩ := hres
  have h1 := findActive_iff.2 hr
  obtain ⟨l, hp⟩ := wf.path i (live_of_active hr.1.1)
  have he := draft_errors cfg ops kind
  have hs := slot_errors h1 hp (DraftFault cfg ops kind)
  unfold createCert at h
  rcases err_bind h with h | ⟨st1, s1, hx, h⟩
  · cases h
  cases hx
  rcases err_bind h with h | ⟨i', s1, hx, h⟩
  · have := lift_error h; rw [h1] at this; cases this
  obtain ⟨_, ⟨hx, rfl⟩, rfl⟩ := (OkIs.lift _ _ _ _).1 hx
  rw [h1] at hx
  cases hx
  rcases err_bind h with h | ⟨digest, s1, hx, h⟩
  · exact .inl ((safe_digest he hs h1).error h)
  obtain ⟨w1, hm, rfl⟩ := (measured_iff hp).1 hx
  rcases err_bind h with h | ⟨⟨k, hd⟩, s1, hx, h⟩
  · exact .inl ((safe_key he _ _).error h)
  obtain ⟨w3, ⟨pk, w2, h3, h4⟩, rfl⟩ := (okIs_certKey _ _ _ _ _ _).1 hx
  have hpub : Published ops k := ⟨pk, w2, w3, h4⟩
  rcases err_bind h with h | ⟨nm, s1, hx, h⟩
  · exact .inl ((safe_subject he _ hpub).error h)
  obtain ⟨w4, ⟨h5, h6, nh, h7, h8, rfl⟩, rfl⟩ := (okIs_subjectName _ _ _ _ _).1 hx
  rcases err_bind h with h | ⟨ski, s1, hx, h⟩
  · unfold subjectKeyIdOf at h
    rcases err_bind h with h | ⟨d, s1, hx, h⟩
    · exact .inl ((safe_hashAll he _).error h)
    have hdg : Digested ops d := by
      have := (safe_hashAll (st := st) he (PubKey.chunks k) ⟨st, w4, win⟩ rfl).2.2.1 d
      rw [hx] at this
      exact this rfl
    rcases err_bind h with h | ⟨_, _, _, h⟩
    · unfold M.failIf at h
      by_cases hc : decide (d.length < 20) = true
      · rw [if_pos hc] at h
        cases h
        obtain ⟨w, w', hd⟩ := hdg
        exact .inl (.short hd (of_decide_eq_true hc))
      · rw [if_neg hc] at h; cases h
    · cases h
  obtain ⟨w5, ⟨ih, h9, h10, rfl⟩, rfl⟩ := (okIs_subjectKeyId _ _ _ _).1 hx
  rcases err_bind h with h | ⟨aki, s1, hx, h⟩
  · exact .inl ((M.safe_platform (st := st) (P := fun _ => True) (fun _ _ _ => trivial) he.issuerKeyId).error h)
  obtain ⟨w6, h11, rfl⟩ := (OkIs.platform _ _ _ _).1 hx
  rcases err_bind h with h | ⟨alt, s1, hx, h⟩
  · exact .inl ((safe_altName he).error h)
  obtain ⟨w7, h12, rfl⟩ := (okIs_altName _ _ _).1 hx
  rcases err_bind h with h | ⟨st2, s1, hx, h⟩
  · cases h
  cases hx
  rcases err_bind h with h | ⟨i', s1, hx, h⟩
  · have := lift_error h; rw [h1] at this; cases this
  obtain ⟨_, ⟨hx, rfl⟩, rfl⟩ := (OkIs.lift _ _ _ _).1 hx
  rw [h1] at hx
  cases hx
  rcases err_bind h with h | ⟨_, s1, hx, h⟩
  · have := lift_error h; rw [tciNodesNew_path hp] at this; cases this
  obtain ⟨_, ⟨_, rfl⟩, rfl⟩ := (OkIs.lift _ _ _ _).1 hx
  rcases err_bind h with h | ⟨val, s1, hx, h⟩
  · exact .inl ((M.safe_platform (st := st) (P := fun _ => True) (fun _ _ _ => trivial) he.validity).error h)
  obtain ⟨w8, h14, rfl⟩ := (OkIs.platform _ _ _ _).1 hx
  rcases err_bind h with h | ⟨sid, s1, hx, h⟩
  · exact .inl ((M.safe_platform (st := st) (P := fun _ => True) (fun _ _ _ => trivial) he.signerId).error h)
  obtain ⟨w9, h15, rfl⟩ := (OkIs.platform _ _ _ _).1 hx
  simp only at h3 h4 h6 h7 h9 h11 h12 h14 h15
  rw [mldsaKey_eq] at h6
  let D : Draft := ⟨i, l, digest, k, hd, nh, ih, aki, alt, val, sid⟩
  have h15' : ops.signerId w8 = (.ok D.signer, w9) := h15
  have hkey : keyFits cfg.profile D.key := by
    unfold keyFits
    rw [mldsaKey_eq, h6]
    exact hfit
  have hD : Drafted ops kind a st _ D w9 := ⟨pk, w1, w2, w3, w4, w5, w6, _, w8, hr, hp, hm, h3, h4, h6,
    h5, h7, h8, h9, h10, h11, h12, h14, h15⟩
  refine .inr ⟨D, w9, hD, ?_⟩
  rcases err_bind h with h | ⟨n, s9, hx, h⟩
  · exact finishCert_error (D := D) wf hp hkey (fun j e => hser _ j _ (e ▸ h15')) h
  · exfalso
    cases kind with
    | exportedX509 =>
      obtain ⟨_, _, rfl, _⟩ := h3
      cases h
    | leafX509 => cases h
    | leafCsr => cases h

/-- Why the concrete certificate generator fails. -/
theorem certGen_error {kind : CertKind} {a : CertArgs} (wf : Links st) (hfit : AlgorithmFits cfg ops)
    (hser : SerialGiven ops) (hres : ∃ i, Resolves st a.handle a.locality i) {w w' : σ} {win win' : Bytes}
    {e : Err} (h : (ops.env cfg).certGen kind a st w win = ((.error e, w'), win')) :
    DraftFault cfg ops kind e ∨ ∃ D w1, Drafted ops kind a st w D w1 ∧
      IssueFails ops a st D win.length kind w1 e := by
  have e1 : (ops.env cfg).certGen kind a st w win =
      (((createCert ops kind a ⟨st, w, win⟩).1, (createCert ops kind a ⟨st, w, win⟩).2.w),
        (createCert ops kind a ⟨st, w, win⟩).2.out) := rfl
  rw [e1] at h
  have h1 := (Prod.mk.inj (Prod.mk.inj h).1).1
  exact createCert_error wf hfit hser hres (s' := (createCert ops kind a ⟨st, w, win⟩).2)
    (by rw [← h1])

end
end Dpe
