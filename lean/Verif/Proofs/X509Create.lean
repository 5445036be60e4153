import Verif.Proofs.X509Issue
import Verif.Proofs.X509Size
import Verif.Proofs.Refine
/-
Success of `createCert`, second part: the exact conditions under which the writer succeeds, and what
is then in the buffer.
-/
namespace Dpe
section
variable {cfg : Cfg} {σ : Type} {ops : Ops σ}

theorem runWriter_iff {α : Type} {m : W σ α} {s s' : Sys cfg σ} {a : α} :
    (runWriter m : M cfg σ α) s = (.ok a, s') ↔ ∃ w' x', m (Writer.new s.out, s.w) = (.ok a, (w', x')) ∧
      s' = { s with w := x', out := w'.buf } := by
  unfold runWriter
  rcases m (Writer.new s.out, s.w) with ⟨r, w', x'⟩
  simp only [Prod.mk.injEq]
  constructor
  · rintro ⟨rfl, rfl⟩; exact ⟨w', x', ⟨rfl, rfl, rfl⟩, rfl⟩
  · rintro ⟨w1, x1, ⟨rfl, rfl, rfl⟩, rfl⟩; exact ⟨rfl, rfl⟩

/-- The buffer with `bs` at its start. -/
def placed (bs win : Bytes) : Bytes := bs ++ win.drop bs.length

theorem holds_placed {win bs : Bytes} {w' : Writer} (h : Holds (Writer.new win) w' bs)
    (hf : bs.length ≤ win.length) : w'.buf = placed bs win := by
  have := h.fits (by show 0 + bs.length ≤ win.length; omega)
  rw [this]
  simp [Writer.new, placed]

theorem toU32_iff {n : Nat} {e : Internal} {u : U32} (h : n < 4294967296) :
    toU32 n e = .ok u ↔ u = BitVec.ofNat 32 n := by
  unfold toU32
  rw [if_pos h]
  exact ⟨fun h => by cases h; rfl, fun h => by rw [h]⟩

theorem signed_length (p : Profile) (t : Asn) (sig : Sig) :
    (signedOf p t sig).wr.length = tl (Asn.wrs (signedParts p t sig)).length := outer_length _ _

theorem signed_part (p : Profile) (t : Asn) (sig : Sig) :
    t.wr.length ≤ (Asn.wrs (signedParts p t sig)).length := by
  simp only [signedParts, Asn.wrs, List.length_append]; omega

theorem tl_three {n : Nat} (h : sizeWidth n = 3) : tl n = n + 4 := by unfold tl; omega

theorem tl_ge (n : Nat) : n + 2 ≤ tl n := (tl_bounds n).1

/-- What the payload of a certificate or request is like. -/
structure Sized (t : Asn) (parts : List Asn) : Prop where
  eq : t = .outer 0x30 parts
  least : 256 ≤ (Asn.wrs parts).length
  short : t.Short

theorem Sized.length {t : Asn} {parts : List Asn} (h : Sized t parts) :
    t.wr.length = tl (Asn.wrs parts).length := by rw [h.eq, outer_length]

theorem Sized.signed {t : Asn} {parts : List Asn} (h : Sized t parts) (p : Profile) (sig : Sig) :
    (signedOf p t sig).Short := inherits_short.signed h.short

theorem width_of_le {n : Nat} (h1 : 256 ≤ n) (h2 : tl n ≤ 65539) : sizeWidth n = 3 := by
  rw [sizeWidth_three]
  refine ⟨h1, ?_⟩
  have := tl_bounds n
  by_contra hc
  have : 4 ≤ sizeWidth n := by
    unfold sizeWidth
    rw [if_neg (by omega), if_neg (by omega), if_neg (by omega)]
    split <;> omega
  unfold tl at h2
  omega

/-- A signed payload that was written: its conditions. -/
theorem signRun_iff {cb : SignCb σ} {p : Profile} {t : Asn} {parts : List Asn} {csr : Bool}
    (hs : Sized t parts) {w : Writer} {x : σ} (ho : w.offset = 0)
    {r : Except Err Nat × (Writer × σ)} (h : SignRun cb p t parts csr w x true r) {n : Nat} {x' : σ} :
    (∃ w', r = (.ok n, (w', x'))) ↔ ∃ sig, cb t.written csr x = (.ok sig, x') ∧
      (signedOf p t sig).written.length ≤ w.buf.length ∧
      (signedOf p t sig).written.length ≤ 65539 ∧ n = (signedOf p t sig).written.length := by
  constructor
  · rintro ⟨w', rfl⟩
    cases h with
    | @done _ _ sig h1 h2 h3 h4 h5 =>
      have hl := signed_length p t sig
      have hp := signed_part p t sig
      rw [tl_three h5] at hl
      have h5' := sizeWidth_three.1 h5
      have e1 := Asn.short_written _ (hs.signed p sig) (by omega)
      have e2 := Asn.short_written _ hs.short (by omega)
      have h3 := h3 rfl
      rw [e2] at h1
      rw [e1] at h3 hl
      exact ⟨sig, h1, by omega, by omega, by rw [e1]⟩
  · rintro ⟨sig, h1, h2, h3, rfl⟩
    have e1 := Asn.short_written' (hs.signed p sig) (by omega)
    have hl := signed_length p t sig
    have hp := signed_part p t sig
    have hg := tl_ge (Asn.wrs (signedParts p t sig)).length
    rw [← e1] at h2 h3
    have e2 := Asn.short_written _ hs.short (by omega)
    have hg' := tl_ge (Asn.wrs parts).length
    have hb : sizeWidth (Asn.wrs parts).length = 3 :=
      width_of_le hs.least (by rw [← hs.length]; omega)
    have hl' := hs.length
    have hb' : sizeWidth (Asn.wrs (signedParts p t sig)).length = 3 := by
      refine width_of_le ?_ (by rw [← hl]; omega)
      have := hs.least; omega
    have hl3 := hl
    rw [tl_three hb'] at hl3
    rw [← e2] at h1
    cases h with
    | early h =>
      rcases h with ⟨_, h | h⟩ | ⟨_, h⟩
      · omega
      · exact absurd hb h
      · exact absurd hb h
    | crypto h => rw [h1] at h; cases h
    | late h h' =>
      rw [h1] at h; cases h
      rcases h' with ⟨_, h | h⟩ | ⟨_, h⟩
      · omega
      · exact absurd hb' h
      · exact absurd hb' h
    | done h h' =>
      rw [h1] at h; cases h
      exact ⟨_, by rw [e1]⟩

theorem signRun_buf {cb : SignCb σ} {p : Profile} {t : Asn} {parts : List Asn} {csr : Bool}
    (hs : Sized t parts) {w : Writer} {x : σ} {n : Nat} {w' : Writer} {x' : σ}
    (h : SignRun cb p t parts csr w x true (.ok n, (w', x'))) {sig : Sig}
    (hc : cb t.written csr x = (.ok sig, x')) : Holds w w' (signedOf p t sig).written := by
  cases h with
  | @done _ _ sig' h1 h2 h3 h4 h5 =>
    have hl := signed_length p t sig'
    have hp := signed_part p t sig'
    rw [tl_three h5] at hl
    have h5' := sizeWidth_three.1 h5
    have e1 := Asn.short_written _ (hs.signed p sig') (by omega)
    have e2 := Asn.short_written _ hs.short (by omega)
    rw [e2, hc] at h1
    cases h1
    rw [← e1]
    exact h2.holds

/-! ### The message around a request -/

theorem cms_length (p : Profile) (sid : SignerId) (c : Asn) (sig : Sig) :
    (cmsOf p sid c sig).wr.length = tl (Asn.wrs [idSignedData, .outer 0xA0 [.outer 0x30 (sdParts p sid c sig)]]).length :=
  outer_length _ _

theorem cms_widths {p : Profile} {sid : SignerId} {c : Asn} {sig : Sig} (hc : 256 ≤ c.wr.length)
    (h : (cmsOf p sid c sig).wr.length ≤ 65539) :
    (∀ n ∈ encapLens c, sizeWidth n = 3) ∧ (∀ n ∈ cmsLens p sid c sig, sizeWidth n = 3) ∧
      cmsPre p sid + encapPre + c.wr.length ≤ (cmsOf p sid c sig).wr.length := by
  have l1 : (Asn.outer 0x04 [c]).wr.length = tl c.wr.length := by rw [outer_length, wrs_single]
  have l2 : (Asn.outer 0xA0 [.outer 0x04 [c]]).wr.length = tl (tl c.wr.length) := by
    rw [outer_length, wrs_single, l1]
  have l3 : (Asn.wrs [idData, .outer 0xA0 [.outer 0x04 [c]]]).length =
      idData.wr.length + tl (tl c.wr.length) := by
    rw [wrs_cons, wrs_single, List.length_append, l2]
  have l4 : (encapOf c).wr.length = tl (idData.wr.length + tl (tl c.wr.length)) := by
    rw [encapOf, outer_length, l3]
  have l5 : (Asn.wrs (sdParts p sid c sig)).length = (cmsHead p sid).length +
      ((encapOf c).wr.length + (cmsTail p sid sig).wr.length) := by
    have : Asn.wrs (sdParts p sid c sig) =
        cmsHead p sid ++ ((encapOf c).wr ++ (cmsTail p sid sig).wr) := by
      simp [sdParts, wrs_cons, wrs_nil, cmsHead, cmsTail, encapOf]
    rw [this, List.length_append, List.length_append]
  have l6 : (Asn.outer 0x30 (sdParts p sid c sig)).wr.length = tl (Asn.wrs (sdParts p sid c sig)).length :=
    outer_length _ _
  have l7 : (Asn.wrs [idSignedData, .outer 0xA0 [.outer 0x30 (sdParts p sid c sig)]]).length =
      idSignedData.wr.length + tl (tl (Asn.wrs (sdParts p sid c sig)).length) := by
    rw [wrs_cons, wrs_single, List.length_append, outer_length, wrs_single, l6]
  have l8 := cms_length p sid c sig
  rw [l7] at l8
  have hw := cmsOf_wr p sid c sig
  have hw' := encapOf_wr c
  have hm : encapMid.length = idData.wr.length + 1 := by simp [encapMid]
  have hm' : cmsMid.length = idSignedData.wr.length + 1 := by simp [cmsMid]
  have g1 := tl_ge c.wr.length
  have g2 := tl_ge (tl c.wr.length)
  have g3 := tl_ge (idData.wr.length + tl (tl c.wr.length))
  have g4 := tl_ge (Asn.wrs (sdParts p sid c sig)).length
  have g5 := tl_ge (tl (Asn.wrs (sdParts p sid c sig)).length)
  have g6 := tl_ge (idSignedData.wr.length + tl (tl (Asn.wrs (sdParts p sid c sig)).length))
  have w1 : ∀ n, 256 ≤ n → n + 2 ≤ (cmsOf p sid c sig).wr.length → tl n ≤ (cmsOf p sid c sig).wr.length →
      sizeWidth n = 3 := fun n h1 _ h3 => width_of_le h1 (by omega)
  have a1 : sizeWidth c.wr.length = 3 := w1 _ hc (by omega) (by omega)
  have a2 : sizeWidth (tl c.wr.length) = 3 := w1 _ (by omega) (by omega) (by omega)
  have a3 : sizeWidth (idData.wr.length + tl (tl c.wr.length)) = 3 :=
    w1 _ (by omega) (by omega) (by omega)
  have a4 : sizeWidth (Asn.wrs (sdParts p sid c sig)).length = 3 := w1 _ (by omega) (by omega) (by omega)
  have a5 : sizeWidth (tl (Asn.wrs (sdParts p sid c sig)).length) = 3 :=
    w1 _ (by omega) (by omega) (by omega)
  have a6 : sizeWidth (idSignedData.wr.length + tl (tl (Asn.wrs (sdParts p sid c sig)).length)) = 3 :=
    w1 _ (by omega) (by omega) (by omega)
  refine ⟨?_, ?_, ?_⟩
  · intro n hn
    simp only [encapLens, List.mem_cons, List.not_mem_nil, or_false] at hn
    rcases hn with rfl | rfl | rfl
    · rw [l3]; exact a3
    · rw [l1]; exact a2
    · exact a1
  · intro n hn
    simp only [cmsLens, List.mem_cons, List.not_mem_nil, or_false] at hn
    rcases hn with rfl | rfl | rfl
    · rw [l7]; exact a6
    · rw [l6]; exact a5
    · exact a4
  · rw [cmsPre, encapPre, hm, hm', l8, tl_three a6, tl_three a5, tl_three a4, l5, l4, tl_three a3,
      tl_three a2, tl_three a1]
    omega

theorem Sized.cms {t : Asn} {parts : List Asn} (h : Sized t parts) (p : Profile) (sid : SignerId)
    (sig sig' : Sig) : (cmsOf p sid (signedOf p t sig) sig').Short :=
  inherits_short.cms (h.signed p sig)

theorem cms_contains (p : Profile) (sid : SignerId) (c : Asn) (sig : Sig) :
    c.wr.length ≤ (cmsOf p sid c sig).wr.length := by
  rw [cmsOf_wr]
  simp only [List.length_append, encapOf_wr]
  omega

/-- A signed request that was written: its conditions. -/
theorem cmsRun_iff {cb : SignCb σ} {p : Profile} {sid : SignerId} {t : Asn} {parts : List Asn}
    (hs : Sized t parts) {w : Writer} {x : σ} (ho : w.offset = 0)
    {r : Except Err Nat × (Writer × σ)} (h : CmsRun cb p sid t parts w x r) {n : Nat} {x'' : σ} :
    (∃ w', r = (.ok n, (w', x''))) ↔ ∃ sig x' sig', cb t.written true x = (.ok sig, x') ∧
      cb (signedOf p t sig).written false x' = (.ok sig', x'') ∧
      (cmsOf p sid (signedOf p t sig) sig').written.length ≤ w.buf.length ∧
      (cmsOf p sid (signedOf p t sig) sig').written.length ≤ 65539 ∧
      n = (cmsOf p sid (signedOf p t sig) sig').written.length := by
  constructor
  · rintro ⟨w', rfl⟩
    cases h with
    | @done _ x' _ sig sig' h1 h2 h3 h4 h5 h6 h7 =>
      have k0 := h7 _ (by rw [cmsLens]; exact List.mem_cons_self)
      have l0 := cms_length p sid (signedOf p t sig) sig'
      rw [tl_three k0] at l0
      have k0 := sizeWidth_three.1 k0
      have hc := cms_contains p sid (signedOf p t sig) sig'
      have hl := signed_length p t sig
      have hp := signed_part p t sig
      have hg := tl_ge (Asn.wrs (signedParts p t sig)).length
      have e0 := Asn.short_written _ (hs.cms p sid sig sig') (by omega)
      have e1 := Asn.short_written _ (hs.signed p sig) (by omega)
      have e2 := Asn.short_written _ hs.short (by omega)
      rw [e2] at h1
      rw [e1] at h2
      rw [e0] at h4 l0
      exact ⟨sig, x', sig', h1, h2, by omega, by omega, by rw [e0]⟩
  · rintro ⟨sig, x', sig', h1, h1', h2, h3, rfl⟩
    have e0 := Asn.short_written' (hs.cms p sid sig sig') (by omega)
    rw [← e0] at h2 h3
    have hc := cms_contains p sid (signedOf p t sig) sig'
    have hl := signed_length p t sig
    have hp := signed_part p t sig
    have hg := tl_ge (Asn.wrs (signedParts p t sig)).length
    have e1 := Asn.short_written _ (hs.signed p sig) (by omega)
    have e2 := Asn.short_written _ hs.short (by omega)
    have hg' := tl_ge (Asn.wrs parts).length
    have hl' := hs.length
    have hle := hs.least
    have hb : sizeWidth (Asn.wrs parts).length = 3 :=
      width_of_le hs.least (by rw [← hs.length]; omega)
    have hb' : sizeWidth (Asn.wrs (signedParts p t sig)).length = 3 :=
      width_of_le (by omega) (by rw [← hl]; omega)
    rw [tl_three hb'] at hl
    obtain ⟨c1, c2, c3⟩ := cms_widths (p := p) (sid := sid) (c := signedOf p t sig) (sig := sig')
      (by omega) h3
    have c1' : ∀ n ∈ (Asn.wrs (signedParts p t sig)).length :: encapLens (signedOf p t sig),
        sizeWidth n = 3 := by
      intro n hn
      rw [List.mem_cons] at hn
      rcases hn with rfl | hn
      · exact hb'
      · exact c1 n hn
    rw [← e2] at h1
    rw [← e1] at h1'
    cases h with
    | early h =>
      rcases h with ⟨_, h | h⟩ | ⟨_, h⟩
      · omega
      · exact absurd hb h
      · exact absurd hb h
    | crypto h => rw [h1] at h; cases h
    | mid h h' =>
      rw [h1] at h; cases h
      rcases h' with ⟨_, h | h⟩ | ⟨_, h⟩
      · omega
      · exact absurd c1' h
      · exact absurd c1' h
    | crypto2 h h' =>
      rw [h1] at h; cases h
      rw [h1'] at h'; cases h'
    | late h h' h'' =>
      rw [h1] at h; cases h
      rw [h1'] at h'; cases h'
      rcases h'' with ⟨_, h | h⟩ | ⟨_, h⟩
      · omega
      · exact absurd c2 h
      · exact absurd c2 h
    | done h h' =>
      rw [h1] at h; cases h
      rw [h1'] at h'; cases h'
      exact ⟨_, by rw [e0]⟩

theorem cmsRun_buf {cb : SignCb σ} {p : Profile} {sid : SignerId} {t : Asn} {parts : List Asn}
    (hs : Sized t parts) {w : Writer} {x : σ} {n : Nat} {w' : Writer} {x' x'' : σ}
    (h : CmsRun cb p sid t parts w x (.ok n, (w', x''))) {sig sig' : Sig}
    (hc : cb t.written true x = (.ok sig, x'))
    (hc' : cb (signedOf p t sig).written false x' = (.ok sig', x'')) :
    Holds w w' (cmsOf p sid (signedOf p t sig) sig').written := by
  cases h with
  | @done _ x1 _ s1 s2 h1 h2 h3 h4 h5 h6 h7 =>
    have k0 := h7 _ (by rw [cmsLens]; exact List.mem_cons_self)
    have l0 := cms_length p sid (signedOf p t s1) s2
    rw [tl_three k0] at l0
    have k0 := sizeWidth_three.1 k0
    have hcc := cms_contains p sid (signedOf p t s1) s2
    have hl := signed_length p t s1
    have hp := signed_part p t s1
    have hg := tl_ge (Asn.wrs (signedParts p t s1)).length
    have e0 := Asn.short_written _ (hs.cms p sid s1 s2) (by omega)
    have e1 := Asn.short_written _ (hs.signed p s1) (by omega)
    have e2 := Asn.short_written _ hs.short (by omega)
    rw [e2, hc] at h1
    cases h1
    rw [e1, hc'] at h2
    cases h2
    rw [← e0]
    exact h3

end
end Dpe

namespace Dpe
section
variable {cfg : Cfg} {σ : Type} {ops : Ops σ} {st : State cfg}

theorem mldsaKey_eq (k : PubKey) : k.isMldsa = mldsaKey k := by cases k <;> rfl

theorem exported_eq (kind : CertKind) : kind.exported = decide (kind = .exportedX509) := by
  cases kind <;> rfl

theorem recursiveBit_eq (st : State cfg) :
    recursiveBit st.support = decide (st.supports Feature.recursive) := by
  unfold State.supports
  exact (bit_eq st.support Feature.recursive).symm

/-- The data that `createCert` hands to the writer. -/
def Draft.data (D : Draft) (kind : CertKind) (a : CertArgs) (st : State cfg) (issuer : Bytes) :
    CertData cfg :=
  { serial := [], issuer := issuer,
    subject := ⟨.printable (if kind.exported then ascii "DPE Exported CDI" else ascii "DPE Leaf"),
      .printable (serialText D.nameHash)⟩,
    pubKey := D.key,
    meas := measData st D.slot kind.exported a (D.idHash.take 20) D.issuerKeyId D.altName,
    validity := D.validity }

theorem Draft.data_subject (D : Draft) (kind : CertKind) (a : CertArgs) (st : State cfg)
    (issuer serial : Bytes) :
    CertData.subjectOf { D.data kind a st issuer with serial := serial } a.critDice
      (D.path.reverse.map st.at)
      (if kind.exported then ascii "DPE Exported CDI" else ascii "DPE Leaf") (serialText D.nameHash) =
      D.subject kind a st := by
  unfold CertData.subjectOf Draft.subject Draft.data MeasData.attested measData
  simp only [List.map_map, recursiveBit_eq, exported_eq]
  cases kind <;> simp

theorem sized_payload {D : Draft} {kind : CertKind} {a : CertArgs} (hp : Path st D.slot D.path)
    (hk : keyFits cfg.profile D.key) (issuer serial : Bytes) (csr : Bool) :
    Sized (payload cfg.profile a.critDice { D.data kind a st issuer with serial := serial }
        (D.path.reverse.map st.at)
        (if kind.exported then ascii "DPE Exported CDI" else ascii "DPE Leaf")
        (serialText D.nameHash) csr)
      (payloadParts cfg.profile a.critDice { D.data kind a st issuer with serial := serial }
        (D.path.reverse.map st.at)
        (if kind.exported then ascii "DPE Exported CDI" else ascii "DPE Leaf")
        (serialText D.nameHash) csr) := by
  have hcn : 8 ≤ (if kind.exported then ascii "DPE Exported CDI" else ascii "DPE Leaf").length := by
    cases kind <;> decide
  have hl : (D.path.reverse.map st.at).length ≤ 64 := by
    have := hp.length_le
    have := cfg.le64
    rw [List.length_map, List.length_reverse]; omega
  refine ⟨payload_eq .., ?_, ?_⟩
  · unfold payloadParts
    cases csr
    · exact least_tbs (s := CertData.subjectOf _ _ _ _ _) hk hcn (serialText_length _)
    · exact least_cri (s := CertData.subjectOf _ _ _ _ _) hk hcn (serialText_length _)
  · unfold payload
    have hm : (multiTcbInfo cfg.profile (CertData.subjectOf
        { D.data kind a st issuer with serial := serial } a.critDice (D.path.reverse.map st.at)
        (if kind.exported then ascii "DPE Exported CDI" else ascii "DPE Leaf")
        (serialText D.nameHash)).attested).Short :=
      short_multiTcb (by simpa [CertData.subjectOf, MeasData.attested] using hl)
    cases csr
    · exact inherits_short.tbs hm
    · exact inherits_short.info hm

theorem signCb_derived {a : CertArgs} {digest data : Bytes} {h : Option (BArr 32)} {x x' : σ}
    {sig : Sig} : signCb ops a digest false h data true x = (.ok sig, x') ↔
      ∃ cdi w1 key w2, ops.deriveCdi digest a.cdiLabel x = (.ok cdi, w1) ∧
        ops.deriveKeyPair cdi a.keyLabel a.context w1 = (.ok key, w2) ∧
        ops.sign key (.buffer data) w2 = (.ok sig, x') := by
  unfold signCb thenCall
  simp only [if_true, Bool.false_eq_true, if_false]
  rcases h1 : ops.deriveCdi digest a.cdiLabel x with ⟨e | cdi, w1⟩
  · simp only
    constructor
    · intro h; cases h
    · rintro ⟨_, _, _, _, h, _⟩; cases h
  · simp only
    rcases h2 : ops.deriveKeyPair cdi a.keyLabel a.context w1 with ⟨e | key, w2⟩
    · simp only
      constructor
      · intro h; cases h
      · rintro ⟨_, _, _, _, h, h', _⟩; cases h; rw [h2] at h'; cases h'
    · simp only
      constructor
      · intro h; exact ⟨cdi, w1, key, w2, rfl, h2, h⟩
      · rintro ⟨_, _, _, _, h, h', h''⟩
        cases h; rw [h2] at h'; cases h'; exact h''

/-- The last stage: the tree is written. -/
theorem finishCert_iff {D : Draft} {kind : CertKind} {a : CertArgs} (wf : Links st)
    (hp : Path st D.slot D.path) (hk : keyFits cfg.profile D.key)
    (hi : ∀ i, D.signer ≠ .issuerAndSerial i []) {w : σ} {win : Bytes} {n : U32} {s' : Sys cfg σ} :
    finishCert ops (signCb ops a D.digest kind.exported D.exportedCdi) kind a.critDice
        (D.data kind a st []) D.signer ⟨st, w, win⟩ = (.ok n, s') ↔
      ∃ t w', Issued ops a st D kind w t w' ∧ t.written.length ≤ win.length ∧
        t.written.length ≤ 65539 ∧ n = BitVec.ofNat 32 t.written.length ∧
        s' = ⟨st, w', placed t.written win⟩ := by
  have hch : ∀ issuer serial, ChainOf ({ D.data kind a st issuer with serial := serial } : CertData cfg).meas
      (D.path.reverse.map st.at) := fun _ _ => chainOf_path wf hp rfl rfl
  by_cases hkind : kind = .leafCsr
  · subst hkind
    unfold finishCert
    rw [if_pos rfl]
    unfold generate
    simp only
    have hsz := sized_payload (kind := .leafCsr) (a := a) hp hk [] [] true
    have hrun := encCms_run (cb := signCb ops a D.digest CertKind.leafCsr.exported D.exportedCdi)
      (p := cfg.profile) (crit := a.critDice) (d := D.data .leafCsr a st []) (sid := D.signer)
      (hch [] []) hk hi rfl (Writer.new win) w rfl rfl
    have hpl : payload cfg.profile a.critDice (D.data .leafCsr a st [])
        (D.path.reverse.map st.at)
        (if CertKind.leafCsr.exported then ascii "DPE Exported CDI" else ascii "DPE Leaf")
        (serialText D.nameHash) true = D.info a st := by
      unfold payload Draft.info
      rw [if_pos rfl]
      exact congrArg _ (D.data_subject .leafCsr a st [] [])
    change Sized (payload cfg.profile a.critDice (D.data .leafCsr a st []) _ _ _ true)
      (payloadParts cfg.profile a.critDice (D.data .leafCsr a st []) _ _ _ true) at hsz
    change CmsRun _ _ _ (payload cfg.profile a.critDice (D.data .leafCsr a st []) _
      (if CertKind.leafCsr.exported then ascii "DPE Exported CDI" else ascii "DPE Leaf") _ true)
      (payloadParts cfg.profile a.critDice (D.data .leafCsr a st []) _
      (if CertKind.leafCsr.exported then ascii "DPE Exported CDI" else ascii "DPE Leaf") _ true) _ _ _ at hrun
    rw [hpl] at hsz hrun
    rw [bind_ok_iff]
    constructor
    · rintro ⟨m, s1, h1, h2⟩
      obtain ⟨w', x', h3, rfl⟩ := runWriter_iff.1 h1
      have hrun' := hrun
      change CmsRun _ _ _ _ _ _ _ (encCms _ _ _ _ _ (Writer.new win, w)) at hrun'
      rw [h3] at hrun'
      obtain ⟨sig, x1, sig', c1, c2, c3, c4, rfl⟩ := (cmsRun_iff hsz rfl hrun').1 ⟨w', rfl⟩
      have hb := cmsRun_buf hsz hrun' c1 c2
      obtain ⟨cdi, w1, key, w2, d1, d2, d3⟩ := signCb_derived.1 c1
      refine ⟨_, x', .request d1 d2 d3 c2, c3, c4, ?_, ?_⟩
      · obtain ⟨_, ⟨h4, _⟩, _⟩ := (OkIs.lift _ _ _ _).1 h2
        exact (toU32_iff (Nat.lt_of_le_of_lt c4 (by decide))).1 h4
      · obtain ⟨_, ⟨_, rfl⟩, rfl⟩ := (OkIs.lift _ _ _ _).1 h2
        simp only
        rw [holds_placed hb c3]
        rfl
    · rintro ⟨t, x', hI, h1, h2, rfl, rfl⟩
      cases hI with
      | certificate h => exact absurd rfl h
      | @request cdi key sig sig' _ w1 w2 w3 _ d1 d2 d3 d4 =>
        have c1 : signCb ops a D.digest CertKind.leafCsr.exported D.exportedCdi (D.info a st).written
            true w = (.ok sig, w3) := signCb_derived.2 ⟨cdi, w1, key, w2, d1, d2, d3⟩
        obtain ⟨w', h3⟩ := (cmsRun_iff hsz rfl hrun (x'' := x')).2 ⟨sig, w3, sig', c1, d4, h1, h2, rfl⟩
        rw [h3] at hrun
        have hb := cmsRun_buf hsz hrun c1 d4
        refine ⟨_, _, runWriter_iff.2 ⟨w', x', h3, rfl⟩, (OkIs.lift _ _ _ _).2 ⟨_,
          ⟨(toU32_iff (Nat.lt_of_le_of_lt h2 (by decide))).2 rfl, rfl⟩, ?_⟩⟩
        simp only
        rw [holds_placed hb h1]
        rfl
  · unfold finishCert
    rw [if_neg hkind]
    unfold getIssuer generate
    have hsn : (serialText D.nameHash).length = 64 := serialText_length _
    have hrunI : ∀ issuer (w : σ),
        SignRun (signCb ops a D.digest kind.exported D.exportedCdi) cfg.profile
          (D.tbs kind a st issuer)
          (payloadParts cfg.profile a.critDice { D.data kind a st issuer with
              serial := (serialText D.nameHash).take 20 } (D.path.reverse.map st.at)
            (if kind.exported then ascii "DPE Exported CDI" else ascii "DPE Leaf")
            (serialText D.nameHash) false) false (Writer.new win) w true
          (encCertOrCsr (signCb ops a D.digest kind.exported D.exportedCdi) cfg.profile a.critDice
            { D.data kind a st issuer with serial := (serialText D.nameHash).take 20 } false
            (Writer.new win, w)) := by
      intro issuer w
      have h := encCertOrCsr_run (cb := signCb ops a D.digest kind.exported D.exportedCdi)
        (p := cfg.profile) (crit := a.critDice)
        (d := { D.data kind a st issuer with serial := (serialText D.nameHash).take 20 }) (csr := false)
        (hch issuer _) hk (fun _ h => by
          have := congrArg List.length h
          simp [hsn] at this) rfl (Writer.new win) w rfl (by simp [Writer.new])
      have e : payload cfg.profile a.critDice { D.data kind a st issuer with
          serial := (serialText D.nameHash).take 20 } (D.path.reverse.map st.at)
          (if kind.exported then ascii "DPE Exported CDI" else ascii "DPE Leaf")
          (serialText D.nameHash) false = D.tbs kind a st issuer := by
        unfold payload Draft.tbs
        rw [if_neg (by decide), D.data_subject]
        rfl
      rw [e] at h
      exact h
    have hszI : ∀ issuer, Sized (D.tbs kind a st issuer)
        (payloadParts cfg.profile a.critDice { D.data kind a st issuer with
              serial := (serialText D.nameHash).take 20 } (D.path.reverse.map st.at)
            (if kind.exported then ascii "DPE Exported CDI" else ascii "DPE Leaf")
            (serialText D.nameHash) false) := by
      intro issuer
      have h := sized_payload (kind := kind) (a := a) hp hk issuer ((serialText D.nameHash).take 20) false
      have e : payload cfg.profile a.critDice { D.data kind a st issuer with
          serial := (serialText D.nameHash).take 20 } (D.path.reverse.map st.at)
          (if kind.exported then ascii "DPE Exported CDI" else ascii "DPE Leaf")
          (serialText D.nameHash) false = D.tbs kind a st issuer := by
        unfold payload Draft.tbs
        rw [if_neg (by decide), D.data_subject]
        rfl
      rw [e] at h
      exact h
    have hiss : OkIs (do
        let r ← M.platform ops.issuerName
        M.failIf (decide (r.1 > 128)) (.internal .issuerNameTooLong)
        pure (r.2.toList.take r.1) : M cfg σ Bytes) fun _ w b w' =>
        ∃ k name, ops.issuerName w = (.ok (k, name), w') ∧ k ≤ 128 ∧ b = name.toList.take k := by
      refine OkIs.congr (OkIs.bind (OkIs.platform _) fun _ => OkIs.bind (OkIs.failIf _ _) fun _ =>
        OkIs.pure _) fun _ w b w' => ?_
      constructor
      · rintro ⟨⟨k, name⟩, _, h1, _, _, ⟨h2, rfl⟩, rfl, rfl⟩
        exact ⟨k, name, h1, Nat.not_lt.1 (of_decide_eq_false h2), rfl⟩
      · rintro ⟨k, name, h1, h2, rfl⟩
        exact ⟨(k, name), w', h1, (), w', ⟨decide_eq_false (Nat.not_lt.2 h2), rfl⟩, rfl, rfl⟩
    rw [hiss.then]
    simp only
    constructor
    · rintro ⟨b, w1, ⟨k, name, h1, h2, rfl⟩, h3⟩
      rw [(OkIs.failIf _ _).then] at h3
      obtain ⟨_, w2, ⟨_, e2⟩, h3⟩ := h3
      subst e2
      obtain ⟨m, s1, h4, h5⟩ := bind_ok_iff.1 h3
      obtain ⟨w', x', h6, rfl⟩ := runWriter_iff.1 h4
      have hrun := hrunI (name.toList.take k) w2
      have h6' : encCertOrCsr (signCb ops a D.digest kind.exported D.exportedCdi) cfg.profile a.critDice
            { D.data kind a st (name.toList.take k) with serial := (serialText D.nameHash).take 20 } false
            (Writer.new win, w2) = (.ok m, (w', x')) := h6
      rw [h6'] at hrun
      obtain ⟨sig, c1, c3, c4, rfl⟩ := (signRun_iff (hszI _) rfl hrun).1 ⟨w', rfl⟩
      have hb := signRun_buf (hszI _) hrun c1
      refine ⟨_, x', .certificate hkind h1 h2 c1, c3, c4, ?_, ?_⟩
      · obtain ⟨_, ⟨h4, _⟩, _⟩ := (OkIs.lift _ _ _ _).1 h5
        exact (toU32_iff (Nat.lt_of_le_of_lt c4 (by decide))).1 h4
      · obtain ⟨_, ⟨_, rfl⟩, rfl⟩ := (OkIs.lift _ _ _ _).1 h5
        simp only
        rw [holds_placed hb c3]
        rfl
    · rintro ⟨t, x', hI, h1, h2, rfl, rfl⟩
      cases hI with
      | request => exact absurd rfl hkind
      | @certificate _ k name sig _ w1 _ hne d1 d2 d3 =>
        refine ⟨_, w1, ⟨k, name, d1, d2, rfl⟩, ?_⟩
        rw [(OkIs.failIf _ _).then]
        refine ⟨(), w1, ⟨decide_eq_false ?_, rfl⟩, ?_⟩
        · show ¬ (serialText D.nameHash).length < 20
          omega
        have hrun := hrunI (name.toList.take k) w1
        obtain ⟨w', h3⟩ := (signRun_iff (hszI _) rfl hrun (x' := x')).2 ⟨sig, d3, h1, h2, rfl⟩
        rw [h3] at hrun
        have hb := signRun_buf (hszI _) hrun d3
        refine bind_ok_iff.2 ⟨_, _, runWriter_iff.2 ⟨w', x', h3, rfl⟩, (OkIs.lift _ _ _ _).2 ⟨_,
          ⟨(toU32_iff (Nat.lt_of_le_of_lt h2 (by decide))).2 rfl, rfl⟩, ?_⟩⟩
        simp only
        rw [holds_placed hb h1]
        rfl

/-- The exact outcome of a successful `createCert`. -/
theorem createCert_iff {kind : CertKind} {a : CertArgs} (wf : Links st) (hfit : AlgorithmFits cfg ops)
    (hser : SerialGiven ops) {w : σ} {win : Bytes} {r : CertResult} {s' : Sys cfg σ} :
    createCert ops kind a ⟨st, w, win⟩ = (.ok r, s') ↔
      ∃ D w1 t w', Drafted ops kind a st w D w1 ∧ Issued ops a st D kind w1 t w' ∧
        t.written.length ≤ win.length ∧ t.written.length ≤ 65539 ∧
        r = ⟨BitVec.ofNat 32 t.written.length, D.key, D.exportedCdi.getD (Vector.replicate 32 0)⟩ ∧
        s' = ⟨st, w', placed t.written win⟩ := by
  have key : ∀ {D : Draft} {key w1 w2 w3}, KeyPair ops kind a D.digest w1 key D.exportedCdi w2 →
      ops.publicKey key w2 = (.ok D.key, w3) → mldsaKey D.key = ops.sigAlgMldsa →
      keyFits cfg.profile D.key := by
    intro D key w1 w2 w3 _ _ h
    unfold keyFits
    rw [mldsaKey_eq, h]
    exact hfit
  have tail : ∀ {D : Draft} {k : Option (BArr 32)} {n : U32} {s1 s2 : Sys cfg σ} {key w1 w2},
      KeyPair ops kind a D.digest w1 key D.exportedCdi w2 →
      ((if kind.exported then do
          let h ← M.okOr D.exportedCdi (.internal .missingExportedCdiHandle)
          pure { certSize := n, pubKey := D.key, exportedCdi := h }
        else pure { certSize := n, pubKey := D.key, exportedCdi := Vector.replicate 32 0 } :
        M cfg σ CertResult) s1 = (.ok r, s2) ↔
        r = ⟨n, D.key, D.exportedCdi.getD (Vector.replicate 32 0)⟩ ∧ s2 = s1) := by
    intro D k n s1 s2 key w1 w2 h
    have aux : ∀ (b : CertResult), ((pure b : M cfg σ CertResult) s1 = (.ok r, s2)) ↔
        (r = b ∧ s2 = s1) := by
      intro b
      constructor
      · intro h; cases h; exact ⟨rfl, rfl⟩
      · rintro ⟨rfl, rfl⟩; rfl
    cases kind with
    | exportedX509 =>
      obtain ⟨hd, _, h1, _⟩ := h
      rw [h1]
      exact aux ⟨n, D.key, hd⟩
    | leafX509 =>
      obtain ⟨_, _, h1, _⟩ := h
      rw [h1]
      exact aux ⟨n, D.key, Vector.replicate 32 0⟩
    | leafCsr =>
      obtain ⟨_, _, h1, _⟩ := h
      rw [h1]
      exact aux ⟨n, D.key, Vector.replicate 32 0⟩
  unfold createCert
  rw [OkIs.get.then]
  constructor
  · rintro ⟨st1, w1, ⟨e1, e2⟩, h⟩
    subst e1 e2
    rw [(OkIs.lift _).then] at h
    obtain ⟨i, w1, ⟨h1, e⟩, h⟩ := h
    subst e
    have hr := findActive_iff.1 h1
    obtain ⟨l, hp⟩ := wf.path i (live_of_active hr.1.1)
    obtain ⟨digest, s1, h2, h⟩ := bind_ok_iff.1 h
    obtain ⟨w1, hm, rfl⟩ := (measured_iff hp).1 h2
    rw [(okIs_certKey _ _ _).then] at h
    obtain ⟨⟨k, hd⟩, w3, ⟨pk, w2, h3, h4⟩, h⟩ := h
    rw [(okIs_subjectName _ _).then] at h
    obtain ⟨nm, w4, ⟨h5, h6, nh, h7, h8, rfl⟩, h⟩ := h
    rw [(okIs_subjectKeyId _).then] at h
    obtain ⟨ski, w5, ⟨ih, h9, h10, rfl⟩, h⟩ := h
    rw [(OkIs.platform _).then] at h
    obtain ⟨aki, w6, h11, h⟩ := h
    rw [okIs_altName.then] at h
    obtain ⟨alt, w7, h12, h⟩ := h
    rw [OkIs.get.then] at h
    obtain ⟨st2, _, ⟨e1, e2⟩, h⟩ := h
    subst e1 e2
    rw [(OkIs.lift _).then] at h
    obtain ⟨i', _, ⟨h13, e⟩, h⟩ := h
    subst e
    rw [h1] at h13
    cases h13
    rw [(OkIs.lift _).then] at h
    obtain ⟨_, _, ⟨_, e⟩, h⟩ := h
    subst e
    rw [(OkIs.platform _).then] at h
    obtain ⟨val, w8, h14, h⟩ := h
    rw [(OkIs.platform _).then] at h
    obtain ⟨sid, w9, h15, h⟩ := h
    obtain ⟨n, s9, h16, h⟩ := bind_ok_iff.1 h
    simp only at h3 h4 h6 h7 h9 h11 h12 h14 h15 h16
    rw [mldsaKey_eq] at h6
    let D : Draft := ⟨i, l, digest, k, hd, nh, ih, aki, alt, val, sid⟩
    have h3' : KeyPair ops kind a D.digest w1 pk D.exportedCdi w2 := h3
    have h15' : ops.signerId w8 = (.ok D.signer, w9) := h15
    obtain ⟨t, w', hI, h17, h18, rfl, rfl⟩ := (finishCert_iff (D := D) wf hp (key (D := D) h3' h4 h6)
      (fun j e => hser _ j _ (e ▸ h15'))).1 h16
    obtain ⟨rfl, rfl⟩ := (tail (D := D) (k := none) h3').1 h
    exact ⟨D, w9, t, w', ⟨pk, w1, w2, w3, w4, w5, w6, _, w8, hr, hp, hm, h3, h4, h6, h5, h7, h8, h9,
      h10, h11, h12, h14, h15⟩, hI, h17, h18, rfl, rfl⟩
  · rintro ⟨D, w9, t, w', ⟨pk, w1, w2, w3, w4, w5, w6, w7, w8, hr, hp, h2, h3, h4, h6, h5, h7, h8, h9,
      h10, h11, h12, h14, h15⟩, hI, h17, h18, rfl, rfl⟩
    have h1 := findActive_iff.2 hr
    refine ⟨st, w, ⟨rfl, rfl⟩, (OkIs.lift _).then.2 ⟨D.slot, w, ⟨h1, rfl⟩, bind_ok_iff.2 ⟨D.digest, _,
      (measured_iff hp).2 ⟨w1, h2, rfl⟩, (okIs_certKey _ _ _).then.2 ⟨(D.key, D.exportedCdi), w3,
      ⟨pk, w2, h3, h4⟩, (okIs_subjectName _ _).then.2 ⟨_, w4, ⟨h5, by rw [mldsaKey_eq]; exact h6,
        D.nameHash, h7, h8, rfl⟩, (okIs_subjectKeyId _).then.2 ⟨_, w5, ⟨D.idHash, h9, h10, rfl⟩,
      (OkIs.platform _).then.2 ⟨D.issuerKeyId, w6, h11, okIs_altName.then.2 ⟨D.altName, w7, h12,
      OkIs.get.then.2 ⟨st, w7, ⟨rfl, rfl⟩, (OkIs.lift _).then.2 ⟨D.slot, w7, ⟨h1, rfl⟩,
      (OkIs.lift _).then.2 ⟨(), w7, ⟨tciNodesNew_path hp, rfl⟩, (OkIs.platform _).then.2 ⟨D.validity, w8,
        h14, (OkIs.platform _).then.2 ⟨D.signer, w9, h15, bind_ok_iff.2 ⟨_, _,
        (finishCert_iff (D := D) wf hp (key h3 h4 h6) (fun j e => hser _ j _ (e ▸ h15))).2
          ⟨t, w', hI, h17, h18, rfl, rfl⟩, (tail (k := none) h3).2 ⟨rfl, rfl⟩⟩⟩⟩⟩⟩⟩⟩⟩⟩⟩⟩⟩⟩⟩

end
end Dpe
