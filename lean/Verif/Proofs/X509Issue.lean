import Verif.Spec.Issue
import Verif.Proofs.X509Tree
import Verif.Proofs.X509Chain
import Verif.Proofs.Reach
import Verif.Proofs.Vocab
import Verif.Proofs.Run
/-
Success of `createCert`, first part: the calls that gather the ingredients.
-/
namespace Dpe
section
variable {cfg : Cfg} {σ α β : Type} {ops : Ops σ} {st : State cfg}

/-- `x` succeeds exactly as `P` says, and only touches the hidden world. -/
def OkIs (x : M cfg σ α) (P : State cfg → σ → α → σ → Prop) : Prop :=
  ∀ s a s', x s = (.ok a, s') ↔ ∃ w', P s.st s.w a w' ∧ s' = { s with w := w' }

theorem bind_ok_iff {x : M cfg σ α} {f : α → M cfg σ β} {s s' : Sys cfg σ} {b : β} :
    (x >>= f) s = (.ok b, s') ↔ ∃ a s1, x s = (.ok a, s1) ∧ f a s1 = (.ok b, s') := by
  rw [run_bind]
  rcases x s with ⟨e | a, s1⟩
  · constructor
    · intro h; cases h
    · rintro ⟨a, s1, h, _⟩; cases h
  · constructor
    · intro h; exact ⟨a, s1, rfl, h⟩
    · rintro ⟨a', s1', h, h'⟩; cases h; exact h'

theorem OkIs.then {x : M cfg σ α} {P : State cfg → σ → α → σ → Prop} (h : OkIs x P)
    {f : α → M cfg σ β} {s s' : Sys cfg σ} {b : β} :
    (x >>= f) s = (.ok b, s') ↔
      ∃ a w', P s.st s.w a w' ∧ f a { s with w := w' } = (.ok b, s') := by
  rw [bind_ok_iff]
  constructor
  · rintro ⟨a, s1, h1, h2⟩
    obtain ⟨w', h3, rfl⟩ := (h _ _ _).1 h1
    exact ⟨a, w', h3, h2⟩
  · rintro ⟨a, w', h1, h2⟩
    exact ⟨a, _, (h _ _ _).2 ⟨w', h1, rfl⟩, h2⟩

theorem OkIs.bind {x : M cfg σ α} {P : State cfg → σ → α → σ → Prop} (h : OkIs x P)
    {f : α → M cfg σ β} {Q : α → State cfg → σ → β → σ → Prop} (hf : ∀ a, OkIs (f a) (Q a)) :
    OkIs (x >>= f) fun st w b w' => ∃ a w1, P st w a w1 ∧ Q a st w1 b w' := by
  intro s b s'
  rw [h.then]
  constructor
  · rintro ⟨a, w1, h1, h2⟩
    obtain ⟨w', h3, e⟩ := (hf a _ _ _).1 h2
    exact ⟨w', ⟨a, w1, h1, h3⟩, e⟩
  · rintro ⟨w', ⟨a, w1, h1, h3⟩, e⟩
    exact ⟨a, w1, h1, (hf a _ _ _).2 ⟨w', h3, e⟩⟩

theorem OkIs.congr {x : M cfg σ α} {P Q : State cfg → σ → α → σ → Prop} (h : OkIs x P)
    (hp : ∀ st w a w', P st w a w' ↔ Q st w a w') : OkIs x Q := by
  intro s a s'
  rw [h s a s']
  exact exists_congr fun w' => by rw [hp]

theorem OkIs.pure (a : α) : OkIs (pure a : M cfg σ α) fun _ w b w' => b = a ∧ w' = w := by
  intro s b s'
  constructor
  · intro h; cases h; exact ⟨s.w, ⟨rfl, rfl⟩, rfl⟩
  · rintro ⟨w', ⟨rfl, rfl⟩, rfl⟩; rfl

theorem OkIs.lift (x : Except Err α) :
    OkIs (M.lift x : M cfg σ α) fun _ w b w' => x = .ok b ∧ w' = w := by
  intro s b s'
  unfold M.lift
  constructor
  · intro h; cases h; exact ⟨s.w, ⟨rfl, rfl⟩, rfl⟩
  · rintro ⟨w', ⟨rfl, rfl⟩, rfl⟩; rfl

theorem OkIs.failIf (c : Bool) (e : Err) :
    OkIs (M.failIf c e : M cfg σ Unit) fun _ w _ w' => c = false ∧ w' = w := by
  intro s b s'
  unfold M.failIf
  cases c
  · constructor
    · intro h; cases h; exact ⟨s.w, ⟨rfl, rfl⟩, rfl⟩
    · rintro ⟨w', ⟨_, rfl⟩, rfl⟩; rfl
  · constructor
    · intro h; cases h
    · rintro ⟨w', ⟨h, _⟩, _⟩; cases h

theorem OkIs.get : OkIs (M.get : M cfg σ (State cfg)) fun st w b w' => b = st ∧ w' = w := by
  intro s b s'
  constructor
  · intro h; cases h; exact ⟨s.w, ⟨rfl, rfl⟩, rfl⟩
  · rintro ⟨w', ⟨rfl, rfl⟩, rfl⟩; rfl

theorem OkIs.crypto (f : σ → Except CryptoErr α × σ) :
    OkIs (M.crypto f : M cfg σ α) fun _ w a w' => f w = (.ok a, w') := by
  intro s b s'
  unfold M.crypto
  simp only
  rcases f s.w with ⟨e | a, w1⟩
  · constructor
    · intro h; cases h
    · rintro ⟨w', h, _⟩; cases h
  · constructor
    · intro h; cases h; exact ⟨_, rfl, rfl⟩
    · rintro ⟨w', h, rfl⟩; cases h; rfl

theorem OkIs.platform (f : σ → Except PlatErr α × σ) :
    OkIs (M.platform f : M cfg σ α) fun _ w a w' => f w = (.ok a, w') := by
  intro s b s'
  unfold M.platform
  simp only
  rcases f s.w with ⟨e | a, w1⟩
  · constructor
    · intro h; cases h
    · rintro ⟨w', h, _⟩; cases h
  · constructor
    · intro h; cases h; exact ⟨_, rfl, rfl⟩
    · rintro ⟨w', h, rfl⟩; cases h; rfl

/-! ### Digests -/

theorem okIs_hashChunks (l : List Bytes) :
    OkIs (hashChunks ops l : M cfg σ Unit) fun _ w _ w' => Updated ops l w w' := by
  induction l with
  | nil => exact (OkIs.pure ()).congr fun _ _ _ _ => ⟨fun h => h.2, fun h => ⟨rfl, h⟩⟩
  | cons b bs ih =>
    exact ((OkIs.crypto _).bind fun _ => ih).congr fun _ _ _ _ =>
      ⟨fun ⟨_, w1, h1, h2⟩ => ⟨w1, h1, h2⟩, fun ⟨w1, h1, h2⟩ => ⟨_, w1, h1, h2⟩⟩

theorem okIs_hashAll (l : List Bytes) :
    OkIs (hashAll ops l : M cfg σ Bytes) fun _ w d w' => Hashed ops l w d w' :=
  ((OkIs.crypto _).bind fun _ => (OkIs.crypto _).bind fun _ => (okIs_hashChunks l).bind fun _ =>
    OkIs.crypto _).congr fun _ _ _ _ =>
    ⟨fun ⟨_, w1, h1, _, w2, h2, _, w3, h3, h4⟩ => ⟨w1, w2, w3, h1, h2, h3, h4⟩,
      fun ⟨w1, w2, w3, h1, h2, h3, h4⟩ => ⟨(), w1, h1, (), w2, h2, (), w3, h3, h4⟩⟩

theorem updated_append (a b : List Bytes) (w w' : σ) :
    Updated ops (a ++ b) w w' ↔ ∃ w1, Updated ops a w w1 ∧ Updated ops b w1 w' := by
  induction a generalizing w with
  | nil => exact ⟨fun h => ⟨w, rfl, h⟩, fun ⟨w1, h1, h2⟩ => by cases h1; exact h2⟩
  | cons x xs ih =>
    constructor
    · rintro ⟨w1, h1, h2⟩
      obtain ⟨w2, h3, h4⟩ := (ih w1).1 h2
      exact ⟨w2, ⟨w1, h1, h3⟩, h4⟩
    · rintro ⟨w2, ⟨w1, h1, h3⟩, h4⟩
      exact ⟨w1, h1, (ih w1).2 ⟨w2, h3, h4⟩⟩

theorem okIs_hashNodes (l : List (Context cfg)) : ∀ i d : Bool,
    OkIs (hashNodes ops (l.map .ok) i d) fun _ w r w' => Updated ops (l.flatMap nodeChunks) w w' ∧
      r = (i || l.any (·.usesInfo), d || l.any (·.usesDice)) := by
  induction l with
  | nil =>
    intro i d
    refine (OkIs.pure (i, d)).congr fun _ w r w' => ?_
    simp only [List.any_nil, Bool.or_false]
    exact ⟨fun h => ⟨h.2, h.1⟩, fun h => ⟨h.2, h.1⟩⟩
  | cons c cs ih =>
    intro i d
    refine ((OkIs.lift (.ok c)).bind fun (c' : Context cfg) => (OkIs.crypto (ops.hashUpdate c'.tci.bytes)).bind fun _ =>
      (OkIs.crypto (ops.hashUpdate [boolByte c'.allowX509])).bind fun _ =>
      ih (i || c'.usesInfo) (d || c'.usesDice)).congr fun _ w r w' => ?_
    simp only [List.any_cons, List.flatMap_cons, updated_append, ← Bool.or_assoc]
    have hb : nodeChunks c = [c.tci.bytes, [boolByte c.allowX509]] := by
      simp only [nodeChunks, Tci.bytes, boolByte, List.append_assoc, word_eq]
    rw [hb]
    constructor
    · rintro ⟨_, _, ⟨h, rfl⟩, _, w2, h2, _, w3, h3, h4, h5⟩
      cases h
      exact ⟨⟨w3, ⟨w2, h2, w3, h3, rfl⟩, h4⟩, h5⟩
    · rintro ⟨⟨w3, ⟨w2, h2, w3', h3, h⟩, h4⟩, h5⟩
      cases h
      exact ⟨c, w, ⟨rfl, rfl⟩, (), w2, h2, (), w3, h3, h4, h5⟩

theorem okIs_dice (n : Nat) : ∀ off : U32,
    OkIs (diceLoop ops n off : M cfg σ Unit) fun _ w _ w' => ∃ k, k ≤ n ∧ ChainFed ops k off w w' := by
  induction n with
  | zero =>
    intro off s b s'
    constructor
    · intro h; cases h
    · rintro ⟨w', ⟨k, hk, h⟩, _⟩
      cases h <;> omega
  | succ n ih =>
    intro off s b s'
    unfold diceLoop
    rcases hc : ops.certChain off 2048 s.w with ⟨e | ⟨len, chunk⟩, w1⟩
    · constructor
      · intro h; cases h; exact ⟨w1, ⟨1, by omega, .stop hc⟩, rfl⟩
      · rintro ⟨w', ⟨k, hk, h⟩, rfl⟩
        cases h with
        | stop h => rw [hc] at h; cases h; rfl
        | piece h _ _ _ => rw [hc] at h; cases h
    · simp only
      rw [(OkIs.failIf _ _).then]
      simp only [(OkIs.crypto _).then, decide_eq_false_iff_not, Nat.not_lt]
      constructor
      · rintro ⟨_, _, ⟨h1, rfl⟩, _, w2, h2, h3⟩
        obtain ⟨w', ⟨k, hk, h4⟩, h5⟩ := (ih _ _ _ _).1 h3
        exact ⟨w', ⟨k + 1, by omega, .piece hc h1 h2 h4⟩, h5⟩
      · rintro ⟨w', ⟨k, hk, h⟩, rfl⟩
        cases h with
        | stop h => rw [hc] at h; cases h
        | piece h h1 h2 h3 =>
          rw [hc] at h; cases h
          exact ⟨(), _, ⟨h1, rfl⟩, (), _, h2, (ih _ _ _ _).2 ⟨w', ⟨_, by omega, h3⟩, rfl⟩⟩

theorem profileBytes_info (cfg : Cfg) (support vid sku : U32) :
    profileBytes cfg support vid sku ++ le32 cfg.profile.code = infoBytes cfg support vid sku := by
  simp only [profileBytes, infoBytes, List.append_assoc]
  rfl

theorem okIs_info (support : U32) (need : Bool) :
    OkIs (M.when need (do
      let b ← internalInfo ops support
      M.crypto (ops.hashUpdate b)) () : M cfg σ Unit)
      fun _ w _ w' => InfoFed cfg ops support need w w' := by
  cases need
  · exact (OkIs.pure ()).congr fun _ _ _ _ => ⟨fun h => h.2, fun h => ⟨rfl, h⟩⟩
  · refine OkIs.congr (OkIs.bind (OkIs.bind (OkIs.bind (OkIs.platform _) fun _ =>
      OkIs.bind (OkIs.platform _) fun _ => OkIs.pure _) fun _ => OkIs.pure _) fun _ =>
      OkIs.crypto _) fun _ w _ w' => ?_
    simp only [InfoFed, if_true]
    constructor
    · rintro ⟨b, w1, ⟨_, _, ⟨vid, _, h1, sku, _, h2, rfl, rfl⟩, rfl, rfl⟩, h3⟩
      rw [profileBytes_info] at h3
      exact ⟨vid, sku, _, _, h1, h2, h3⟩
    · rintro ⟨vid, sku, w1, w2, h1, h2, h3⟩
      rw [← profileBytes_info] at h3
      exact ⟨_, w2, ⟨_, w2, ⟨vid, w1, h1, sku, w2, h2, rfl, rfl⟩, rfl, rfl⟩, h3⟩

theorem okIs_diceWhen (need : Bool) :
    OkIs (M.when need (diceLoop ops cfg.diceFuel 0) () : M cfg σ Unit)
      fun _ w _ w' => DiceFed cfg ops need w w' := by
  cases need
  · exact (OkIs.pure ()).congr fun _ _ _ _ => ⟨fun h => h.2, fun h => ⟨rfl, h⟩⟩
  · refine OkIs.congr (okIs_dice (ops := ops) (cfg := cfg) cfg.diceFuel 0) fun _ w _ w' => ?_
    simp only [DiceFed, if_true]

/-- The measurement digest is the hash over the contributions of the ancestry. -/
theorem measured_iff {i : Nat} {l : List Nat} (hp : Path st i l) {w : σ} {out : Bytes} {d : Bytes}
    {s' : Sys cfg σ} : computeMeasurementHash ops i ⟨st, w, out⟩ = (.ok d, s') ↔
      ∃ w', Measured ops st l w d w' ∧ s' = ⟨st, w', out⟩ := by
  obtain ⟨it, e, r⟩ := ChainIter.new_path hp
  have hl := hp.length_le
  have hi : it.items st.contexts (cfg.maxHandles + 2) = (l.map st.at).map .ok := by
    rw [items_rem _ r (show l.length < cfg.maxHandles + 2 by omega), List.map_map]; rfl
  unfold computeMeasurementHash
  rw [(OkIs.crypto _).then]
  simp only [(OkIs.crypto _).then, OkIs.get.then, (OkIs.lift _).then]
  have hfm : (l.map st.at).flatMap nodeChunks = l.flatMap fun i => nodeChunks (st.at i) := by
    rw [List.flatMap_map]
  constructor
  · rintro ⟨_, w1, h1, _, w2, h2, st1, w21, ⟨e1, e2⟩, it1, w22, ⟨h3, e3⟩, h4⟩
    have e1 := e1.symm
    have e2 := e2.symm
    have e3 := e3.symm
    subst e1 e2 e3
    rw [e] at h3; cases h3
    rw [hi, (okIs_hashNodes _ _ _).then] at h4
    obtain ⟨⟨b1, b2⟩, w3, ⟨h4, hb⟩, h5⟩ := h4
    simp only [Bool.false_or, List.any_map, Prod.mk.injEq] at hb
    obtain ⟨rfl, rfl⟩ := hb
    rw [(okIs_info _ _).then] at h5
    obtain ⟨_, w4, h5, h6⟩ := h5
    rw [(okIs_diceWhen _).then] at h6
    obtain ⟨_, w5, h6, h7⟩ := h6
    obtain ⟨w', h8, e8⟩ := (OkIs.crypto _ _ _ _).1 h7
    rw [hfm] at h4
    exact ⟨w', ⟨w1, w2, w3, w4, w5, h1, h2, h4, h5, h6, h8⟩, e8⟩
  · rintro ⟨w', ⟨w1, w2, w3, w4, w5, h1, h2, h4, h5, h6, h7⟩, rfl⟩
    refine ⟨(), w1, h1, (), w2, h2, st, w2, ⟨rfl, rfl⟩, it, w2, ⟨e, rfl⟩, ?_⟩
    rw [hi, (okIs_hashNodes _ _ _).then]
    refine ⟨(_, _), w3, ⟨by rw [hfm]; exact h4, rfl⟩, ?_⟩
    simp only [Bool.false_or, List.any_map]
    rw [(okIs_info _ _).then]
    refine ⟨(), w4, h5, ?_⟩
    rw [(okIs_diceWhen _).then]
    exact ⟨(), w5, h6, (OkIs.crypto _ _ _ _).2 ⟨w', h7, rfl⟩⟩

/-! ### Names and keys -/

theorem hexDigit_eq : ∀ n : Nat, n < 16 → hexDigit n = (ascii "0123456789ABCDEF").getD n 0 := by
  decide +kernel

theorem hexString_eq (d : Bytes) : hexString d = hexText d := by
  unfold hexString hexText
  congr 1
  funext b
  have : b.toNat < 256 := b.toNat_lt
  rw [hexDigit_eq _ (by omega), hexDigit_eq _ (by omega)]

theorem hexText_length (d : Bytes) : (hexText d).length = 2 * d.length := by
  unfold hexText
  induction d with
  | nil => rfl
  | cons b bs ih => simp only [List.flatMap_cons, List.length_append, ih, List.length_cons,
      List.length_nil]; omega

theorem chunks_eq (k : PubKey) : k.chunks = keyChunks k := by cases k <;> rfl

theorem writeHex_ok {d s : Bytes} : writeHex 96 d = .ok s ↔ d.length ≤ 48 ∧
    s = hexText d ++ List.replicate (96 - d.length * 2) 0 := by
  unfold writeHex
  rw [hexString_eq]
  split
  · constructor
    · intro h; cases h
    · rintro ⟨h, _⟩; omega
  · constructor
    · intro h; cases h; exact ⟨by omega, rfl⟩
    · rintro ⟨_, rfl⟩; rfl

theorem serialText_eq {d : Bytes} (h : d.length ≤ 48) :
    (hexText d ++ List.replicate (96 - d.length * 2) 0).take 64 = serialText d := by
  have hl := hexText_length d
  unfold serialText
  rw [List.take_append, List.take_append, List.take_replicate, List.take_replicate, hl]
  congr 2
  omega

theorem serialText_length (d : Bytes) : (serialText d).length = 64 := by
  unfold serialText
  rw [List.length_take, List.length_append, List.length_replicate]; omega

theorem okIs_subjectName (exported : Bool) (k : PubKey) :
    OkIs (subjectName ops exported k : M cfg σ Name) fun _ w n w' =>
      ops.digestSize ≤ 48 ∧ k.isMldsa = ops.sigAlgMldsa ∧ ∃ d, Hashed ops (keyChunks k) w d w' ∧
        d.length ≤ 48 ∧
        n = ⟨.printable (if exported then ascii "DPE Exported CDI" else ascii "DPE Leaf"),
          .printable (serialText d)⟩ := by
  refine OkIs.congr (OkIs.bind (OkIs.bind (OkIs.failIf _ _) fun _ => OkIs.bind (OkIs.failIf _ _)
    fun _ => OkIs.bind (okIs_hashAll _) fun _ => OkIs.lift _) fun _ => OkIs.pure _)
    fun _ w n w' => ?_
  rw [chunks_eq]
  constructor
  · rintro ⟨s, w1, ⟨_, _, ⟨h1, rfl⟩, _, _, ⟨h2, rfl⟩, d, _, h3, h4, rfl⟩, rfl, rfl⟩
    obtain ⟨h5, rfl⟩ := writeHex_ok.1 h4
    have h1 := of_decide_eq_false h1
    exact ⟨by omega, by simpa using h2, d, h3, h5, by rw [serialText_eq h5]⟩
  · rintro ⟨h1, h2, d, h3, h5, rfl⟩
    refine ⟨_, w', ⟨(), w, ⟨decide_eq_false (by omega), rfl⟩, (), w, ⟨by simpa using h2, rfl⟩, d, w',
      h3, writeHex_ok.2 ⟨h5, rfl⟩, rfl⟩, ?_, rfl⟩
    rw [serialText_eq h5]

theorem okIs_subjectKeyId (k : PubKey) :
    OkIs (subjectKeyIdOf ops k : M cfg σ Bytes) fun _ w r w' => ∃ d, Hashed ops (keyChunks k) w d w' ∧
      20 ≤ d.length ∧ r = d.take 20 := by
  refine OkIs.congr (OkIs.bind (okIs_hashAll _) fun _ => OkIs.bind (OkIs.failIf _ _) fun _ =>
    OkIs.pure _) fun _ w r w' => ?_
  rw [chunks_eq]
  constructor
  · rintro ⟨d, _, h1, _, _, ⟨h2, rfl⟩, rfl, rfl⟩
    exact ⟨d, h1, Nat.not_lt.1 (of_decide_eq_false h2), rfl⟩
  · rintro ⟨d, h1, h2, rfl⟩
    exact ⟨d, w', h1, (), w', ⟨decide_eq_false (by omega), rfl⟩, rfl, rfl⟩

theorem okIs_altName :
    OkIs (getAltName ops : M cfg σ (Option OtherName)) fun _ w o w' => AltName ops w o w' := by
  intro s b s'
  unfold getAltName AltName
  rcases h : ops.subjectAltName s.w with ⟨e | a, w1⟩
  · cases e with
    | notImplemented =>
      constructor
      · intro h'; cases h'; exact ⟨_, h, rfl⟩
      · rintro ⟨w', h', rfl⟩
        cases b with
        | none => simp only at h'; rw [h] at h'; cases h'; rfl
        | some x => simp only at h'; rw [h] at h'; cases h'
    | _ =>
      constructor
      · intro h'; cases h'
      · rintro ⟨w', h', rfl⟩
        cases b with
        | none => simp only at h'; rw [h] at h'; cases h'
        | some x => simp only at h'; rw [h] at h'; cases h'
  · constructor
    · intro h'; cases h'; exact ⟨_, h, rfl⟩
    · rintro ⟨w', h', rfl⟩
      cases b with
      | none => simp only at h'; rw [h] at h'; cases h'
      | some x => simp only at h'; rw [h] at h'; cases h'; rfl

theorem okIs_certKey (kind : CertKind) (a : CertArgs) (digest : Bytes) :
    OkIs (certKey ops kind.exported a digest : M cfg σ _) fun _ w r w' =>
      ∃ key w1, KeyPair ops kind a digest w key r.2 w1 ∧ ops.publicKey key w1 = (.ok r.1, w') := by
  have leaf : OkIs (do
      let cdi ← M.crypto (ops.deriveCdi digest a.cdiLabel)
      let key ← M.crypto (ops.deriveKeyPair cdi a.keyLabel a.context)
      let k ← M.crypto (ops.publicKey key)
      pure (k, none) : M cfg σ (PubKey × Option (BArr 32))) fun _ w r w' =>
      ∃ key w1, KeyPair ops .leafX509 a digest w key r.2 w1 ∧
        ops.publicKey key w1 = (.ok r.1, w') := by
    refine OkIs.congr (OkIs.bind (OkIs.crypto _) fun _ => OkIs.bind (OkIs.crypto _) fun _ =>
      OkIs.bind (OkIs.crypto _) fun _ => OkIs.pure _) fun _ w r w' => ?_
    constructor
    · rintro ⟨cdi, w1, h1, key, w2, h2, k, w3, h3, rfl, rfl⟩
      exact ⟨key, w2, ⟨cdi, w1, rfl, h1, h2⟩, h3⟩
    · rintro ⟨key, w2, ⟨cdi, w1, e, h1, h2⟩, h3⟩
      obtain ⟨k, h⟩ := r
      simp only at e; subst e
      exact ⟨cdi, w1, h1, key, w2, h2, k, w', h3, rfl, rfl⟩
  cases kind with
  | leafX509 => exact leaf
  | leafCsr => exact leaf
  | exportedX509 =>
    refine OkIs.congr (OkIs.bind (OkIs.crypto _) fun _ => OkIs.bind (OkIs.crypto _) fun _ =>
      OkIs.bind (OkIs.crypto _) fun _ => OkIs.pure _) fun _ w r w' => ?_
    constructor
    · rintro ⟨hd, w1, h1, key, w2, h2, k, w3, h3, rfl, rfl⟩
      exact ⟨key, w2, ⟨hd, w1, rfl, h1, h2⟩, h3⟩
    · rintro ⟨key, w2, ⟨hd, w1, e, h1, h2⟩, h3⟩
      obtain ⟨k, h⟩ := r
      simp only at e; subst e
      exact ⟨hd, w1, h1, key, w2, h2, k, w', h3, rfl, rfl⟩

end
end Dpe
