import Verif.Proofs.CertExec
import Verif.Spec.Response
import Verif.Spec.Rules
/-
The certificate generator keeps the size of its window and never fails with "no error", in any state.
-/
namespace Dpe
variable {cfg : Cfg} {σ α β : Type} {ops : Ops σ}

/-! ### Pure results -/

/-- Not the error "no error". -/
def Real (r : Except Err α) : Prop := r ≠ .error .noError

theorem real_ok (a : α) : Real (.ok a : Except Err α) := by intro h; cases h

theorem real_error {e : Err} (h : e ≠ .noError) : Real (.error e : Except Err α) := by
  intro h'; cases h'; exact h rfl

theorem Real.err {e : Err} (h : Real (.error e : Except Err α)) : Real (.error e : Except Err β) :=
  real_error fun he => h (by rw [he])

theorem real_getCtx (l : List (Context cfg)) (i : Nat) : Real (getCtx l i) := by
  unfold getCtx
  split
  · exact real_error (by decide)
  · split
    · exact real_error (by decide)
    · exact real_ok _

theorem real_pathLenLoop (l : List (Context cfg)) : ∀ fuel i n, Real (pathLenLoop l fuel i n) := by
  intro fuel
  induction fuel with
  | zero => intro i n; exact real_error (by decide)
  | succ fuel ih =>
    intro i n
    unfold pathLenLoop
    have := real_getCtx l i
    split
    · rename_i e h; rw [h] at this; exact this.err
    · split
      · exact real_error (by decide)
      · split
        · exact real_ok _
        · exact ih _ _

theorem real_chainNew (i : Nat) (l : List (Context cfg)) : Real (ChainIter.new i l) := by
  unfold ChainIter.new
  have := real_pathLenLoop l (cfg.maxHandles + 1) i 0
  split
  · rename_i e h; rw [h] at this; exact this.err
  · exact real_ok _

theorem real_onPath (l : List (Context cfg)) (t : Nat) : ∀ fuel i, Real (isNodeOnPath l t fuel i) := by
  intro fuel
  induction fuel with
  | zero => intro i; exact real_error (by decide)
  | succ fuel ih =>
    intro i
    unfold isNodeOnPath
    have := real_getCtx l i
    split
    · exact real_ok _
    · split
      · rename_i e h; rw [h] at this; exact this.err
      · split
        · exact real_ok _
        · exact ih _

theorem real_findOnPath (l : List (Context cfg)) (f : Nat) : ∀ ks, Real (findOnPath l f ks) := by
  intro ks
  induction ks with
  | nil => exact real_ok _
  | cons k ks ih =>
    unfold findOnPath
    have := real_onPath l k (cfg.maxHandles + 1) f
    split
    · rename_i e h; rw [h] at this; exact this.err
    · exact real_ok _
    · exact ih

theorem real_next {l : List (Context cfg)} {it : ChainIter} {x : Except Err (Context cfg)}
    (h : (it.next l).1 = some x) : Real x := by
  have hg := real_getCtx l it.front
  unfold ChainIter.next at h
  split at h
  · cases h
  · split at h
    · cases h
    · split at h
      · cases h; exact real_error (by decide)
      · split at h
        · rename_i e he; cases h; rw [he] at hg; exact hg
        · cases h; exact real_ok _

theorem real_nextBack {l : List (Context cfg)} {it : ChainIter} {x : Except Err (Context cfg)}
    (h : (it.nextBack l).1 = some x) : Real x := by
  have hg := real_getCtx l it.back
  unfold ChainIter.nextBack at h
  split at h
  · cases h
  · split at h
    · cases h
    · split at h
      · cases h; exact real_error (by decide)
      · split at h
        · rename_i e he; cases h; rw [he] at hg; exact hg
        · rename_i c _
          have hf := real_findOnPath l it.front (childList cfg c.children)
          split at h
          · cases h; exact real_ok _
          · split at h
            · rename_i e he; cases h; rw [he] at hf; exact hf.err
            · cases h; exact real_error (by decide)
            · cases h; exact real_ok _

theorem real_items (l : List (Context cfg)) : ∀ fuel it, ∀ x ∈ ChainIter.items l fuel it, Real x := by
  intro fuel
  induction fuel with
  | zero => intro it x h; cases h
  | succ fuel ih =>
    intro it x h
    unfold ChainIter.items at h
    split at h
    · cases h
    · rename_i y it' hy
      rcases List.mem_cons.1 h with rfl | h
      · exact real_next (it := it) (by rw [hy])
      · exact ih _ _ h

theorem real_backItems (l : List (Context cfg)) :
    ∀ fuel it, ∀ x ∈ ChainIter.backItems l fuel it, Real x := by
  intro fuel
  induction fuel with
  | zero => intro it x h; cases h
  | succ fuel ih =>
    intro it x h
    unfold ChainIter.backItems at h
    split at h
    · cases h
    · rename_i y it' hy
      rcases List.mem_cons.1 h with rfl | h
      · exact real_nextBack (it := it) (by rw [hy])
      · exact ih _ _ h

theorem real_firstNode (md : MeasData cfg) : Real md.firstNode := by
  unfold MeasData.firstNode
  have := real_chainNew md.start md.contexts
  split
  · rename_i e h; rw [h] at this; exact this.err
  · rename_i it _
    split
    · exact real_error (by decide)
    · rename_i e h; exact (real_nextBack h).err
    · exact real_ok _

theorem real_tcbInfosSize (p : Profile) (md : MeasData cfg) : Real (tcbInfosSize p md) := by
  unfold tcbInfosSize
  have := real_chainNew md.start md.contexts
  have h2 := real_firstNode md
  split
  · rename_i e h; rw [h] at this; exact this.err
  · split
    · exact real_ok _
    · split
      · rename_i e h; rw [h] at h2; exact h2.err
      · exact real_ok _

theorem real_multiTcbSize (p : Profile) (c : Bool) (md : MeasData cfg) (t : Bool) :
    Real (multiTcbSize p c md t) := by
  unfold multiTcbSize
  have := real_chainNew md.start md.contexts
  have h2 := real_firstNode md
  split
  · rename_i e h; rw [h] at this; exact this.err
  · split
    · exact real_error (by decide)
    · split
      · rename_i e h; rw [h] at h2; exact h2.err
      · exact real_ok _

theorem real_extsSize (p : Profile) (c : Bool) (md : MeasData cfg) (t x i : Bool) :
    Real (extsSize p c md t x i) := by
  unfold extsSize
  have := real_multiTcbSize p c md true
  split
  · rename_i e h; rw [h] at this; exact this.err
  · exact real_ok _

theorem real_attributeSize (p : Profile) (c : Bool) (md : MeasData cfg) (t : Bool) :
    Real (attributeSize p c md t) := by
  unfold attributeSize
  have := real_extsSize p c md true false false
  split
  · rename_i e h; rw [h] at this; exact this.err
  · exact real_ok _

theorem real_attributesSize (p : Profile) (c : Bool) (md : MeasData cfg) (t : Bool) :
    Real (attributesSize p c md t) := by
  unfold attributesSize
  have := real_attributeSize p c md true
  split
  · rename_i e h; rw [h] at this; exact this.err
  · exact real_ok _

theorem real_tciNodesNew (i : Nat) (l : List (Context cfg)) : Real (tciNodesNew i l) := by
  unfold tciNodesNew
  have := real_chainNew i l
  split
  · rename_i e h; rw [h] at this; exact this.err
  · split
    · exact real_error (by decide)
    · exact real_ok _

theorem real_findActive (st : State cfg) (h : Handle) (loc : U32) : Real (st.findActive h loc) := by
  unfold State.findActive
  simp only
  split
  · split
    · exact real_ok _
    · exact real_error (by decide)
  · exact real_error (by decide)

/-! ### Encoders -/

theorem bufWrite_length {buf d b : Bytes} {o : Nat} (h : bufWrite buf o d = some b) :
    b.length = buf.length := by
  unfold bufWrite at h
  split at h
  · injection h with h
    subst h
    simp only [List.length_append, List.length_take, List.length_drop]
    omega
  · cases h

theorem put_length (w : Writer) (bs : Bytes) : (w.put bs).buf.length = w.buf.length := by
  unfold Writer.put
  simp only
  cases h : bufWrite w.buf w.offset bs with
  | none => rfl
  | some b => exact bufWrite_length h

/-- The encoder keeps the size of the buffer. -/
def Enc.Keeps (e : Enc) : Prop := ∀ w, (e w).2.buf.length = w.buf.length

theorem Enc.keeps_all {l : List Enc} (h : ∀ e ∈ l, e.Keeps) : (Enc.all l).Keeps := by
  induction l with
  | nil => intro w; rfl
  | cons e l ih =>
    intro w
    unfold Enc.all
    rw [ih (fun x hx => h x (List.mem_cons_of_mem _ hx)), h e List.mem_cons_self]

theorem keeps_byte (b : UInt8) : (encByte b).Keeps := fun w => put_length w _
theorem keeps_bytes (b : Bytes) : (encBytes b).Keeps := fun w => put_length w _

theorem keeps_sizeBytes (n : Nat) : ∀ k, ∀ e ∈ sizeBytes n k, e.Keeps := by
  intro k
  induction k with
  | zero => intro e h; cases h
  | succ k ih =>
    intro e h
    unfold sizeBytes at h
    rcases List.mem_cons.1 h with rfl | h
    · exact keeps_byte _
    · exact ih e h

theorem keeps_size (n : Nat) : (encSize n).Keeps := by
  intro w
  unfold encSize
  split
  · exact keeps_byte _ w
  · refine Enc.keeps_all ?_ w
    intro e h
    rcases List.mem_cons.1 h with rfl | h
    · exact keeps_byte _
    · exact keeps_sizeBytes _ _ e h

theorem forall_enc_nil : ∀ e ∈ ([] : List Enc), e.Keeps := fun e h => by cases h

/-- Encoders made of encoders. -/
syntax "keeps_raw" : tactic
macro_rules
  | `(tactic| keeps_raw) => `(tactic| repeat' first
    | (with_reducible exact keeps_byte _)
    | (with_reducible exact keeps_bytes _)
    | (with_reducible exact keeps_size _)
    | (with_reducible exact forall_enc_nil)
    | (with_reducible apply Enc.keeps_all)
    | (with_reducible refine List.forall_mem_cons.2 ⟨?_, ?_⟩)
    | (with_reducible refine List.forall_mem_append.2 ⟨?_, ?_⟩)
    | assumption
    | split)

theorem keeps_intBytes (v : Bytes) (t : Bool) : (encIntBytes v t).Keeps := by
  unfold encIntBytes; keeps_raw
theorem keeps_int (n : Nat) (t : Bool) : (encInt n t).Keeps := keeps_intBytes _ _
theorem keeps_tlv (t : UInt8) (v : Bytes) : (encTlv t v).Keeps := by unfold encTlv; keeps_raw
theorem keeps_oid (v : Bytes) : (encOid v).Keeps := keeps_tlv _ _
theorem keeps_rdnString (d : DirString) : (encRdnString d).Keeps := by
  cases d <;> exact keeps_tlv _ _

/-- Encoders made of encoders and simple values. -/
syntax "keeps_enc" : tactic
macro_rules
  | `(tactic| keeps_enc) => `(tactic| repeat' first
    | (with_reducible exact keeps_byte _)
    | (with_reducible exact keeps_bytes _)
    | (with_reducible exact keeps_size _)
    | (with_reducible exact keeps_intBytes _ _)
    | (with_reducible exact keeps_int _ _)
    | (with_reducible exact keeps_tlv _ _)
    | (with_reducible exact keeps_oid _)
    | (with_reducible exact keeps_rdnString _)
    | (with_reducible exact forall_enc_nil)
    | (with_reducible apply Enc.keeps_all)
    | (with_reducible refine List.forall_mem_cons.2 ⟨?_, ?_⟩)
    | (with_reducible refine List.forall_mem_append.2 ⟨?_, ?_⟩)
    | assumption
    | split)

theorem keeps_rdn (n : Name) : (encRdn n).Keeps := by unfold encRdn; keeps_enc
theorem keeps_ecPubAlg (c : Bytes) : (encEcPubAlg c).Keeps := by unfold encEcPubAlg; keeps_enc
theorem keeps_sigAlg (p : Profile) : (encSigAlg p).Keeps := by unfold encSigAlg; keeps_enc
theorem keeps_hashAlg (p : Profile) : (encHashAlg p).Keeps := by unfold encHashAlg; keeps_enc
theorem keeps_validity (v : Validity) : (encValidity v).Keeps := by unfold encValidity; keeps_enc
theorem keeps_ecSpki (x y c : Bytes) : (encEcSpki x y c).Keeps := by
  have := keeps_ecPubAlg c
  unfold encEcSpki
  simp only
  keeps_enc
theorem keeps_mldsaSpki (p : Profile) (k : Bytes) : (encMldsaSpki p k).Keeps := by
  have := keeps_sigAlg p
  unfold encMldsaSpki
  keeps_enc
theorem keeps_ecSigBits (r s : Bytes) : (encEcSigBits r s).Keeps := by unfold encEcSigBits; keeps_enc
theorem keeps_mldsaSigBits (s : Bytes) : (encMldsaSigBits s).Keeps := by
  unfold encMldsaSigBits; keeps_enc
theorem keeps_ecSigOctets (r s : Bytes) : (encEcSigOctets r s).Keeps := by
  unfold encEcSigOctets; keeps_enc

theorem keeps_two {a b : Enc} (ha : a.Keeps) (hb : b.Keeps) : (Enc.all [a, b]).Keeps := by
  apply Enc.keeps_all
  exact List.forall_mem_cons.2 ⟨ha, List.forall_mem_cons.2 ⟨hb, fun e h => by cases h⟩⟩

theorem keeps_sigBits (p : Profile) (s : Sig) : (encSigBits p s).Keeps := by
  cases s
  · exact keeps_two (keeps_sigAlg p) (keeps_ecSigBits _ _)
  · exact keeps_two (keeps_sigAlg p) (keeps_ecSigBits _ _)
  · exact keeps_two (keeps_sigAlg p) (keeps_mldsaSigBits _)

theorem keeps_sigOctets (p : Profile) (s : Sig) : (encSigOctets p s).Keeps := by
  cases s
  · exact keeps_two (keeps_sigAlg p) (keeps_ecSigOctets _ _)
  · exact keeps_two (keeps_sigAlg p) (keeps_ecSigOctets _ _)
  · exact keeps_two (keeps_sigAlg p) (keeps_tlv _ _)

theorem keeps_version : encVersion.Keeps := by unfold encVersion; keeps_enc
theorem keeps_fwid (p : Profile) (m : Bytes) : (encFwid p m).Keeps := by unfold encFwid; keeps_enc

theorem keeps_tcbInfo (p : Profile) (t : Tci cfg) (r : Bool) : (encTcbInfo p t r).Keeps := by
  have h1 := keeps_fwid p t.current.toList
  have h2 := keeps_fwid p t.cumulative.toList
  unfold encTcbInfo encRegisters
  simp only
  keeps_enc

theorem keeps_extHeader (o : Bytes) (c : Option UInt8) (n : Nat) : (encExtHeader o c n).Keeps := by
  unfold encExtHeader; keeps_enc

theorem keeps_ueid (c : Bool) (md : MeasData cfg) : (encUeid c md).Keeps := by
  have := keeps_extHeader oidUeid (critByte c) (ueidContent md)
  unfold encUeid; keeps_enc
theorem keeps_basic (md : MeasData cfg) : (encBasic md).Keeps := by
  have := keeps_extHeader oidBasic (some 0xFF) (structSize (caSize md) true)
  unfold encBasic; keeps_enc
theorem keeps_keyUsage (c : Bool) : (encKeyUsage c).Keeps := by
  have := keeps_extHeader oidKeyUsage (some 0xFF) (structSize 2 true)
  unfold encKeyUsage
  refine Enc.keeps_all (List.forall_mem_cons.2 ⟨this, ?_⟩)
  keeps_enc
theorem keeps_extKeyUsage (md : MeasData cfg) : (encExtKeyUsage md).Keeps := by
  have := keeps_extHeader oidExtKeyUsage (some 0xFF)
      (structSize (structSize (purposeOid md).length true) true)
  unfold encExtKeyUsage; keeps_enc
theorem keeps_subjectKeyId (md : MeasData cfg) (x : Bool) : (encSubjectKeyId md x).Keeps := by
  have := keeps_extHeader oidSubjectKeyId none (structSize md.subjectKeyId.length true)
  unfold encSubjectKeyId; keeps_enc
theorem keeps_authorityKeyId (md : MeasData cfg) (x : Bool) : (encAuthorityKeyId md x).Keeps := by
  have := keeps_extHeader oidAuthorityKeyId none
      (structSize (keyIdSize md.authorityKeyId.length true false) true)
  unfold encAuthorityKeyId; keeps_enc
theorem keeps_otherName (o : OtherName) : (encOtherName o).Keeps := by
  unfold encOtherName encOtherValue; keeps_enc
theorem keeps_altName (md : MeasData cfg) : (encAltName md).Keeps := by
  unfold encAltName
  split
  · keeps_enc
  · rename_i o _
    have h1 := keeps_extHeader oidSubjectAltName none (structSize (otherNameSize o true) true)
    have h2 := keeps_otherName o
    keeps_enc
theorem keeps_signerId (s : SignerId) : (encSignerId s).Keeps := by
  cases s <;> unfold encSignerId <;> keeps_enc
theorem keeps_signerInfo (p : Profile) (sig : Sig) (s : SignerId) : (encSignerInfo p sig s).Keeps := by
  have h1 := keeps_signerId s
  have h2 := keeps_hashAlg p
  have h3 := keeps_sigOctets p sig
  unfold encSignerInfo
  keeps_enc

/-! ### Encoders that can fail -/

/-- The encoder keeps the size of the buffer and its errors are errors. -/
def W.Safe (m : W σ α) : Prop := ∀ s, (m s).2.1.buf.length = s.1.buf.length ∧ Real (m s).1

theorem W.safe_pure (a : α) : W.Safe (pure a : W σ α) := fun _ => ⟨rfl, real_ok a⟩

theorem W.safe_bind {x : W σ α} {f : α → W σ β} (h : x.Safe) (hf : ∀ a, (f a).Safe) :
    W.Safe (x >>= f) := by
  intro s
  rw [W.bind_def]
  have h1 := h s
  rcases hx : x s with ⟨e | a, s1⟩
  · rw [hx] at h1
    exact ⟨h1.1, h1.2.err⟩
  · rw [hx] at h1
    have h2 := hf a s1
    exact ⟨h2.1.trans h1.1, h2.2⟩

theorem W.safe_enc {e : Enc} (h : e.Keeps) : W.Safe (W.enc e : W σ Nat) :=
  fun s => ⟨h s.1, real_ok _⟩

theorem W.safe_lift {x : Except Err α} (h : Real x) : W.Safe (W.lift x : W σ α) :=
  fun _ => ⟨rfl, h⟩

theorem W.safe_push (n : Nat) : W.Safe (W.push n : W σ Nat) := by
  rintro ⟨w, x⟩
  simp only [W.push]
  split
  · exact ⟨rfl, real_ok _⟩
  · exact ⟨rfl, real_error (by decide)⟩

theorem W.safe_pop (n : Nat) : W.Safe (W.pop n : W σ Unit) := by
  rintro ⟨w, x⟩
  simp only [W.pop]
  split
  · exact ⟨rfl, real_error (by decide)⟩
  · split
    · exact ⟨rfl, real_error (by decide)⟩
    · split
      · exact ⟨rfl, real_error (by decide)⟩
      · exact ⟨rfl, real_ok _⟩

theorem W.safe_start : W.Safe (W.start : W σ Unit) := by
  rintro ⟨w, x⟩
  simp only [W.start]
  split
  · exact ⟨rfl, real_error (by decide)⟩
  · exact ⟨rfl, real_ok _⟩

theorem W.safe_finish : W.Safe (W.finish : W σ Unit) := by
  rintro ⟨w, x⟩
  simp only [W.finish]
  split
  · exact ⟨rfl, real_error (by decide)⟩
  · exact ⟨rfl, real_ok _⟩

theorem W.safe_checkFits : W.Safe (W.checkFits : W σ Unit) := by
  rintro ⟨w, x⟩
  simp only [W.checkFits]
  split
  · exact ⟨rfl, real_error (by decide)⟩
  · exact ⟨rfl, real_ok _⟩

theorem W.safe_checkPopped : W.Safe (W.checkPopped : W σ Unit) := by
  rintro ⟨w, x⟩
  simp only [W.checkPopped]
  split
  · exact ⟨rfl, real_ok _⟩
  · exact ⟨rfl, real_error (by decide)⟩

theorem W.safe_csrRange : W.Safe (W.csrRange : W σ (Nat × Nat)) := by
  rintro ⟨w, x⟩
  simp only [W.csrRange]
  split
  · exact ⟨rfl, real_ok _⟩
  · exact ⟨rfl, real_error (by decide)⟩

theorem W.safe_setCsrRange (a b : Nat) : W.Safe (W.setCsrRange a b : W σ Unit) :=
  fun _ => ⟨rfl, real_ok _⟩

theorem W.safe_sign (cb : SignCb σ) (a b : Nat) (d : Bool) : W.Safe (W.sign cb a b d) := by
  rintro ⟨w, x⟩
  simp only [W.sign]
  split
  · exact ⟨rfl, real_ok _⟩
  · exact ⟨rfl, real_error (by intro h; cases h)⟩

theorem safe_tcbLoop (p : Profile) (r : Bool) : ∀ l : List (Except Err (Context cfg)),
    (∀ x ∈ l, Real x) → W.Safe (tcbLoop p r l : W σ Nat) := by
  intro l
  induction l with
  | nil => intro _; exact W.safe_pure _
  | cons x l ih =>
    intro h
    unfold tcbLoop
    refine W.safe_bind (W.safe_lift (h x List.mem_cons_self)) fun c => ?_
    refine W.safe_bind (W.safe_enc (keeps_tcbInfo _ _ _)) fun n => ?_
    refine W.safe_bind (ih fun y hy => h y (List.mem_cons_of_mem _ hy)) fun m => W.safe_pure _

theorem safe_multiTcb (p : Profile) (c : Bool) (md : MeasData cfg) :
    W.Safe (encMultiTcb p c md : W σ Nat) := by
  unfold encMultiTcb
  refine W.safe_bind (W.safe_lift (real_tcbInfosSize _ _)) fun n => ?_
  refine W.safe_bind (W.safe_enc ?_) fun _ => ?_
  · have := keeps_extHeader oidMultiTcb (critByte c) (structSize n true)
    keeps_enc
  refine W.safe_bind (W.safe_lift (real_chainNew _ _)) fun it => ?_
  exact W.safe_bind (safe_tcbLoop _ _ _ (real_backItems _ _ _)) fun _ => W.safe_pure _

theorem safe_exts (p : Profile) (c : Bool) (md : MeasData cfg) (x : Bool) :
    W.Safe (encExts p c md x : W σ Nat) := by
  unfold encExts
  refine W.safe_bind ?_ fun _ => ?_
  · unfold encExtsWrapper
    split
    · refine W.safe_bind (W.safe_enc (keeps_byte _)) fun _ => ?_
      refine W.safe_bind (W.safe_lift (real_extsSize _ _ _ _ _ _)) fun _ => ?_
      exact W.safe_bind (W.safe_enc (keeps_size _)) fun _ => W.safe_pure _
    · exact W.safe_pure _
  refine W.safe_bind (W.safe_enc (keeps_byte _)) fun _ => ?_
  refine W.safe_bind (W.safe_lift (real_extsSize _ _ _ _ _ _)) fun _ => ?_
  refine W.safe_bind (W.safe_enc (keeps_size _)) fun _ => ?_
  refine W.safe_bind (safe_multiTcb _ _ _) fun _ => ?_
  refine W.safe_bind (W.safe_enc ?_) fun _ => W.safe_pure _
  apply Enc.keeps_all
  refine List.forall_mem_cons.2 ⟨keeps_ueid _ _, ?_⟩
  refine List.forall_mem_cons.2 ⟨keeps_basic _, ?_⟩
  refine List.forall_mem_cons.2 ⟨keeps_keyUsage _, ?_⟩
  refine List.forall_mem_cons.2 ⟨keeps_extKeyUsage _, ?_⟩
  refine List.forall_mem_cons.2 ⟨keeps_subjectKeyId _ _, ?_⟩
  refine List.forall_mem_cons.2 ⟨keeps_authorityKeyId _ _, ?_⟩
  refine List.forall_mem_cons.2 ⟨keeps_altName _, ?_⟩
  intro e h; cases h

theorem safe_rdn (n : Name) : W.Safe (encRdnChecked n : W σ Nat) :=
  W.safe_bind (W.safe_enc (keeps_rdn n)) fun _ => W.safe_bind W.safe_checkFits fun _ => W.safe_pure _

theorem safe_spki (p : Profile) (k : PubKey) : W.Safe (encSpki p k : W σ Nat) := by
  unfold encSpki
  split
  · exact W.safe_enc (keeps_ecSpki _ _ _)
  · exact W.safe_enc (keeps_ecSpki _ _ _)
  · exact W.safe_lift (real_error (by decide))
  · exact W.safe_enc (keeps_ecSpki _ _ _)
  · exact W.safe_enc (keeps_ecSpki _ _ _)
  · exact W.safe_lift (real_error (by decide))
  · exact W.safe_enc (keeps_mldsaSpki _ _)

theorem safe_backfill (n : Nat) : W.Safe (backfill n : W σ Nat) :=
  W.safe_bind W.safe_start fun _ => W.safe_bind (W.safe_pop _) fun _ =>
    W.safe_bind (W.safe_enc (keeps_size _)) fun _ => W.safe_bind W.safe_finish fun _ => W.safe_pure _

theorem safe_tbs (p : Profile) (c : Bool) (d : CertData cfg) : W.Safe (encTbs p c d : W σ Nat) := by
  unfold encTbs
  refine W.safe_bind (W.safe_enc (keeps_byte _)) fun _ => ?_
  refine W.safe_bind (W.safe_push _) fun _ => ?_
  refine W.safe_bind (W.safe_enc ?_) fun _ => ?_
  · have h1 := keeps_version
    have h2 := keeps_sigAlg p
    have h3 := keeps_validity d.validity
    keeps_enc
  refine W.safe_bind (safe_rdn _) fun _ => ?_
  refine W.safe_bind (safe_spki _ _) fun _ => ?_
  refine W.safe_bind (safe_exts _ _ _ _) fun _ => ?_
  refine W.safe_bind (safe_backfill _) fun _ => ?_
  exact W.safe_bind W.safe_checkFits fun _ => W.safe_pure _

theorem safe_cri (p : Profile) (c : Bool) (d : CertData cfg) : W.Safe (encCri p c d : W σ Nat) := by
  unfold encCri
  refine W.safe_bind (W.safe_enc (keeps_byte _)) fun _ => ?_
  refine W.safe_bind (W.safe_push _) fun _ => ?_
  refine W.safe_bind (W.safe_enc (keeps_int _ _)) fun _ => ?_
  refine W.safe_bind (safe_rdn _) fun _ => ?_
  refine W.safe_bind (safe_spki _ _) fun _ => ?_
  refine W.safe_bind ?_ fun _ => ?_
  · unfold encAttributes
    refine W.safe_bind (W.safe_enc (keeps_byte _)) fun _ => ?_
    refine W.safe_bind (W.safe_lift (real_attributesSize _ _ _ _)) fun _ => ?_
    refine W.safe_bind (W.safe_enc (by keeps_enc)) fun _ => ?_
    refine W.safe_bind (W.safe_lift (real_attributeSize _ _ _ _)) fun _ => ?_
    refine W.safe_bind (W.safe_enc (by keeps_enc)) fun _ => ?_
    refine W.safe_bind (W.safe_lift (real_extsSize _ _ _ _ _ _)) fun _ => ?_
    refine W.safe_bind (W.safe_enc (keeps_size _)) fun _ => ?_
    exact W.safe_bind (safe_exts _ _ _ _) fun _ => W.safe_pure _
  refine W.safe_bind (safe_backfill _) fun _ => ?_
  exact W.safe_bind W.safe_checkFits fun _ => W.safe_pure _

theorem safe_signed (cb : SignCb σ) (p : Profile) (c : Bool) (d : CertData cfg) (csr : Bool) :
    W.Safe (encCertOrCsr cb p c d csr) := by
  unfold encCertOrCsr
  refine W.safe_bind ?_ fun _ => W.safe_bind W.safe_checkFits fun _ => W.safe_pure _
  unfold encSigned
  refine W.safe_bind (W.safe_enc (keeps_byte _)) fun _ => ?_
  refine W.safe_bind (W.safe_push _) fun _ => ?_
  refine W.safe_bind ?_ fun _ => ?_
  · unfold encPayload
    split
    · exact safe_cri _ _ _
    · exact safe_tbs _ _ _
  refine W.safe_bind (W.safe_sign _ _ _ _) fun _ => ?_
  refine W.safe_bind (W.safe_enc (keeps_sigBits _ _)) fun _ => ?_
  exact W.safe_bind (safe_backfill _) fun _ => W.safe_pure _

theorem safe_encap (cb : SignCb σ) (p : Profile) (c : Bool) (d : CertData cfg) :
    W.Safe (encEncap cb p c d) := by
  unfold encEncap
  refine W.safe_bind (W.safe_enc (keeps_byte _)) fun _ => ?_
  refine W.safe_bind (W.safe_push _) fun _ => ?_
  refine W.safe_bind (W.safe_enc (by keeps_enc)) fun _ => ?_
  refine W.safe_bind (W.safe_push _) fun _ => ?_
  refine W.safe_bind (W.safe_enc (keeps_byte _)) fun _ => ?_
  refine W.safe_bind (W.safe_push _) fun _ => ?_
  refine W.safe_bind (safe_signed _ _ _ _ _) fun _ => ?_
  refine W.safe_bind (W.safe_setCsrRange _ _) fun _ => ?_
  unfold backfillEncap
  refine W.safe_bind W.safe_start fun _ => ?_
  refine W.safe_bind (W.safe_pop _) fun _ => ?_
  refine W.safe_bind (W.safe_enc (keeps_size _)) fun _ => ?_
  refine W.safe_bind (W.safe_pop _) fun _ => ?_
  refine W.safe_bind (W.safe_enc (keeps_size _)) fun _ => ?_
  refine W.safe_bind (W.safe_pop _) fun _ => ?_
  refine W.safe_bind (W.safe_enc (keeps_size _)) fun _ => ?_
  exact W.safe_bind W.safe_finish fun _ => W.safe_pure _

theorem safe_cms (cb : SignCb σ) (p : Profile) (c : Bool) (d : CertData cfg) (sid : SignerId) :
    W.Safe (encCms cb p c d sid) := by
  unfold encCms
  refine W.safe_bind (W.safe_enc (keeps_byte _)) fun _ => ?_
  refine W.safe_bind (W.safe_push _) fun _ => ?_
  refine W.safe_bind (W.safe_enc (by keeps_enc)) fun _ => ?_
  refine W.safe_bind (W.safe_push _) fun _ => ?_
  refine W.safe_bind (W.safe_enc (keeps_byte _)) fun _ => ?_
  refine W.safe_bind (W.safe_push _) fun _ => ?_
  refine W.safe_bind (W.safe_enc ?_) fun _ => ?_
  · have := keeps_hashAlg p
    keeps_enc
  refine W.safe_bind (safe_encap _ _ _ _) fun _ => ?_
  refine W.safe_bind W.safe_csrRange fun _ => ?_
  refine W.safe_bind (W.safe_sign _ _ _ _) fun sig => ?_
  refine W.safe_bind (W.safe_enc ?_) fun _ => ?_
  · have := keeps_signerInfo p sig sid
    keeps_enc
  refine W.safe_bind W.safe_checkFits fun _ => ?_
  refine W.safe_bind ?_ fun _ => ?_
  · unfold backfillCms
    refine W.safe_bind W.safe_start fun _ => ?_
    refine W.safe_bind (W.safe_pop _) fun _ => ?_
    refine W.safe_bind (W.safe_enc (keeps_size _)) fun _ => ?_
    refine W.safe_bind (W.safe_pop _) fun _ => ?_
    refine W.safe_bind (W.safe_enc (keeps_size _)) fun _ => ?_
    refine W.safe_bind (W.safe_pop _) fun _ => ?_
    refine W.safe_bind (W.safe_enc (keeps_size _)) fun _ => ?_
    exact W.safe_finish
  refine W.safe_bind W.safe_checkPopped fun _ => ?_
  exact W.safe_bind W.safe_checkFits fun _ => W.safe_pure _

/-! ### The generator -/

/-- From the state `st` the computation leaves the state and the size of the window alone, its results
satisfy `P` and its errors satisfy `Q`. -/
def M.Safe (st : State cfg) (Q : Err → Prop) (P : α → Prop) (m : M cfg σ α) : Prop :=
  ∀ s, s.st = st → (m s).2.st = st ∧ (m s).2.out.length = s.out.length ∧
    (∀ a, (m s).1 = .ok a → P a) ∧ (∀ e, (m s).1 = .error e → Q e)

section
variable {st : State cfg} {Q : Err → Prop} {P : α → Prop} {P' : β → Prop} {kind : CertKind}

theorem M.safe_bind {x : M cfg σ α} {f : α → M cfg σ β} (h : M.Safe st Q P x)
    (hf : ∀ a, P a → M.Safe st Q P' (f a)) : M.Safe st Q P' (x >>= f) := by
  intro s hs
  have h1 := h s hs
  have e : (x >>= f) s = match x s with
    | (.ok a, s') => f a s'
    | (.error e, s') => (.error e, s') := rfl
  rw [e]
  rcases hx : x s with ⟨er | a, s1⟩
  · rw [hx] at h1
    refine ⟨h1.1, h1.2.1, fun a ha => (by cases ha), fun e he => ?_⟩
    cases he
    exact h1.2.2.2 _ rfl
  · rw [hx] at h1
    have h2 := hf a (h1.2.2.1 a rfl) s1 h1.1
    exact ⟨h2.1, h2.2.1.trans h1.2.1, h2.2.2⟩

theorem M.safe_pure {a : α} (h : P a) : M.Safe st Q P (pure a : M cfg σ α) := by
  intro s hs
  refine ⟨hs, rfl, fun b hb => ?_, fun e he => ?_⟩
  · cases hb; exact h
  · cases he

theorem M.safe_mono {Q' : Err → Prop} {P' : α → Prop} {m : M cfg σ α} (h : M.Safe st Q P m)
    (hq : ∀ e, Q e → Q' e) (hp : ∀ a, P a → P' a) : M.Safe st Q' P' m := by
  intro s hs
  obtain ⟨h1, h2, h3, h4⟩ := h s hs
  exact ⟨h1, h2, fun a ha => hp a (h3 a ha), fun e he => hq e (h4 e he)⟩

theorem M.safe_lift {x : Except Err α} (h1 : ∀ a, x = .ok a → P a) (h2 : ∀ e, x = .error e → Q e) :
    M.Safe st Q P (M.lift x : M cfg σ α) := fun _ hs => ⟨hs, rfl, h1, h2⟩

theorem M.safe_fail {e : Err} (h : Q e) : M.Safe st Q P (M.fail e : M cfg σ α) := by
  intro s hs
  exact ⟨hs, rfl, fun a ha => (by cases ha), fun e' he => (by cases he; exact h)⟩

theorem M.safe_failIf {c : Bool} {e : Err} (h : c = true → Q e) :
    M.Safe st Q (fun _ => c = false) (M.failIf c e : M cfg σ Unit) := by
  intro s hs
  unfold M.failIf
  cases c
  · exact ⟨hs, rfl, fun a ha => rfl, fun e he => by cases he⟩
  · exact ⟨hs, rfl, fun a ha => (by cases ha), fun e he => (by cases he; exact h rfl)⟩

theorem M.safe_get : M.Safe st Q (fun a => a = st) (M.get : M cfg σ (State cfg)) := by
  intro s hs
  exact ⟨hs, rfl, fun a ha => by cases ha; exact hs, fun e he => by cases he⟩

theorem M.safe_crypto {f : σ → Except CryptoErr α × σ} (h1 : ∀ w a, (f w).1 = .ok a → P a)
    (h2 : ∀ w e, (f w).1 = .error e → Q (.crypto e)) : M.Safe st Q P (M.crypto f : M cfg σ α) := by
  intro s hs
  unfold M.crypto
  rcases hf : f s.w with ⟨e | a, w'⟩
  · refine ⟨hs, rfl, fun a ha => (by cases ha), fun e' he => ?_⟩
    cases he
    exact h2 s.w e (by rw [hf])
  · refine ⟨hs, rfl, fun b hb => ?_, fun e he => (by cases he)⟩
    cases hb
    exact h1 s.w a (by rw [hf])

theorem M.safe_platform {f : σ → Except PlatErr α × σ} (h1 : ∀ w a, (f w).1 = .ok a → P a)
    (h2 : ∀ w e, (f w).1 = .error e → Q (.platform e)) :
    M.Safe st Q P (M.platform f : M cfg σ α) := by
  intro s hs
  unfold M.platform
  rcases hf : f s.w with ⟨e | a, w'⟩
  · refine ⟨hs, rfl, fun a ha => (by cases ha), fun e' he => ?_⟩
    cases he
    exact h2 s.w e (by rw [hf])
  · refine ⟨hs, rfl, fun b hb => ?_, fun e he => (by cases he)⟩
    cases hb
    exact h1 s.w a (by rw [hf])

theorem M.safe_when {c : Bool} {x : M cfg σ Unit} (h : c = true → M.Safe st Q (fun _ => True) x) :
    M.Safe st Q (fun _ => True) (M.when c x ()) := by
  unfold M.when
  cases c
  · exact M.safe_pure trivial
  · exact h rfl

theorem M.safe_writer {m : W σ α} (h : m.Safe) (hp : ∀ b x a, (m (Writer.new b, x)).1 = .ok a → P a)
    (hq : ∀ b x e, (m (Writer.new b, x)).1 = .error e → Q e) :
    M.Safe st Q P (runWriter m : M cfg σ α) := by
  intro s hs
  have h1 := h (Writer.new s.out, s.w)
  have h2 := hp s.out s.w
  have h3 := hq s.out s.w
  unfold runWriter
  rcases hm : m (Writer.new s.out, s.w) with ⟨r, w', x'⟩
  rw [hm] at h1 h2 h3
  exact ⟨hs, h1.1, h2, h3⟩

/-- The errors of the parts of the generator that do not depend on the contexts. -/
structure CertErrors (cfg : Cfg) (ops : Ops σ) (kind : CertKind) (Q : Err → Prop) : Prop where
  hasher : ∀ w e, (ops.hasher w).1 = .error e → Q (.crypto e)
  hashInit : ∀ w e, (ops.hashInit w).1 = .error e → Q (.crypto e)
  hashUpdate : ∀ b w e, (ops.hashUpdate b w).1 = .error e → Q (.crypto e)
  hashFinish : ∀ w e, (ops.hashFinish w).1 = .error e → Q (.crypto e)
  deriveCdi : kind ≠ .exportedX509 → ∀ d l w e, (ops.deriveCdi d l w).1 = .error e → Q (.crypto e)
  deriveKeyPair : kind ≠ .exportedX509 → ∀ c l x w e, (ops.deriveKeyPair c l x w).1 = .error e →
    Q (.crypto e)
  deriveExportedCdi : kind = .exportedX509 → ∀ d l w e, (ops.deriveExportedCdi d l w).1 = .error e →
    Q (.crypto e)
  deriveKeyPairExported : kind = .exportedX509 → ∀ c l x w e, (ops.deriveKeyPairExported c l x w).1 = .error e →
    Q (.crypto e)
  publicKey : ∀ k w e, (ops.publicKey k w).1 = .error e → Q (.crypto e)
  vendorId : ∀ w e, (ops.vendorId w).1 = .error e → Q (.platform e)
  vendorSku : ∀ w e, (ops.vendorSku w).1 = .error e → Q (.platform e)
  issuerKeyId : ∀ w e, (ops.issuerKeyId w).1 = .error e → Q (.platform e)
  altName : ∀ w e, (ops.subjectAltName w).1 = .error e → e ≠ .notImplemented → Q (.platform e)
  validity : ∀ w e, (ops.certValidity w).1 = .error e → Q (.platform e)
  signerId : ∀ w e, (ops.signerId w).1 = .error e → Q (.platform e)
  digestSize : 48 < ops.digestSize → Q (.crypto .size)
  wrongKind : ∀ k w w' pk, ops.publicKey k w = (.ok pk, w') → mldsaKey pk ≠ ops.sigAlgMldsa →
    Q (.crypto .mismatchedAlgorithm)
  longDigest : ∀ w d w', ops.hashFinish w = (.ok d, w') → 48 < d.length → Q (.crypto .size)
  shortDigest : ∀ w d w', ops.hashFinish w = (.ok d, w') → d.length < 20 →
    Q (.internal .keyIdHashTooSmall)
  chunk : ∀ off len ch w w', ops.certChain off 2048 w = (.ok (len, ch), w') → 2048 < len.toNat →
    Q (.internal .certChainChunkSliceOob)
  endless : ∀ w, ChainGoes ops cfg.diceFuel 0 w → Q .panic

/-- The errors of the parts that depend on the contexts. -/
structure SlotErrors (a : CertArgs) (st : State cfg) (Q : Err → Prop) : Prop where
  lookup : ∀ e, st.findActive a.handle a.locality = .error e → Q e
  new : ∀ i e, st.findActive a.handle a.locality = .ok i → ChainIter.new i st.contexts = .error e → Q e
  items : ∀ i it x e, st.findActive a.handle a.locality = .ok i →
    ChainIter.new i st.contexts = .ok it → x ∈ it.items st.contexts (cfg.maxHandles + 2) →
    x = .error e → Q e
  nodes : ∀ i e, st.findActive a.handle a.locality = .ok i → tciNodesNew i st.contexts = .error e → Q e

theorem safe_chunks (he : CertErrors cfg ops kind Q) : ∀ l : List Bytes,
    M.Safe st Q (fun _ => True) (hashChunks ops l : M cfg σ Unit) := by
  intro l
  induction l with
  | nil => exact M.safe_pure trivial
  | cons b l ih =>
    exact M.safe_bind (P := fun _ => True) (M.safe_crypto (fun _ _ _ => trivial) (he.hashUpdate b)) fun _ _ => ih

/-- A digest that the hash engine can deliver. -/
def Digested (ops : Ops σ) (d : Bytes) : Prop := ∃ w w', ops.hashFinish w = (.ok d, w')

theorem safe_finish (he : CertErrors cfg ops kind Q) :
    M.Safe st Q (Digested ops) (M.crypto ops.hashFinish : M cfg σ Bytes) :=
  M.safe_crypto (fun w a h => ⟨w, (ops.hashFinish w).2, by rw [← h]⟩) he.hashFinish

theorem safe_hashAll (he : CertErrors cfg ops kind Q) (l : List Bytes) :
    M.Safe st Q (Digested ops) (hashAll ops l : M cfg σ Bytes) := by
  unfold hashAll
  refine M.safe_bind (P := fun _ => True) (M.safe_crypto (fun _ _ _ => trivial) he.hasher) fun _ _ => ?_
  refine M.safe_bind (P := fun _ => True) (M.safe_crypto (fun _ _ _ => trivial) he.hashInit) fun _ _ => ?_
  exact M.safe_bind (safe_chunks he l) fun _ _ => safe_finish he

theorem safe_nodes (he : CertErrors cfg ops kind Q) : ∀ (l : List (Except Err (Context cfg))) i d,
    (∀ x ∈ l, ∀ e, x = .error e → Q e) →
    M.Safe st Q (fun _ => True) (hashNodes ops l i d : M cfg σ _) := by
  intro l
  induction l with
  | nil => intro i d _; exact M.safe_pure trivial
  | cons x l ih =>
    intro i d h
    unfold hashNodes
    refine M.safe_bind (P := fun _ => True) (M.safe_lift (fun _ _ => trivial) (h x List.mem_cons_self)) fun c _ => ?_
    refine M.safe_bind (P := fun _ => True) (M.safe_crypto (fun _ _ _ => trivial) (he.hashUpdate _)) fun _ _ => ?_
    refine M.safe_bind (P := fun _ => True) (M.safe_crypto (fun _ _ _ => trivial) (he.hashUpdate _)) fun _ _ => ?_
    exact ih _ _ fun y hy => h y (List.mem_cons_of_mem _ hy)

theorem diceLoop_safe (hu : ∀ b w e, (ops.hashUpdate b w).1 = .error e → Q (.crypto e))
    (hch : ∀ off len ch w w', ops.certChain off 2048 w = (.ok (len, ch), w') → 2048 < len.toNat →
      Q (.internal .certChainChunkSliceOob)) : ∀ (fuel : Nat) (off : U32) (s : Sys cfg σ),
    s.st = st → (ChainGoes ops fuel off s.w → Q .panic) →
    (diceLoop ops fuel off s).2.st = st ∧ (diceLoop ops fuel off s).2.out.length = s.out.length ∧
      ∀ e, (diceLoop ops fuel off s).1 = .error e → Q e := by
  intro fuel
  induction fuel with
  | zero =>
    intro off s hs hp
    exact ⟨hs, rfl, fun e he => by cases he; exact hp .zero⟩
  | succ fuel ih =>
    intro off s hs hp
    unfold diceLoop
    rcases hc : ops.certChain off 2048 s.w with ⟨e | ⟨len, ch⟩, w1⟩
    · exact ⟨hs, rfl, fun e he => by cases he⟩
    · simp only
      by_cases hl : 2048 < len.toNat
      · have : (do
            M.failIf (decide (2048 < len.toNat)) (.internal .certChainChunkSliceOob)
            M.crypto (ops.hashUpdate (ch.toList.take len.toNat))
            diceLoop ops fuel (off + len) : M cfg σ Unit) { s with w := w1 } =
            (.error (.internal .certChainChunkSliceOob), { s with w := w1 }) := by
          simp only [M.failIf, hl, decide_true, if_true]
          rfl
        rw [this]
        refine ⟨hs, rfl, fun e he => ?_⟩
        cases he
        exact hch _ _ _ _ _ hc hl
      · have : (do
            M.failIf (decide (2048 < len.toNat)) (.internal .certChainChunkSliceOob)
            M.crypto (ops.hashUpdate (ch.toList.take len.toNat))
            diceLoop ops fuel (off + len) : M cfg σ Unit) { s with w := w1 } =
            (do
              M.crypto (ops.hashUpdate (ch.toList.take len.toNat))
              diceLoop ops fuel (off + len) : M cfg σ Unit) { s with w := w1 } := by
          have e : (M.failIf (decide (2048 < len.toNat)) (.internal .certChainChunkSliceOob) :
              M cfg σ Unit) { s with w := w1 } = (.ok (), { s with w := w1 }) := by
            simp [M.failIf, hl]
          show M.bind _ _ _ = _
          unfold M.bind
          rw [e]
        rw [this]
        rcases hu' : ops.hashUpdate (ch.toList.take len.toNat) w1 with ⟨e | ⟨⟩, w2⟩
        · have : (do
              M.crypto (ops.hashUpdate (ch.toList.take len.toNat))
              diceLoop ops fuel (off + len) : M cfg σ Unit) { s with w := w1 } =
              (.error (.crypto e), { s with w := w2 }) := by
            show M.bind _ _ _ = _
            unfold M.bind M.crypto
            simp only [hu']
          rw [this]
          refine ⟨hs, rfl, fun e' he => ?_⟩
          cases he
          exact hu _ w1 e (by rw [hu'])
        · have : (do
              M.crypto (ops.hashUpdate (ch.toList.take len.toNat))
              diceLoop ops fuel (off + len) : M cfg σ Unit) { s with w := w1 } =
              diceLoop ops fuel (off + len) { s with w := w2 } := by
            show M.bind _ _ _ = _
            unfold M.bind M.crypto
            simp only [hu']
          rw [this]
          exact ih (off + len) { s with w := w2 } hs fun hg => hp (.succ hc hu' hg)

theorem safe_dice (he : CertErrors cfg ops kind Q) :
    M.Safe st Q (fun _ => True) (diceLoop ops cfg.diceFuel 0 : M cfg σ Unit) := by
  intro s hs
  obtain ⟨h1, h2, h3⟩ := diceLoop_safe (st := st) he.hashUpdate he.chunk cfg.diceFuel 0 s hs
    (he.endless s.w)
  exact ⟨h1, h2, fun _ _ => trivial, h3⟩

theorem safe_digest (he : CertErrors cfg ops kind Q) {a : CertArgs} (hs : SlotErrors a st Q) {i : Nat}
    (hi : st.findActive a.handle a.locality = .ok i) :
    M.Safe st Q (fun _ => True) (computeMeasurementHash ops i : M cfg σ Bytes) := by
  unfold computeMeasurementHash
  refine M.safe_bind (P := fun _ => True) (M.safe_crypto (fun _ _ _ => trivial) he.hasher) fun _ _ => ?_
  refine M.safe_bind (P := fun _ => True) (M.safe_crypto (fun _ _ _ => trivial) he.hashInit) fun _ _ => ?_
  refine M.safe_bind M.safe_get fun st' hst => ?_
  subst hst
  refine M.safe_bind (P := fun it => ChainIter.new i st'.contexts = .ok it)
    (M.safe_lift (fun _ h => h) (fun e h => hs.new i e hi h)) fun it hit => ?_
  refine M.safe_bind (safe_nodes he _ _ _ fun x hx e hxe => hs.items i it x e hi hit hx hxe) fun f _ => ?_
  refine M.safe_bind (M.safe_when fun _ => ?_) fun _ _ => ?_
  · refine M.safe_bind (P := fun _ => True) ?_ fun b _ =>
      M.safe_crypto (fun _ _ _ => trivial) (he.hashUpdate _)
    unfold internalInfo getProfile
    refine M.safe_bind (P := fun _ => True) ?_ fun _ _ => M.safe_pure trivial
    refine M.safe_bind (P := fun _ => True) (M.safe_platform (fun _ _ _ => trivial) he.vendorId) fun _ _ => ?_
    refine M.safe_bind (P := fun _ => True) (M.safe_platform (fun _ _ _ => trivial) he.vendorSku) fun _ _ => ?_
    exact M.safe_pure trivial
  refine M.safe_bind (M.safe_when fun _ => safe_dice he) fun _ _ => ?_
  exact M.safe_mono (safe_finish he) (fun _ h => h) fun _ _ => trivial

/-- A public key that the crypto engine can deliver. -/
def Published (ops : Ops σ) (pk : PubKey) : Prop := ∃ k w w', ops.publicKey k w = (.ok pk, w')

theorem safe_key (he : CertErrors cfg ops kind Q) (a : CertArgs) (d : Bytes) :
    M.Safe st Q (fun r => Published ops r.1 ∧ r.2.isSome = kind.exported)
      (certKey ops kind.exported a d : M cfg σ _) := by
  have hp : ∀ k, M.Safe st Q (Published ops) (M.crypto (ops.publicKey k) : M cfg σ PubKey) := fun k =>
    M.safe_crypto (fun w a h => ⟨k, w, (ops.publicKey k w).2, by rw [← h]⟩) (he.publicKey k)
  unfold certKey
  cases hx : kind.exported
  · have h0 : kind ≠ .exportedX509 := by rintro rfl; cases hx
    simp only [Bool.false_eq_true, if_false]
    refine M.safe_bind (P := fun _ => True) (M.safe_crypto (fun _ _ _ => trivial) (he.deriveCdi h0 _ _)) fun _ _ => ?_
    refine M.safe_bind (P := fun _ => True) (M.safe_crypto (fun _ _ _ => trivial) (he.deriveKeyPair h0 _ _ _)) fun _ _ => ?_
    exact M.safe_bind (hp _) fun k hk => M.safe_pure ⟨hk, rfl⟩
  · have h0 : kind = .exportedX509 := by
      cases kind <;> first | rfl | cases hx
    simp only [if_true]
    refine M.safe_bind (P := fun _ => True) (M.safe_crypto (fun _ _ _ => trivial) (he.deriveExportedCdi h0 _ _)) fun _ _ => ?_
    refine M.safe_bind (P := fun _ => True) (M.safe_crypto (fun _ _ _ => trivial) (he.deriveKeyPairExported h0 _ _ _)) fun _ _ => ?_
    exact M.safe_bind (hp _) fun k hk => M.safe_pure ⟨hk, rfl⟩

/-- The subject names that are possible for a key. -/
def NameOk (ops : Ops σ) (exported : Bool) (pk : PubKey) (n : Name) : Prop :=
  mldsaKey pk = ops.sigAlgMldsa ∧ ∃ sn, 20 ≤ sn.length ∧
    n = ⟨.printable (if exported then ascii "DPE Exported CDI" else ascii "DPE Leaf"), .printable sn⟩

theorem hexString_size (d : Bytes) : (hexString d).length = d.length * 2 := by
  induction d with
  | nil => rfl
  | cons b d ih =>
    show (hexDigit _ :: hexDigit _ :: hexString d).length = _
    simp only [List.length_cons, ih]; omega

theorem safe_subject (he : CertErrors cfg ops kind Q) (exported : Bool) {pk : PubKey}
    (hk : Published ops pk) :
    M.Safe st Q (NameOk ops exported pk) (subjectName ops exported pk : M cfg σ Name) := by
  unfold subjectName
  refine M.safe_bind (P := fun b => mldsaKey pk = ops.sigAlgMldsa ∧ b.length = 96) ?_ fun b hb => ?_
  · unfold pubkeySerial
    refine M.safe_bind (M.safe_failIf fun h => he.digestSize ?_) fun _ _ => ?_
    · have := of_decide_eq_true h; omega
    refine M.safe_bind (M.safe_failIf fun h => ?_) fun _ h => ?_
    · obtain ⟨k, w, w', hk⟩ := hk
      refine he.wrongKind k w w' pk hk ?_
      rw [← mldsaKey_eq]
      exact bne_iff_ne.1 h
    refine M.safe_bind (safe_hashAll he _) fun d hd => ?_
    have hm : mldsaKey pk = ops.sigAlgMldsa := by
      rw [← mldsaKey_eq]; simpa using h
    refine M.safe_lift (fun b hb => ⟨hm, ?_⟩) fun e hee => ?_
    · unfold writeHex at hb
      split at hb
      · cases hb
      · injection hb with hb
        subst hb
        rw [List.length_append, List.length_replicate, hexString_size]
        omega
    · unfold writeHex at hee
      split at hee
      · injection hee with hee
        subst hee
        obtain ⟨w, w', hd⟩ := hd
        exact he.longDigest w d w' hd (by omega)
      · cases hee
  · refine M.safe_pure ⟨hb.1, b.take 64, ?_, rfl⟩
    rw [List.length_take]; omega

theorem safe_altName (he : CertErrors cfg ops kind Q) :
    M.Safe st Q (fun _ => True) (getAltName ops : M cfg σ _) := by
  intro s hs
  unfold getAltName
  have h := he.altName s.w
  rcases ha : ops.subjectAltName s.w with ⟨e | a, w'⟩
  · rw [ha] at h
    by_cases hn : e = .notImplemented
    · subst hn
      exact ⟨hs, rfl, fun _ _ => trivial, fun e he => by cases he⟩
    · split
      · rename_i hh; cases hh
      · rename_i hh; injection hh with hh _; injection hh with hh; exact absurd hh hn
      rename_i e0 w0 _ hh
      injection hh with h5 h6
      injection h5 with h5
      subst h5
      refine ⟨hs, rfl, fun _ h => (by cases h), fun e1 h1 => ?_⟩
      cases h1
      exact h e rfl hn
  · exact ⟨hs, rfl, fun _ _ => trivial, fun e he => by cases he⟩

/-- The errors of the writer on the data that the generator hands to it. -/
structure WriteErrors (ops : Ops σ) (kind : CertKind) (a : CertArgs) (st : State cfg)
    (Q : Err → Prop) : Prop where
  cert : ∀ (i : Nat) (digest : Bytes) (h : Option (BArr 32)) (d : CertData cfg) (serial : Bytes),
    st.findActive a.handle a.locality = .ok i → kind ≠ .leafCsr →
    20 ≤ serial.length →
    d.meas.start = i → d.meas.contexts = st.contexts → NameOk ops kind.exported d.pubKey d.subject →
    ∀ b x e, (encCertOrCsr (signCb ops a digest kind.exported h) cfg.profile a.critDice
      { d with serial := serial.take 20 } false (Writer.new b, x)).1 = .error e → Q e
  request : ∀ (i : Nat) (digest : Bytes) (h : Option (BArr 32)) (d : CertData cfg) (sid : SignerId),
    st.findActive a.handle a.locality = .ok i → kind = .leafCsr →
    d.meas.start = i → d.meas.contexts = st.contexts → NameOk ops kind.exported d.pubKey d.subject →
    (∃ w w', ops.signerId w = (.ok sid, w')) →
    ∀ b x e, (encCms (signCb ops a digest kind.exported h) cfg.profile a.critDice d sid
      (Writer.new b, x)).1 = .error e → Q e
  huge : Q (.internal .certSizeOverflow)
  issuerName : ∀ w e, (ops.issuerName w).1 = .error e → Q (.platform e)
  longIssuer : ∀ w n b w', ops.issuerName w = (.ok (n, b), w') → 128 < n →
    Q (.internal .issuerNameTooLong)
  huge' : ∀ (i : Nat) (digest : Bytes) (h : Option (BArr 32)) (d : CertData cfg) (sid : SignerId),
    st.findActive a.handle a.locality = .ok i → kind = .leafCsr →
    d.meas.start = i → d.meas.contexts = st.contexts → NameOk ops kind.exported d.pubKey d.subject →
    (∃ w w', ops.signerId w = (.ok sid, w')) →
    ∀ b x n, (encCms (signCb ops a digest kind.exported h) cfg.profile a.critDice d sid
      (Writer.new b, x)).1 = .ok n → ¬ n < 4294967296 → Q (.internal .csrSizeOverflow)

theorem safe_create {a : CertArgs} (he : CertErrors cfg ops kind Q)
    (hs : SlotErrors a st Q) (hw : WriteErrors ops kind a st Q) :
    M.Safe st Q (fun _ => True) (createCert ops kind a : M cfg σ CertResult) := by
  unfold createCert
  refine M.safe_bind M.safe_get fun st' hst => ?_
  subst hst
  refine M.safe_bind (P := fun i => st'.findActive a.handle a.locality = .ok i)
    (M.safe_lift (fun _ h => h) hs.lookup) fun i hi => ?_
  refine M.safe_bind (safe_digest he hs hi) fun digest _ => ?_
  refine M.safe_bind (safe_key he _ _) fun kh hkh => ?_
  obtain ⟨k, h⟩ := kh
  obtain ⟨hk, hh⟩ := hkh
  simp only at hk hh ⊢
  refine M.safe_bind (safe_subject he _ hk) fun subject hsub => ?_
  refine M.safe_bind (P := fun _ => True) ?_ fun ski _ => ?_
  · unfold subjectKeyIdOf
    refine M.safe_bind (safe_hashAll he _) fun d hd => ?_
    refine M.safe_bind (M.safe_failIf fun h => ?_) fun _ _ => M.safe_pure trivial
    obtain ⟨w, w', hd⟩ := hd
    exact he.shortDigest w d w' hd (of_decide_eq_true h)
  refine M.safe_bind (P := fun _ => True) (M.safe_platform (fun _ _ _ => trivial) he.issuerKeyId) fun aki _ => ?_
  refine M.safe_bind (safe_altName he) fun alt _ => ?_
  refine M.safe_bind M.safe_get fun st'' hst => ?_
  subst hst
  refine M.safe_bind (P := fun i => st''.findActive a.handle a.locality = .ok i)
    (M.safe_lift (fun _ h => h) hs.lookup) fun i' hi' => ?_
  refine M.safe_bind (P := fun _ => True) (M.safe_lift (fun _ _ => trivial) fun e h => hs.nodes i' e hi' h) fun _ _ => ?_
  refine M.safe_bind (P := fun _ => True) (M.safe_platform (fun _ _ _ => trivial) he.validity) fun validity _ => ?_
  refine M.safe_bind (P := fun sid => ∃ w w', ops.signerId w = (.ok sid, w'))
    (M.safe_platform (fun w a h => ⟨w, (ops.signerId w).2, by rw [← h]⟩) he.signerId) fun sid hsid => ?_
  refine M.safe_bind (P := fun _ => True) ?_ fun n _ => ?_
  · unfold finishCert
    split
    · rename_i hc
      unfold generate
      refine M.safe_bind (P := fun n => ¬ n < 4294967296 → Q (.internal .csrSizeOverflow))
        (M.safe_writer (safe_cms _ _ _ _ _) ?_ ?_) fun n hn => ?_
      · intro b x n h hlt
        exact hw.huge' i' digest _ _ sid hi' hc rfl rfl hsub hsid b x n h hlt
      · intro b x e h
        exact hw.request i' digest _ _ sid hi' hc rfl rfl hsub hsid b x e h
      · refine M.safe_lift (fun _ _ => trivial) fun e h => ?_
        unfold toU32 at h
        split at h
        · cases h
        · injection h with h; subst h; exact hn ‹_›
    · rename_i hc
      refine M.safe_bind (P := fun _ => True) ?_ fun issuer _ => ?_
      · unfold getIssuer
        refine M.safe_bind (P := fun r => ∃ w w', ops.issuerName w = (.ok r, w'))
          (M.safe_platform (fun w a h => ⟨w, (ops.issuerName w).2, by rw [← h]⟩) hw.issuerName) fun r hr => ?_
        refine M.safe_bind (M.safe_failIf fun h => ?_) fun _ _ => M.safe_pure trivial
        obtain ⟨w, w', hr⟩ := hr
        exact hw.longIssuer w r.1 r.2 w' hr (of_decide_eq_true h)
      · unfold generate
        obtain ⟨_, sn, hl, hsn⟩ := id hsub
        refine M.safe_bind (M.safe_failIf fun h => ?_) fun _ hl' => ?_
        · exfalso
          have := of_decide_eq_true h
          simp only [hsn, DirString.bytes] at this
          omega
        refine M.safe_bind (P := fun _ => True) (M.safe_writer (safe_signed _ _ _ _ _) (fun _ _ _ _ => trivial) ?_) fun n _ => ?_
        · intro b x e h
          exact hw.cert i' digest _ _ _ hi' hc (by have := of_decide_eq_false hl'; omega)
            rfl rfl hsub b x e h
        · refine M.safe_lift (fun _ _ => trivial) fun e h => ?_
          unfold toU32 at h
          split at h
          · cases h
          · injection h with h; subst h; exact hw.huge
  · split
    · rename_i hx
      rw [hx] at hh
      obtain ⟨h0, rfl⟩ := Option.isSome_iff_exists.1 hh
      exact M.safe_bind (P := fun _ => True)
        (fun s hs => ⟨hs, rfl, fun _ _ => trivial, fun e he => by cases he⟩) fun _ _ => M.safe_pure trivial
    · exact M.safe_pure trivial
end

/-- The generator never fails with "no error" and keeps the size of its window. -/
theorem create_real (ops : Ops σ) (kind : CertKind) (a : CertArgs) (st : State cfg) :
    M.Safe st (fun e => e ≠ .noError) (fun _ => True) (createCert ops kind a : M cfg σ CertResult) := by
  have hr : ∀ {γ : Type} {x : Except Err γ} {e : Err}, Real x → x = .error e → e ≠ .noError := by
    rintro γ x e h rfl rfl; exact h rfl
  refine safe_create ?_ ?_ ?_
  · constructor <;> intros <;> intro h <;> cases h
  · exact ⟨fun e h => hr (real_findActive _ _ _) h, fun i e _ h => hr (real_chainNew _ _) h,
      fun i it x e _ _ hx h => hr (real_items _ _ _ x hx) h, fun i e _ h => hr (real_tciNodesNew _ _) h⟩
  · refine ⟨?_, ?_, by decide, (by intros; intro h; cases h), (by intros; intro h; cases h), (by intros; decide)⟩
    · intro i digest h d serial _ _ _ _ _ _ b x e he
      exact hr (safe_signed _ _ _ _ _ (Writer.new b, x)).2 he
    · intro i digest h d sid _ _ _ _ _ _ b x e he
      exact hr (safe_cms _ _ _ _ _ (Writer.new b, x)).2 he

theorem env_keeps (cfg : Cfg) (ops : Ops σ) : KeepsWindow (ops.env cfg) := by
  intro kind args st w win x win' h
  have := (create_real ops kind args st ⟨st, w, win⟩ rfl).2.1
  have e : (ops.env cfg).certGen kind args st w win =
      (((createCert ops kind args ⟨st, w, win⟩).1, (createCert ops kind args ⟨st, w, win⟩).2.w),
        (createCert ops kind args ⟨st, w, win⟩).2.out) := rfl
  rw [e] at h
  injection h with _ h
  rw [← h]; exact this

theorem env_names (cfg : Cfg) (ops : Ops σ) : NamesErrors (ops.env cfg) := by
  intro kind args st w win w' win' h
  have := (create_real ops kind args st ⟨st, w, win⟩ rfl).2.2.2
  have e : (ops.env cfg).certGen kind args st w win =
      (((createCert ops kind args ⟨st, w, win⟩).1, (createCert ops kind args ⟨st, w, win⟩).2.w),
        (createCert ops kind args ⟨st, w, win⟩).2.out) := rfl
  rw [e] at h
  injection h with h _
  injection h with h _
  exact this _ h rfl

end Dpe
