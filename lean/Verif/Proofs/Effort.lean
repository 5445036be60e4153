import Verif.Spec.Effort
import Verif.Proofs.UsesLog
import Verif.Proofs.Iter
/-
Counting the calls of every function.
-/
namespace Dpe
variable {cfg : Cfg} {σ : Type} {ops : Ops σ} {α β : Type}

theorem chainReads_append (a b : List (Use ops)) : chainReads (a ++ b) = chainReads a + chainReads b := by
  induction a with
  | nil => simp [chainReads]
  | cons u us ih => cases u <;> simp [chainReads, ih, Nat.add_right_comm]

/-- A way to say that calls are few, by a number. -/
class Counts (P : Nat → List (Use ops) → Prop) : Prop where
  nil : ∀ {n}, P n []
  append : ∀ {n k a b}, P n a → P k b → P (n + k) (a ++ b)
  mono : ∀ {n k a}, P n a → n ≤ k → P k a
  one : ∀ u, P 1 [u]

/-- At most `n` calls. -/
def AtMost (n : Nat) (es : List (Use ops)) : Prop := es.length ≤ n

instance : Counts (AtMost (ops := ops)) where
  nil := Nat.zero_le _
  append := by
    intro n k a b ha hb
    unfold AtMost at *
    rw [List.length_append]
    omega
  mono := Nat.le_trans
  one _ := Nat.le_refl _

/-- At most `n` calls and two for each chunk of the certificate chain. -/
def Few (n : Nat) (es : List (Use ops)) : Prop := es.length ≤ n + 2 * chainReads es

instance : Counts (Few (ops := ops)) where
  nil := Nat.zero_le _
  append := by
    intro n k a b ha hb
    unfold Few at *
    rw [List.length_append, chainReads_append]
    omega
  mono := by
    intro n k a ha h
    unfold Few at *; omega
  one u := by unfold Few; simp only [List.length_singleton]; omega

variable {P : Nat → List (Use ops) → Prop} [Counts P]

/-- Whatever the outcome, the program makes few calls. -/
def Effort (P : Nat → List (Use ops) → Prop) (n : Nat) (m : M cfg (σ × List (Use ops)) α) : Prop :=
  ∀ st w l out, ∃ es, (m ⟨st, (w, l), out⟩).2.w.2 = l ++ es ∧ P n es

namespace Effort

theorem mono {n k : Nat} {m : M cfg (σ × List (Use ops)) α} (h : Effort P n m) (hk : n ≤ k) : Effort P k m := by
  intro st w l out
  obtain ⟨es, h1, h2⟩ := h st w l out
  exact ⟨es, h1, Counts.mono h2 hk⟩

theorem plus {n k t : Nat} {x : M cfg (σ × List (Use ops)) α} {f : α → M cfg (σ × List (Use ops)) β}
    (hx : Effort P n x) (hf : ∀ a, Effort P k (f a)) (ht : n + k ≤ t) : Effort P t (x >>= f) := by
  intro st w l out
  have e : (x >>= f) ⟨st, (w, l), out⟩ = M.bind x f ⟨st, (w, l), out⟩ := rfl
  rw [e]
  unfold M.bind
  obtain ⟨es, h1, h2⟩ := hx st w l out
  rcases h : x ⟨st, (w, l), out⟩ with ⟨e | a, s'⟩
  · rw [h] at h1
    exact ⟨es, h1, Counts.mono h2 (by omega)⟩
  · rw [h] at h1
    obtain ⟨st', ⟨w', l'⟩, out'⟩ := s'
    simp only at h1
    subst h1
    obtain ⟨es', h3, h4⟩ := hf a st' w' (l ++ es) out'
    refine ⟨es ++ es', ?_, Counts.mono (Counts.append h2 h4) ht⟩
    simp only
    rw [h3, List.append_assoc]

theorem bind {n : Nat} {x : M cfg (σ × List (Use ops)) α} {f : α → M cfg (σ × List (Use ops)) β}
    (hx : Effort P 0 x) (hf : ∀ a, Effort P n (f a)) : Effort P n (x >>= f) := hx.plus hf (by omega)

theorem bindr {n : Nat} {x : M cfg (σ × List (Use ops)) α} {f : α → M cfg (σ × List (Use ops)) β}
    (hx : Effort P n x) (hf : ∀ a, Effort P 0 (f a)) : Effort P n (x >>= f) := hx.plus hf (by omega)

theorem silent {n : Nat} {m : M cfg (σ × List (Use ops)) α} (h : ∀ s, (m s).2.w = s.w) : Effort P n m := by
  intro st w l out
  exact ⟨[], by rw [h]; simp, Counts.nil⟩

theorem pure (a : α) : Effort P 0 (Pure.pure a : M cfg (σ × List (Use ops)) α) := silent fun _ => rfl
theorem lift (x : Except Err α) : Effort P 0 (M.lift x : M cfg (σ × List (Use ops)) α) := silent fun _ => rfl
theorem okOr (x : Option α) (e : Err) : Effort P 0 (M.okOr x e : M cfg (σ × List (Use ops)) α) := by
  cases x <;> exact silent fun _ => rfl
theorem failIf (b : Bool) (e : Err) : Effort P 0 (M.failIf b e : M cfg (σ × List (Use ops)) Unit) := by
  cases b <;> exact silent fun _ => rfl
theorem fail {n : Nat} (e : Err) : Effort P n (M.fail e : M cfg (σ × List (Use ops)) α) := silent fun _ => rfl
theorem get : Effort P 0 (M.get : M cfg (σ × List (Use ops)) (State cfg)) := silent fun _ => rfl
theorem modify (f : State cfg → State cfg) : Effort P 0 (M.modify f : M cfg (σ × List (Use ops)) Unit) :=
  silent fun _ => rfl
theorem writeAt (n : Nat) (b : Bytes) : Effort P 0 (Dpe.writeAt n b : M cfg (σ × List (Use ops)) Unit) := by
  refine silent fun s => ?_
  unfold Dpe.writeAt
  rcases bufWrite s.out n b with _ | x <;> rfl

theorem crypto (f : σ → Except CryptoErr α × σ) (u : Except CryptoErr α → Use ops) :
    Effort P 1 (M.crypto (noted f u) : M cfg (σ × List (Use ops)) α) := by
  intro st w l out
  refine ⟨[u (f w).1], ?_, Counts.one _⟩
  unfold M.crypto noted
  rcases f w with ⟨e | a, w'⟩ <;> simp

theorem platform (f : σ → Except PlatErr α × σ) (u : Except PlatErr α → Use ops) :
    Effort P 1 (M.platform (noted f u) : M cfg (σ × List (Use ops)) α) := by
  intro st w l out
  refine ⟨[u (f w).1], ?_, Counts.one _⟩
  unfold M.platform noted
  rcases f w with ⟨e | a, w'⟩ <;> simp

omit [Counts P] in
theorem ite {c : Prop} [Decidable c] {n : Nat} {x y : M cfg (σ × List (Use ops)) α} (hx : Effort P n x)
    (hy : Effort P n y) : Effort P n (if c then x else y) := by
  split
  · exact hx
  · exact hy

/-- One call and then some. -/
theorem cryptoThen {n : Nat} (f : σ → Except CryptoErr α × σ) (u : Except CryptoErr α → Use ops)
    {g : α → M cfg (σ × List (Use ops)) β} (hg : ∀ a, Effort P n (g a)) :
    Effort P (n + 1) (M.crypto (noted f u) >>= g) := (crypto f u).plus hg (by omega)

theorem platformThen {n : Nat} (f : σ → Except PlatErr α × σ) (u : Except PlatErr α → Use ops)
    {g : α → M cfg (σ × List (Use ops)) β} (hg : ∀ a, Effort P n (g a)) :
    Effort P (n + 1) (M.platform (noted f u) >>= g) := (platform f u).plus hg (by omega)

theorem genLoop (n : Nat) : Effort P n (genHandleLoop ops.logged n : M cfg _ Handle) := by
  induction n with
  | zero => exact fail _
  | succ n ih =>
    unfold genHandleLoop
    exact cryptoThen _ (fun _ => .rand) fun _ => bind get fun _ => ite ((pure _).mono (by omega)) ih

theorem newHandle : Effort P 8 (generateNewHandle ops.logged : M cfg _ Handle) := genLoop 8

theorem roll (c : Context cfg) : Effort P 8 (rollHandle ops.logged c) := by
  unfold rollHandle
  exact ite ((pure _).mono (by omega)) (bindr newHandle fun _ => pure _)

theorem chunks (bs : List Bytes) : Effort P bs.length (hashChunks ops.logged bs : M cfg _ Unit) := by
  induction bs with
  | nil => exact pure _
  | cons b bs ih => unfold hashChunks; exact cryptoThen _ (fun _ => .hashUpdate b) fun _ => ih

theorem hashAll (bs : List Bytes) {n : Nat} (hn : bs.length + 3 ≤ n) :
    Effort P n (Dpe.hashAll ops.logged bs : M cfg _ Bytes) := by
  unfold Dpe.hashAll
  refine (cryptoThen _ (fun _ => .hasher) fun _ => cryptoThen _ (fun _ => .hashInit) fun _ =>
    (chunks bs).plus (fun _ => crypto _ .hashFinish) (Nat.le_refl _) : Effort P (bs.length + 1 + 1 + 1) _).mono hn

theorem addTci (c : Context cfg) (m : BArr cfg.tciSize) (loc : U32) : Effort P 5 (Dpe.addTci ops.logged c m loc) := by
  unfold Dpe.addTci
  exact bind (failIf _ _) fun _ => bind (failIf _ _) fun _ => bindr (hashAll _ (by simp)) fun _ =>
    bind (lift _) fun _ => pure _

theorem getProfile (s : U32) : Effort P 2 (Dpe.getProfile ops.logged s : M cfg _ Bytes) := by
  unfold Dpe.getProfile
  exact platformThen _ (fun _ => .vendorId) fun _ => platformThen _ (fun _ => .vendorSku) fun _ => pure _

/-- The contexts before the first error. -/
def oks : List (Except Err (Context cfg)) → Nat
  | .ok _ :: xs => oks xs + 1
  | _ => 0

theorem oks_items (ctxs : List (Context cfg)) (n : Nat) (it : ChainIter) :
    oks (it.items ctxs n) + it.count ≤ max it.count cfg.maxHandles := by
  induction n generalizing it with
  | zero => simp only [ChainIter.items, oks]; omega
  | succ n ih =>
    unfold ChainIter.items ChainIter.next
    by_cases h1 : it.done = true
    · simp only [h1, if_true, oks]; omega
    · by_cases h2 : it.count ≥ it.pathLen
      · simp only [h1, h2, if_true, if_false, Bool.false_eq_true, oks]; omega
      · by_cases h3 : it.count ≥ cfg.maxHandles
        · simp only [h1, h2, h3, if_true, if_false, Bool.false_eq_true, oks]; omega
        · simp only [h1, h2, h3, if_false, Bool.false_eq_true]
          rcases getCtx ctxs it.front with e | c
          · simp only [oks]; omega
          · simp only [oks]
            have := ih { it with done := c.parentIdx == ROOT, front := c.parentIdx, count := it.count + 1 }
            simp only at this
            omega

theorem nodes (xs : List (Except Err (Context cfg))) (i d : Bool) :
    Effort P (2 * oks xs) (hashNodes ops.logged xs i d) := by
  induction xs generalizing i d with
  | nil => exact pure _
  | cons x xs ih =>
    unfold hashNodes
    rcases x with e | c
    · exact silent fun _ => rfl
    · have e1 : ∀ (f : Context cfg → M cfg (σ × List (Use ops)) (Bool × Bool)), (M.lift (.ok c) >>= f) = f c :=
        fun _ => rfl
      rw [e1]
      exact (cryptoThen _ (fun _ => .hashUpdate _) fun _ => cryptoThen _ (fun _ => .hashUpdate _) fun _ => ih _ _
        : Effort P (2 * oks xs + 1 + 1) _)

theorem dice (n : Nat) (off : U32) : Effort Few 0 (diceLoop ops.logged n off : M cfg _ Unit) := by
  induction n generalizing off with
  | zero => exact fail _
  | succ n ih =>
    intro st w l out
    unfold diceLoop
    have hc : ops.logged.certChain off 2048 (w, l) = ((ops.certChain off 2048 w).1,
      ((ops.certChain off 2048 w).2, l ++ [.certChain off 2048])) := rfl
    simp only [hc]
    rcases ops.certChain off 2048 w with ⟨e | ⟨len, chunk⟩, w'⟩
    · exact ⟨[.certChain off 2048], rfl, by simp [Few, chainReads]⟩
    · simp only
      have : Effort Few 1 (do
          M.failIf (decide (2048 < len.toNat)) (.internal .certChainChunkSliceOob)
          M.crypto (ops.logged.hashUpdate (chunk.toList.take len.toNat))
          diceLoop ops.logged n (off + len) : M cfg (σ × List (Use ops)) Unit) :=
        bind (failIf _ _) fun _ => cryptoThen _ (fun _ => .hashUpdate _) fun _ => ih _
      obtain ⟨es, h1, h2⟩ := this st w' (l ++ [.certChain off 2048]) out
      refine ⟨.certChain off 2048 :: es, ?_, ?_⟩
      · rw [h1, List.append_assoc]; rfl
      · unfold Few at *
        simp only [List.length_cons, chainReads]
        omega

theorem when {c : Bool} {x : M cfg (σ × List (Use ops)) α} {a : α} {n : Nat} (h : Effort P n x) :
    Effort P n (M.when c x a) := by
  unfold M.when
  exact ite h ((pure _).mono (by omega))

theorem lifted {n : Nat} {x : Except Err α} {f : α → M cfg (σ × List (Use ops)) β}
    (hf : ∀ a, x = .ok a → Effort P n (f a)) : Effort P n (M.lift x >>= f) := by
  cases x with
  | error e => exact silent fun _ => rfl
  | ok a => exact hf a rfl

theorem measure {D : Nat} (hd : Effort P D (diceLoop ops.logged cfg.diceFuel 0 : M cfg _ Unit)) (i : Nat) :
    Effort P (2 * cfg.maxHandles + 6 + D) (computeMeasurementHash ops.logged i : M cfg _ Bytes) := by
  unfold computeMeasurementHash internalInfo
  refine plus (k := 2 * cfg.maxHandles + 5 + D) (crypto _ fun _ => .hasher) (fun _ => ?_) (by omega)
  refine plus (k := 2 * cfg.maxHandles + 4 + D) (crypto _ fun _ => .hashInit) (fun _ => bind get fun st =>
    lifted fun it hit => ?_) (by omega)
  have hn : oks (it.items st.contexts (cfg.maxHandles + 2)) ≤ cfg.maxHandles := by
    have hc : it.count = 0 := by
      unfold ChainIter.new at hit
      split at hit <;> cases hit
      rfl
    have := oks_items st.contexts (cfg.maxHandles + 2) it
    omega
  refine plus ((nodes _ _ _).mono (Nat.mul_le_mul_left 2 hn)) (k := 4 + D) (fun p => ?_) (by omega)
  obtain ⟨info, dc⟩ := p
  refine plus (n := 3) (k := D + 1) (when ?_) (fun _ => plus (when hd) (fun _ => crypto _ .hashFinish) (Nat.le_refl _))
    (by omega)
  exact plus (bindr (getProfile _) fun _ => pure _) (fun _ => crypto _ fun _ => .hashUpdate _) (by omega)

end Effort

/-! ### The certificate writer -/

/-- The writer calls nothing. -/
def WQuiet {τ : Type} (m : W τ α) : Prop := ∀ wr x, (m (wr, x)).2.2 = x

namespace WQuiet
variable {τ : Type}

theorem bind {x : W τ α} {f : α → W τ β} (hx : WQuiet x) (hf : ∀ a, WQuiet (f a)) : WQuiet (x >>= f) := by
  intro wr w
  have e : (x >>= f) (wr, w) = W.bind x f (wr, w) := rfl
  rw [e]
  unfold W.bind
  have h1 := hx wr w
  rcases h : x (wr, w) with ⟨e | a, s'⟩
  · rw [h] at h1; exact h1
  · rw [h] at h1
    obtain ⟨wr', w'⟩ := s'
    simp only at h1
    subst h1
    exact hf a wr' w'

theorem pure (a : α) : WQuiet (Pure.pure a : W τ α) := fun _ _ => rfl
theorem enc (e : Enc) : WQuiet (W.enc e : W τ _) := fun _ _ => rfl
theorem lift (x : Except Err α) : WQuiet (W.lift x : W τ _) := fun _ _ => rfl
theorem push (n : Nat) : WQuiet (W.push n : W τ _) := by
  intro wr w; simp only [W.push]; split <;> rfl
theorem pop (n : Nat) : WQuiet (W.pop n : W τ _) := by
  intro wr w
  simp only [W.pop]; split
  · rfl
  · split
    · rfl
    · split <;> rfl
theorem start : WQuiet (W.start : W τ _) := by intro wr w; simp only [W.start]; split <;> rfl
theorem finish : WQuiet (W.finish : W τ _) := by intro wr w; simp only [W.finish]; split <;> rfl
theorem checkFits : WQuiet (W.checkFits : W τ _) := by intro wr w; simp only [W.checkFits]; split <;> rfl
theorem checkPopped : WQuiet (W.checkPopped : W τ _) := by intro wr w; simp only [W.checkPopped]; split <;> rfl
theorem csrRange : WQuiet (W.csrRange : W τ _) := by intro wr w; simp only [W.csrRange]; split <;> rfl
theorem setCsrRange (a b : Nat) : WQuiet (W.setCsrRange a b : W τ _) := fun _ _ => rfl

end WQuiet

/-- One step of the proofs below. -/
macro "quiet_step" : tactic => `(tactic| first
  | assumption
  | exact WQuiet.enc _ | exact WQuiet.lift _ | exact WQuiet.pure _ | exact WQuiet.push _
  | exact WQuiet.pop _ | exact WQuiet.start | exact WQuiet.finish | exact WQuiet.checkFits
  | exact WQuiet.checkPopped | exact WQuiet.csrRange | exact WQuiet.setCsrRange _ _
  | (refine WQuiet.bind ?_ fun _ => ?_)
  | split)

namespace WQuiet
variable {τ : Type}

theorem tcbLoop (p : Profile) (r : Bool) (l : List (Except Err (Context cfg))) :
    WQuiet (Dpe.tcbLoop p r l : W τ _) := by
  induction l with
  | nil => exact pure _
  | cons x xs ih => unfold Dpe.tcbLoop; repeat with_reducible quiet_step

theorem encMultiTcb (p : Profile) (c : Bool) (md : MeasData cfg) : WQuiet (Dpe.encMultiTcb p c md : W τ _) := by
  unfold Dpe.encMultiTcb
  repeat with_reducible first | exact tcbLoop _ _ _ | quiet_step

theorem encExtsWrapper (p : Profile) (c : Bool) (md : MeasData cfg) (b : Bool) :
    WQuiet (Dpe.encExtsWrapper p c md b : W τ _) := by
  unfold Dpe.encExtsWrapper; repeat with_reducible quiet_step

theorem encExts (p : Profile) (c : Bool) (md : MeasData cfg) (b : Bool) :
    WQuiet (Dpe.encExts p c md b : W τ _) := by
  unfold Dpe.encExts
  repeat with_reducible first | exact encExtsWrapper _ _ _ _ | exact encMultiTcb _ _ _ | quiet_step

theorem encRdnChecked (n : Name) : WQuiet (Dpe.encRdnChecked n : W τ _) := by
  unfold Dpe.encRdnChecked; repeat with_reducible quiet_step

theorem encSpki (p : Profile) (k : PubKey) : WQuiet (Dpe.encSpki p k : W τ _) := by
  unfold Dpe.encSpki; repeat with_reducible quiet_step

theorem backfill (n : Nat) : WQuiet (Dpe.backfill n : W τ _) := by
  unfold Dpe.backfill; repeat with_reducible quiet_step

theorem encTbs (p : Profile) (c : Bool) (d : CertData cfg) : WQuiet (Dpe.encTbs p c d : W τ _) := by
  unfold Dpe.encTbs
  repeat with_reducible first
    | exact encRdnChecked _ | exact encSpki _ _ | exact encExts _ _ _ _ | exact backfill _ | quiet_step

theorem encAttributes (p : Profile) (c : Bool) (md : MeasData cfg) :
    WQuiet (Dpe.encAttributes p c md : W τ _) := by
  unfold Dpe.encAttributes
  repeat with_reducible first | exact encExts _ _ _ _ | quiet_step

theorem encCri (p : Profile) (c : Bool) (d : CertData cfg) : WQuiet (Dpe.encCri p c d : W τ _) := by
  unfold Dpe.encCri
  repeat with_reducible first
    | exact encRdnChecked _ | exact encSpki _ _ | exact encAttributes _ _ _ | exact backfill _ | quiet_step

theorem encPayload (p : Profile) (c : Bool) (d : CertData cfg) (b : Bool) :
    WQuiet (Dpe.encPayload p c d b : W τ _) := by
  unfold Dpe.encPayload
  split
  · exact encCri _ _ _
  · exact encTbs _ _ _

theorem backfillEncap (a b : Nat) : WQuiet (Dpe.backfillEncap a b : W τ _) := by
  unfold Dpe.backfillEncap; repeat with_reducible quiet_step

theorem backfillCms (a b c : Nat) : WQuiet (Dpe.backfillCms a b c : W τ _) := by
  unfold Dpe.backfillCms; repeat with_reducible quiet_step

end WQuiet

/-- The writer makes few calls. -/
def WEffort (P : Nat → List (Use ops) → Prop) (n : Nat) (m : W (σ × List (Use ops)) α) : Prop :=
  ∀ wr w l, ∃ es, (m (wr, (w, l))).2.2.2 = l ++ es ∧ P n es

/-- The signing callback makes few calls: three with the derived key, one with the alias key. -/
def CbEffort (P : Nat → List (Use ops) → Prop) (cb : SignCb (σ × List (Use ops))) : Prop :=
  ∀ d b w l, ∃ es, (cb d b (w, l)).2.2 = l ++ es ∧ P (if b then 3 else 1) es

namespace WEffort

theorem plus {n k t : Nat} {x : W (σ × List (Use ops)) α} {f : α → W (σ × List (Use ops)) β}
    (hx : WEffort P n x) (hf : ∀ a, WEffort P k (f a)) (ht : n + k ≤ t) : WEffort P t (x >>= f) := by
  intro wr w l
  have e : (x >>= f) (wr, (w, l)) = W.bind x f (wr, (w, l)) := rfl
  rw [e]
  unfold W.bind
  obtain ⟨es, h1, h2⟩ := hx wr w l
  rcases h : x (wr, (w, l)) with ⟨e | a, s'⟩
  · rw [h] at h1
    exact ⟨es, h1, Counts.mono h2 (by omega)⟩
  · rw [h] at h1
    obtain ⟨wr', w', l'⟩ := s'
    simp only at h1
    subst h1
    obtain ⟨es', h3, h4⟩ := hf a wr' w' (l ++ es)
    refine ⟨es ++ es', ?_, Counts.mono (Counts.append h2 h4) ht⟩
    simp only
    rw [h3, List.append_assoc]

theorem quiet {n : Nat} {m : W (σ × List (Use ops)) α} (h : WQuiet m) : WEffort P n m := by
  intro wr w l
  exact ⟨[], by rw [h]; simp, Counts.nil⟩

theorem bind {n : Nat} {x : W (σ × List (Use ops)) α} {f : α → W (σ × List (Use ops)) β}
    (hx : WQuiet x) (hf : ∀ a, WEffort P n (f a)) : WEffort P n (x >>= f) :=
  (quiet hx : WEffort P 0 x).plus hf (by omega)

theorem bindr {n : Nat} {x : W (σ × List (Use ops)) α} {f : α → W (σ × List (Use ops)) β}
    (hx : WEffort P n x) (hf : ∀ a, WQuiet (f a)) : WEffort P n (x >>= f) :=
  hx.plus (fun a => (quiet (hf a) : WEffort P 0 (f a))) (by omega)

omit [Counts P] in
theorem sign {cb : SignCb (σ × List (Use ops))} (h : CbEffort P cb) (a b : Nat) (d : Bool) :
    WEffort P (if d then 3 else 1) (W.sign cb a b d) := by
  intro wr w l
  obtain ⟨es, h1, h2⟩ := h ((wr.buf.drop a).take (b - a)) d w l
  refine ⟨es, ?_, h2⟩
  simp only [W.sign]
  rw [← h1]
  rcases cb ((wr.buf.drop a).take (b - a)) d (w, l) with ⟨_ | _, x'⟩ <;> rfl

variable {cb : SignCb (σ × List (Use ops))}

theorem encSigned (h : CbEffort P cb) (p : Profile) (c : Bool) (d : CertData cfg) (b : Bool) :
    WEffort P (if b then 3 else 1) (Dpe.encSigned cb p c d b) := by
  unfold Dpe.encSigned
  refine bind (.enc _) fun _ => bind (.push _) fun _ => bind (.encPayload _ _ _ _) fun _ =>
    bindr (sign h _ _ _) fun _ => ?_
  repeat with_reducible first | exact WQuiet.backfill _ | quiet_step

theorem encCertOrCsr (h : CbEffort P cb) (p : Profile) (c : Bool) (d : CertData cfg) (b : Bool) :
    WEffort P (if b then 3 else 1) (Dpe.encCertOrCsr cb p c d b) := by
  unfold Dpe.encCertOrCsr
  refine bindr (encSigned h _ _ _ _) fun _ => ?_
  repeat with_reducible quiet_step

theorem encEncap (h : CbEffort P cb) (p : Profile) (c : Bool) (d : CertData cfg) :
    WEffort P 3 (Dpe.encEncap cb p c d) := by
  have := encCertOrCsr h p c d true
  rw [if_pos rfl] at this
  unfold Dpe.encEncap
  iterate 6 refine bind (by with_reducible quiet_step) fun _ => ?_
  refine bindr this fun _ => ?_
  repeat with_reducible first | exact WQuiet.backfillEncap _ _ | quiet_step

theorem encCms (h : CbEffort P cb) (p : Profile) (c : Bool) (d : CertData cfg) (sid : SignerId) :
    WEffort P 4 (Dpe.encCms cb p c d sid) := by
  have := sign h (d := false)
  simp only [Bool.false_eq_true, if_false] at this
  unfold Dpe.encCms
  iterate 7 refine bind (by with_reducible quiet_step) fun _ => ?_
  refine plus (encEncap h _ _ _) (fun _ => ?_) (Nat.le_refl (3 + 1))
  refine bind .csrRange fun _ => bindr (this _ _) fun _ => ?_
  repeat with_reducible first | exact WQuiet.backfillCms _ _ _ | quiet_step

end WEffort

/-! ### Certificates -/

theorem CbEffort.then {n : Nat} {f : σ → Except CryptoErr α × σ} {u : Except CryptoErr α → Use ops}
    {g : α → σ × List (Use ops) → Except CryptoErr β × (σ × List (Use ops))}
    (hg : ∀ a w l, ∃ es, (g a (w, l)).2.2 = l ++ es ∧ P n es) (w : σ) (l : List (Use ops)) :
    ∃ es, (thenCall (noted f u) g (w, l)).2.2 = l ++ es ∧ P (n + 1) es := by
  unfold thenCall noted
  simp only
  rcases h : f w with ⟨e | a, w'⟩
  · exact ⟨[u (.error e)], rfl, Counts.mono (Counts.one _) (by omega)⟩
  · obtain ⟨es, h1, h2⟩ := hg a w' (l ++ [u (.ok a)])
    refine ⟨u (.ok a) :: es, ?_, ?_⟩
    · simp only
      rw [h1, List.append_assoc]; rfl
    · exact Counts.mono (Counts.append (Counts.one (u (.ok a))) h2) (by omega)

theorem CbEffort.one {f : σ → Except CryptoErr α × σ} {u : Except CryptoErr α → Use ops} (w : σ)
    (l : List (Use ops)) : ∃ es, (noted f u (w, l)).2.2 = l ++ es ∧ P 1 es :=
  ⟨[u (f w).1], rfl, Counts.one _⟩

theorem signCb_effort (a : CertArgs) (dg : Bytes) (ex : Bool) (h : Option (BArr 32)) :
    CbEffort P (ops := ops) (signCb ops.logged a dg ex h) := by
  intro d b w l
  have hs : ∀ (k : ops.Key) w l, ∃ es, (ops.logged.sign k (.buffer d) (w, l)).2.2 = l ++ es ∧ P 1 es :=
    fun k w l => CbEffort.one (u := .sign k (.buffer d)) w l
  unfold signCb
  cases b
  · simp only [Bool.false_eq_true, if_false]
    exact CbEffort.one (u := fun _ => .signAlias (.buffer d)) w l
  · simp only [if_true]
    cases ex
    · simp only [Bool.false_eq_true, if_false]
      refine CbEffort.then (u := .deriveCdi _ _) (fun c w l => ?_) w l
      exact CbEffort.then (u := .deriveKeyPair _ _ _) hs w l
    · simp only [if_true]
      cases h with
      | none => exact ⟨[], by simp, Counts.nil⟩
      | some h =>
        obtain ⟨es, h1, h2⟩ := CbEffort.then (f := ops.deriveKeyPairExported h a.keyLabel a.context)
          (u := .deriveKeyPairExported _ _ _) hs w l
        exact ⟨es, h1, Counts.mono h2 (by omega)⟩

namespace Effort

omit [Counts P] in
theorem runWriter {n : Nat} {m : W (σ × List (Use ops)) α} (h : WEffort P n m) :
    Effort P n (Dpe.runWriter m : M cfg _ α) := by
  intro st w l out
  obtain ⟨es, h1, h2⟩ := h (Writer.new out) w l
  exact ⟨es, h1, h2⟩

theorem altName : Effort P 1 (getAltName ops.logged : M cfg _ _) := by
  intro st w l out
  refine ⟨[.subjectAltName], ?_, Counts.one _⟩
  unfold getAltName
  have hc : ops.logged.subjectAltName (w, l) = ((ops.subjectAltName w).1,
      ((ops.subjectAltName w).2, l ++ [.subjectAltName])) := rfl
  simp only [hc]
  rcases ops.subjectAltName w with ⟨e | a, w'⟩
  · cases e <;> rfl
  · rfl

theorem keyOf (ex : Bool) (a : CertArgs) (d : Bytes) : Effort P 3 (certKey ops.logged ex a d : M cfg _ _) := by
  unfold certKey
  cases ex
  · exact cryptoThen _ (.deriveCdi _ _) fun _ => cryptoThen _ (.deriveKeyPair _ _ _) fun _ =>
      cryptoThen _ (.publicKey _) fun _ => pure _
  · exact cryptoThen _ (.deriveExportedCdi _ _) fun _ => cryptoThen _ (.deriveKeyPairExported _ _ _) fun _ =>
      cryptoThen _ (.publicKey _) fun _ => pure _

theorem chunks_few (k : PubKey) : k.chunks.length + 3 ≤ 6 := by cases k <;> simp [PubKey.chunks]

theorem subject (ex : Bool) (k : PubKey) : Effort P 6 (subjectName ops.logged ex k : M cfg _ _) := by
  unfold subjectName pubkeySerial
  exact bindr (bind (failIf _ _) fun _ => bind (failIf _ _) fun _ =>
    bindr (hashAll _ (chunks_few k)) fun _ => lift _) fun _ => pure _

theorem keyId (k : PubKey) : Effort P 6 (subjectKeyIdOf ops.logged k : M cfg _ _) := by
  unfold subjectKeyIdOf
  exact bindr (hashAll _ (chunks_few k)) fun _ => bind (failIf _ _) fun _ => pure _

theorem issuer : Effort P 1 (getIssuer ops.logged : M cfg _ _) := by
  unfold getIssuer
  exact platformThen _ (fun _ => .issuerName) fun _ => bind (failIf _ _) fun _ => pure _

theorem finish {cb : SignCb (σ × List (Use ops))} (h : CbEffort P cb) (kind : CertKind) (crit : Bool)
    (d : CertData cfg) (sid : SignerId) :
    Effort P (if kind = .leafCsr then 4 else 2) (finishCert ops.logged cb kind crit d sid) := by
  unfold finishCert
  split
  · exact bindr (runWriter (WEffort.encCms h _ _ _ _)) fun _ => lift _
  · refine plus (k := 1) issuer (fun _ => bind (failIf _ _) fun _ => bindr (runWriter ?_) fun _ => lift _) (by omega)
    exact WEffort.encCertOrCsr h cfg.profile crit _ false

/-- What a certificate or request can cost. -/
def certCost (cfg : Cfg) (D : Nat) (kind : CertKind) : Nat :=
  (2 * cfg.maxHandles + 6 + D) + 3 + 12 + 4 + (if kind = .leafCsr then 4 else 2)

section
variable {D : Nat} (hd : Effort P D (diceLoop ops.logged cfg.diceFuel 0 : M cfg _ Unit))
include hd

theorem create (kind : CertKind) (a : CertArgs) :
    Effort P (certCost cfg D kind) (createCert ops.logged kind a : M cfg _ _) := by
  unfold createCert
  refine bind get fun st => bind (lift _) fun i => plus (measure hd _) (fun dg => ?_)
    (by unfold certCost; omega : (2 * cfg.maxHandles + 6 + D) + (19 + (if kind = .leafCsr then 4 else 2)) ≤ _)
  refine plus (k := 16 + (if kind = .leafCsr then 4 else 2)) (keyOf _ _ _) (fun p => ?_) (by omega)
  obtain ⟨k, h⟩ := p
  refine plus (k := 10 + (if kind = .leafCsr then 4 else 2)) (subject _ _) (fun _ => ?_) (by omega)
  refine plus (k := 4 + (if kind = .leafCsr then 4 else 2)) (keyId _) (fun _ => ?_) (by omega)
  refine plus (k := 3 + (if kind = .leafCsr then 4 else 2)) (platform _ fun _ => .issuerKeyId) (fun _ => ?_) (by omega)
  refine plus (k := 2 + (if kind = .leafCsr then 4 else 2)) altName (fun _ => ?_) (by omega)
  refine bind get fun _ => bind (lift _) fun _ => bind (lift _) fun _ => ?_
  refine plus (k := 1 + (if kind = .leafCsr then 4 else 2)) (platform _ fun _ => .certValidity) (fun _ => ?_) (by omega)
  refine plus (platform _ fun _ => .signerId) (fun _ => ?_) (Nat.le_refl _)
  exact bindr (finish (signCb_effort _ _ _ _) _ _ _ _) fun _ => ite (bind (okOr _ _) fun _ => pure _) (pure _)

theorem cert (kind : CertKind) (a : CertArgs) (base : Nat) :
    Effort P (certCost cfg D kind) (runCert (ops.logged.env cfg) kind a base) := by
  intro st w l out
  obtain ⟨es, h1, h2⟩ := create hd kind a st w l (out.drop base)
  exact ⟨es, h1, h2⟩

/-! ### The commands -/

/-- One step of the proofs below, for steps that do not count. -/
macro "free_step" : tactic => `(tactic| first
  | exact Effort.pure _ | exact Effort.lift _ | exact Effort.okOr _ _ | exact Effort.failIf _ _
  | exact Effort.fail _ | exact Effort.get | exact Effort.modify _ | exact Effort.writeAt _ _
  | (refine Effort.bind ?_ fun _ => ?_))

theorem sign (c : SignCmd) (loc : U32) :
    Effort P ((2 * cfg.maxHandles + 6 + D) + 3 + 8) (signCmd ops.logged c loc : M cfg _ _) := by
  unfold signCmd signWith
  refine bind (lift _) fun _ => bind get fun _ => bind (lift _) fun _ => bind (okOr _ _) fun _ =>
    bind (failIf _ _) fun _ => plus (k := 8) ?_ (fun _ => ?_) (Nat.le_refl _)
  · exact plus (measure hd _) (fun _ => cryptoThen _ (.deriveCdi _ _) fun _ =>
      cryptoThen _ (.deriveKeyPair _ _ _) fun _ => crypto _ (.sign _ _)) (Nat.le_refl _)
  · refine bindr (roll _) fun _ => ?_
    repeat with_reducible free_step

theorem certify (c : CertifyCmd) (loc : U32) :
    Effort P ((2 * cfg.maxHandles + 6 + D) + 3 + 20 + 8) (certifyKey (ops.logged.env cfg) c loc) := by
  unfold certifyKey
  refine bind get fun _ => bind (lift _) fun _ => bind (okOr _ _) fun _ => bind (failIf _ _) fun _ =>
    bind (failIf _ _) fun _ => bind (failIf _ _) fun _ => bind (failIf _ _) fun _ => bind (lift _) fun kind => ?_
  refine plus ((cert hd _ _ _).mono ?_) (k := 8) (fun _ => ?_) (Nat.le_refl _)
  · unfold certCost; split <;> omega
  · refine bindr (roll _) fun _ => ?_
    repeat with_reducible free_step

theorem derive (c : DeriveCmd cfg) (loc : U32) :
    Effort P (8 + 1 + (2 * cfg.maxHandles + 6 + D) + 3 + 18) (deriveCtx (ops.logged.env cfg) c loc) := by
  unfold deriveCtx
  refine bind get fun _ => bind (failIf _ _) fun _ => bind (lift _) fun _ => bind (okOr _ _) fun _ =>
    bind (failIf _ _) fun _ => ite ?_ ?_
  · unfold deriveRecursive
    refine bind (failIf _ _) fun _ => plus (k := 8) (addTci _ _ _) (fun _ => ?_) (by omega)
    refine bindr (roll _) fun _ => ?_
    repeat with_reducible free_step
  · refine bind (lift _) fun _ => bind (failIf _ _) fun _ => plus (n := 8)
      (k := 1 + (2 * cfg.maxHandles + 6 + D) + 3 + 18) ?_ (fun _ => ite ?_ ?_) (by omega)
    · unfold deriveParent
      exact ite (ite (bindr newHandle fun _ => pure _) ((pure _).mono (by omega))) ((pure _).mono (by omega))
    · unfold deriveExport
      refine plus (platform _ .ueid) (k := (2 * cfg.maxHandles + 6 + D) + 3 + 18)
        (fun _ => bind (lift _) fun _ => bind get fun _ => ?_) (by omega)
      refine bindr ((cert hd _ _ _).mono ?_) fun _ => ?_
      · simp [certCost]
      · repeat with_reducible free_step
    · unfold deriveChild
      refine bind get fun _ => bind (okOr _ _) fun _ => bind (failIf _ _) fun _ => ?_
      refine plus (n := 8) (k := 5) ?_ (fun _ => ?_) (by omega)
      · unfold pickHandle
        exact ite ((pure _).mono (by omega)) newHandle
      · refine bindr (addTci _ _ _) fun _ => ?_
        repeat with_reducible free_step

end

theorem update (c : UpdateCmd cfg) (loc : U32) : Effort P (5 + 8 + 8) (updateCtx ops.logged c loc) := by
  unfold updateCtx
  refine bind (failIf _ _) fun _ => bind get fun _ => bind (lift _) fun _ => bind (okOr _ _) fun _ =>
    bind (okOr _ _) fun _ => bind (okOr _ _) fun _ => plus (k := 16) (addTci _ _ _) (fun _ => ?_) (by omega)
  refine plus (roll _) (fun _ => bind (modify _) fun _ => bindr (roll _) fun _ => ?_) (Nat.le_refl _)
  repeat with_reducible free_step

theorem chain (c : ChainCmd) : Effort P 1 (getCertChain ops.logged c : M cfg _ _) := by
  unfold getCertChain
  refine bind (failIf _ _) fun _ => platformThen _ (fun _ => .certChain _ _) fun p => ?_
  obtain ⟨len, chunk⟩ := p
  repeat with_reducible free_step

theorem exec {D : Nat} (hd : Effort P D (diceLoop ops.logged cfg.diceFuel 0 : M cfg _ Unit)) (c : Cmd cfg) (loc : U32) :
    Effort P (c.effort + if c.digests then D else 0) (Dpe.exec (ops.logged.env cfg) c loc) := by
  cases c with
  | getProfile =>
    show Effort P 2 (getProfileCmd ops.logged)
    unfold getProfileCmd
    refine bind get fun _ => bindr (getProfile _) fun _ => ?_
    repeat with_reducible free_step
  | init f =>
    show Effort P 8 (initCtx ops.logged f loc)
    unfold initCtx
    refine bind get fun _ => bind (failIf _ _) fun _ => bind (failIf _ _) fun _ => bind (okOr _ _) fun _ =>
      bindr ?_ fun _ => ?_
    · unfold initHandle
      exact ite ((bind (modify _) fun _ => pure _ : Effort P 0 _).mono (by omega)) newHandle
    · repeat with_reducible free_step
  | derive c => exact (derive hd c loc).mono (by simp [Cmd.effort, Cmd.digests]; omega)
  | certify c => exact (certify hd c loc).mono (by simp [Cmd.effort, Cmd.digests]; omega)
  | sign c => exact (sign hd c loc).mono (by simp [Cmd.effort, Cmd.digests]; omega)
  | rotate c =>
    show Effort P 8 (rotateCtx ops.logged c loc)
    unfold rotateCtx
    refine bind get fun _ => bind (failIf _ _) fun _ => bind (lift _) fun _ => bind (failIf _ _) fun _ =>
      bindr ?_ fun _ => ?_
    · unfold pickHandle
      exact ite ((pure _).mono (by omega)) newHandle
    · repeat with_reducible free_step
  | destroy h =>
    show Effort P 0 (destroyCtx h loc)
    unfold destroyCtx
    repeat with_reducible free_step
  | chain c => exact chain c
  | update c => exact update c loc

/-- Reading a chain of `n` bytes from the offset on. -/
theorem dice_short {n : Nat} (hn : n < 2 ^ 32) (h : ChainSized ops n) (fuel : Nat) (off : U32) (ho : off.toNat ≤ n) :
    Effort AtMost (2 * ((n - off.toNat + 2047) / 2048) + 1) (diceLoop ops.logged fuel off : M cfg _ Unit) := by
  induction fuel generalizing off with
  | zero => exact fail _
  | succ f ih =>
    intro st w l out
    unfold diceLoop
    have hc : ops.logged.certChain off 2048 (w, l) = ((ops.certChain off 2048 w).1,
      ((ops.certChain off 2048 w).2, l ++ [.certChain off 2048])) := rfl
    simp only [hc]
    have hs := h off w
    generalize ops.certChain off 2048 w = x at hs ⊢
    obtain ⟨e | ⟨len, chunk⟩, w'⟩ := x
    · exact ⟨[.certChain off 2048], rfl, by simp [AtMost]⟩
    · obtain ⟨h1, h2, h3⟩ := hs len chunk rfl
      have ha : (off + len).toNat = off.toNat + len.toNat := by
        rw [BitVec.toNat_add]; exact Nat.mod_eq_of_lt (by omega)
      simp only
      have : Effort AtMost (2 * ((n - (off + len).toNat + 2047) / 2048) + 1 + 1) (do
          M.failIf (decide (2048 < len.toNat)) (.internal .certChainChunkSliceOob)
          M.crypto (ops.logged.hashUpdate (chunk.toList.take len.toNat))
          diceLoop ops.logged f (off + len) : M cfg (σ × List (Use ops)) Unit) :=
        bind (failIf _ _) fun _ => cryptoThen _ (fun _ => .hashUpdate _) fun _ => ih _ (by omega)
      obtain ⟨es, h4, h5⟩ := this st w' (l ++ [.certChain off 2048]) out
      refine ⟨.certChain off 2048 :: es, ?_, ?_⟩
      · rw [h4, List.append_assoc]; rfl
      · unfold AtMost at *
        simp only [List.length_cons]
        rw [ha] at h5
        omega

end Effort
end Dpe
