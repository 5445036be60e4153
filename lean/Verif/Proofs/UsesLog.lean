import Verif.Spec.Uses
/-
The protocol of the calls does not influence a command, and how many calls of each kind it can contain.
-/
namespace Dpe
variable {cfg : Cfg} {σ α β : Type} {ops : Ops σ}

/-- Nothing at all. -/
def Tally.zero : Tally := ⟨0, 0, 0, 0⟩

theorem Tally.le_refl (a : Tally) : a.le a := ⟨Nat.le_refl _, Nat.le_refl _, Nat.le_refl _, Nat.le_refl _⟩

theorem Tally.le_trans {a b c : Tally} (h : a.le b) (h' : b.le c) : a.le c :=
  ⟨Nat.le_trans h.1 h'.1, Nat.le_trans h.2.1 h'.2.1, Nat.le_trans h.2.2.1 h'.2.2.1,
    Nat.le_trans h.2.2.2 h'.2.2.2⟩

theorem Tally.zero_le (a : Tally) : Tally.zero.le a :=
  ⟨Nat.zero_le _, Nat.zero_le _, Nat.zero_le _, Nat.zero_le _⟩

theorem tallyOf_append (a b : List (Use ops)) : tallyOf (a ++ b) = (tallyOf a).add (tallyOf b) := by
  induction a with
  | nil => simp [tallyOf, Tally.add]
  | cons u us ih => simp [tallyOf, Tally.add, ih, Nat.add_assoc]

theorem Tally.add_le {a b c d e : Tally} (h : a.le c) (h' : b.le d) (hs : (c.add d).le e) :
    (a.add b).le e := by
  refine Tally.le_trans ?_ hs
  exact ⟨Nat.add_le_add h.1 h'.1, Nat.add_le_add h.2.1 h'.2.1, Nat.add_le_add h.2.2.1 h'.2.2.1,
    Nat.add_le_add h.2.2.2 h'.2.2.2⟩

/-! ### The command monad -/

/-- The program `m'` does the same as `m` and notes down calls that add up to at most `t`. -/
def Logs (m' : M cfg (σ × List (Use ops)) α) (m : M cfg σ α) (t : Tally) : Prop :=
  ∀ st w l out, ∃ es, m' ⟨st, (w, l), out⟩ =
    ((m ⟨st, w, out⟩).1, ⟨(m ⟨st, w, out⟩).2.st, ((m ⟨st, w, out⟩).2.w, l ++ es),
      (m ⟨st, w, out⟩).2.out⟩) ∧ (tallyOf es).le t

namespace Logs

theorem mono {m' : M cfg (σ × List (Use ops)) α} {m : M cfg σ α} {t u : Tally} (h : Logs m' m t)
    (hl : t.le u) : Logs m' m u := by
  intro st w l out
  obtain ⟨es, h1, h2⟩ := h st w l out
  exact ⟨es, h1, Tally.le_trans h2 hl⟩

theorem any {m' : M cfg (σ × List (Use ops)) α} {m : M cfg σ α} {t : Tally} (h : Logs m' m Tally.zero) :
    Logs m' m t := h.mono (Tally.zero_le t)

theorem plus {x' : M cfg (σ × List (Use ops)) α} {x : M cfg σ α}
    {f' : α → M cfg (σ × List (Use ops)) β} {f : α → M cfg σ β} {t u v : Tally}
    (hx : Logs x' x t) (hf : ∀ a, Logs (f' a) (f a) u) (hs : (t.add u).le v) :
    Logs (x' >>= f') (x >>= f) v := by
  intro st w l out
  obtain ⟨es, h1, h2⟩ := hx st w l out
  have e' : (x' >>= f') ⟨st, (w, l), out⟩ = M.bind x' f' ⟨st, (w, l), out⟩ := rfl
  have e : (x >>= f) ⟨st, w, out⟩ = M.bind x f ⟨st, w, out⟩ := rfl
  rw [e', e]
  unfold M.bind
  rw [h1]
  rcases h : x ⟨st, w, out⟩ with ⟨e | a, s'⟩
  · rw [h] at h1
    refine ⟨es, rfl, Tally.le_trans h2 (Tally.le_trans ?_ hs)⟩
    exact ⟨Nat.le_add_right _ _, Nat.le_add_right _ _, Nat.le_add_right _ _, Nat.le_add_right _ _⟩
  · rw [h] at h1
    obtain ⟨es', h3, h4⟩ := hf a s'.st s'.w (l ++ es) s'.out
    refine ⟨es ++ es', ?_, ?_⟩
    · simp only
      rw [h3, List.append_assoc]
    · rw [tallyOf_append]; exact Tally.add_le h2 h4 hs

theorem bind {x' : M cfg (σ × List (Use ops)) α} {x : M cfg σ α}
    {f' : α → M cfg (σ × List (Use ops)) β} {f : α → M cfg σ β} {t : Tally}
    (hx : Logs x' x Tally.zero) (hf : ∀ a, Logs (f' a) (f a) t) : Logs (x' >>= f') (x >>= f) t :=
  hx.plus hf (by simp [Tally.zero, Tally.add, Tally.le])

theorem bindr {x' : M cfg (σ × List (Use ops)) α} {x : M cfg σ α}
    {f' : α → M cfg (σ × List (Use ops)) β} {f : α → M cfg σ β} {t : Tally}
    (hx : Logs x' x t) (hf : ∀ a, Logs (f' a) (f a) Tally.zero) : Logs (x' >>= f') (x >>= f) t :=
  hx.plus hf (by simp [Tally.zero, Tally.add, Tally.le])

/-- A program that calls nothing. -/
theorem silent {m' : M cfg (σ × List (Use ops)) α} {m : M cfg σ α} {t : Tally}
    (h : ∀ st w l out, m' ⟨st, (w, l), out⟩ =
      ((m ⟨st, w, out⟩).1, ⟨(m ⟨st, w, out⟩).2.st, ((m ⟨st, w, out⟩).2.w, l),
        (m ⟨st, w, out⟩).2.out⟩)) : Logs m' m t := by
  intro st w l out
  exact ⟨[], by rw [List.append_nil]; exact h st w l out, Tally.zero_le t⟩

theorem pure {t : Tally} (a : α) : Logs (ops := ops) (Pure.pure a : M cfg _ α) (Pure.pure a) t :=
  silent fun _ _ _ _ => rfl
theorem lift {t : Tally} (x : Except Err α) : Logs (ops := ops) (M.lift x : M cfg _ α) (M.lift x) t :=
  silent fun _ _ _ _ => rfl
theorem okOr {t : Tally} (x : Option α) (e : Err) :
    Logs (ops := ops) (M.okOr x e : M cfg _ α) (M.okOr x e) t := by
  cases x <;> exact silent fun _ _ _ _ => rfl
theorem failIf {t : Tally} (c : Bool) (e : Err) :
    Logs (ops := ops) (M.failIf c e : M cfg _ Unit) (M.failIf c e) t := by
  cases c <;> exact silent fun _ _ _ _ => rfl
theorem fail {t : Tally} (e : Err) :
    Logs (ops := ops) (M.fail e : M cfg _ α) (M.fail e) t := silent fun _ _ _ _ => rfl
theorem get {t : Tally} : Logs (ops := ops) (M.get : M cfg _ (State cfg)) M.get t :=
  silent fun _ _ _ _ => rfl
theorem modify {t : Tally} (f : State cfg → State cfg) :
    Logs (ops := ops) (M.modify f : M cfg _ Unit) (M.modify f) t := silent fun _ _ _ _ => rfl
theorem writeAt {t : Tally} (n : Nat) (b : Bytes) :
    Logs (ops := ops) (Dpe.writeAt n b : M cfg _ Unit) (Dpe.writeAt n b) t := by
  refine silent fun st w l out => ?_
  unfold Dpe.writeAt
  simp only
  rcases bufWrite out n b with _ | x <;> rfl

theorem crypto (f : σ → Except CryptoErr α × σ) (u : Except CryptoErr α → Use ops) {t : Tally}
    (h : ∀ r, (u r).tally.le t) : Logs (M.crypto (noted f u) : M cfg _ α) (M.crypto f) t := by
  intro st w l out
  refine ⟨[u (f w).1], ?_, ?_⟩
  · unfold M.crypto noted
    simp only
    rcases f w with ⟨e | a, w'⟩ <;> rfl
  · have := h (f w).1
    simpa [tallyOf, Tally.add, Tally.le] using this

theorem platform (f : σ → Except PlatErr α × σ) (u : Except PlatErr α → Use ops) {t : Tally}
    (h : ∀ r, (u r).tally.le t) : Logs (M.platform (noted f u) : M cfg _ α) (M.platform f) t := by
  intro st w l out
  refine ⟨[u (f w).1], ?_, ?_⟩
  · unfold M.platform noted
    simp only
    rcases f w with ⟨e | a, w'⟩ <;> rfl
  · have := h (f w).1
    simpa [tallyOf, Tally.add, Tally.le] using this

theorem ite {c : Prop} [Decidable c] {x' y' : M cfg (σ × List (Use ops)) α} {x y : M cfg σ α} {t : Tally}
    (h : Logs x' x t) (h' : Logs y' y t) : Logs (if c then x' else y') (if c then x else y) t := by
  split
  · exact h
  · exact h'


section
variable {t : Tally}
theorem crypto_hasher : Logs (M.crypto ops.logged.hasher : M cfg _ _) (M.crypto ops.hasher) t := by
  refine crypto _ (fun _ => .hasher) ?_; intro r; exact Tally.zero_le t
theorem crypto_hashInit : Logs (M.crypto ops.logged.hashInit : M cfg _ _) (M.crypto ops.hashInit) t := by
  refine crypto _ (fun _ => .hashInit) ?_; intro r; exact Tally.zero_le t
theorem crypto_hashUpdate (b : Bytes) : Logs (M.crypto (ops.logged.hashUpdate b) : M cfg _ _) (M.crypto (ops.hashUpdate b)) t := by
  refine crypto _ (fun _ => .hashUpdate b) ?_; intro r; exact Tally.zero_le t
theorem crypto_hashFinish : Logs (M.crypto ops.logged.hashFinish : M cfg _ _) (M.crypto ops.hashFinish) t := by
  refine crypto _ _ ?_; intro r; exact Tally.zero_le t
theorem crypto_deriveCdi (a b : Bytes) : Logs (M.crypto (ops.logged.deriveCdi a b) : M cfg _ _) (M.crypto (ops.deriveCdi a b)) t := by
  refine crypto _ _ ?_; intro r; exact Tally.zero_le t
theorem crypto_deriveKeyPair (c : ops.Cdi) (a b : Bytes) : Logs (M.crypto (ops.logged.deriveKeyPair c a b) : M cfg _ _) (M.crypto (ops.deriveKeyPair c a b)) t := by
  refine crypto _ _ ?_; intro r; exact Tally.zero_le t
theorem crypto_deriveKeyPairExported (c : BArr 32) (a b : Bytes) : Logs (M.crypto (ops.logged.deriveKeyPairExported c a b) : M cfg _ _) (M.crypto (ops.deriveKeyPairExported c a b)) t := by
  refine crypto _ _ ?_; intro r; exact Tally.zero_le t
theorem crypto_publicKey (k : ops.Key) : Logs (M.crypto (ops.logged.publicKey k) : M cfg _ _) (M.crypto (ops.publicKey k)) t := by
  refine crypto _ _ ?_; intro r; exact Tally.zero_le t
theorem platform_issuerName : Logs (M.platform ops.logged.issuerName : M cfg _ _) (M.platform ops.issuerName) t := by
  refine platform _ (fun _ => .issuerName) ?_; intro r; exact Tally.zero_le t
theorem platform_signerId : Logs (M.platform ops.logged.signerId : M cfg _ _) (M.platform ops.signerId) t := by
  refine platform _ (fun _ => .signerId) ?_; intro r; exact Tally.zero_le t
theorem platform_issuerKeyId : Logs (M.platform ops.logged.issuerKeyId : M cfg _ _) (M.platform ops.issuerKeyId) t := by
  refine platform _ (fun _ => .issuerKeyId) ?_; intro r; exact Tally.zero_le t
theorem platform_vendorId : Logs (M.platform ops.logged.vendorId : M cfg _ _) (M.platform ops.vendorId) t := by
  refine platform _ (fun _ => .vendorId) ?_; intro r; exact Tally.zero_le t
theorem platform_vendorSku : Logs (M.platform ops.logged.vendorSku : M cfg _ _) (M.platform ops.vendorSku) t := by
  refine platform _ (fun _ => .vendorSku) ?_; intro r; exact Tally.zero_le t
theorem platform_certValidity : Logs (M.platform ops.logged.certValidity : M cfg _ _) (M.platform ops.certValidity) t := by
  refine platform _ (fun _ => .certValidity) ?_; intro r; exact Tally.zero_le t
theorem platform_ueid : Logs (M.platform ops.logged.ueid : M cfg _ _) (M.platform ops.ueid) t := by
  refine platform _ _ ?_; intro r; exact Tally.zero_le t
theorem platform_certChain (a b : U32) : Logs (M.platform (ops.logged.certChain a b) : M cfg _ _) (M.platform (ops.certChain a b)) t := by
  refine platform _ (fun _ => .certChain a b) ?_; intro r; exact Tally.zero_le t
end

end Logs

/-- One step of the proofs below, for steps that do not count. -/
macro "log_step" : tactic => `(tactic| first
  | assumption
  | exact Logs.pure _ | exact Logs.lift _ | exact Logs.okOr _ _ | exact Logs.failIf _ _
  | exact Logs.fail _ | exact Logs.get | exact Logs.modify _ | exact Logs.writeAt _ _
  | exact Logs.crypto_hasher
  | exact Logs.crypto_hashInit
  | exact Logs.crypto_hashUpdate _
  | exact Logs.crypto_hashFinish
  | exact Logs.crypto_deriveCdi _ _
  | exact Logs.crypto_deriveKeyPair _ _ _
  | exact Logs.crypto_deriveKeyPairExported _ _ _
  | exact Logs.crypto_publicKey _
  | exact Logs.platform_issuerName
  | exact Logs.platform_signerId
  | exact Logs.platform_issuerKeyId
  | exact Logs.platform_vendorId
  | exact Logs.platform_vendorSku
  | exact Logs.platform_certValidity
  | exact Logs.platform_ueid
  | exact Logs.platform_certChain _ _
  | (refine Logs.bind ?_ fun _ => ?_))

/-- Eight draws. -/
def Tally.roll : Tally := ⟨8, 0, 0, 0⟩

namespace Logs

theorem genLoop (n : Nat) :
    Logs (genHandleLoop ops.logged n : M cfg _ Handle) (genHandleLoop ops n) ⟨n, 0, 0, 0⟩ := by
  induction n with
  | zero => exact fail _
  | succ n ih =>
    unfold genHandleLoop
    refine plus (t := ⟨1, 0, 0, 0⟩) (u := ⟨n, 0, 0, 0⟩) (crypto _ _ fun _ => Tally.le_refl _) (fun _ => ?_)
      (by simp [Tally.add, Tally.le]; omega)
    exact bind get fun _ => ite (pure _) ih

theorem newHandle : Logs (generateNewHandle ops.logged : M cfg _ Handle) (generateNewHandle ops) .roll :=
  genLoop 8

theorem roll (c : Context cfg) : Logs (rollHandle ops.logged c) (rollHandle ops c) .roll := by
  unfold rollHandle
  exact ite (pure _) (bindr newHandle fun _ => pure _)

theorem chunks (bs : List Bytes) :
    Logs (hashChunks ops.logged bs : M cfg _ Unit) (hashChunks ops bs) .zero := by
  induction bs with
  | nil => exact pure _
  | cons b bs ih => unfold hashChunks; repeat with_reducible log_step

theorem hashAll (bs : List Bytes) :
    Logs (Dpe.hashAll ops.logged bs : M cfg _ Bytes) (Dpe.hashAll ops bs) .zero := by
  unfold Dpe.hashAll
  have := chunks (ops := ops) (cfg := cfg) bs
  repeat with_reducible log_step

theorem addTci (c : Context cfg) (m : BArr cfg.tciSize) (loc : U32) :
    Logs (Dpe.addTci ops.logged c m loc) (Dpe.addTci ops c m loc) .zero := by
  unfold Dpe.addTci
  repeat with_reducible first | exact hashAll _ | log_step

theorem getProfile (s : U32) :
    Logs (Dpe.getProfile ops.logged s : M cfg _ Bytes) (Dpe.getProfile ops s) .zero := by
  unfold Dpe.getProfile
  repeat with_reducible log_step

theorem nodes (xs : List (Except Err (Context cfg))) (i d : Bool) :
    Logs (hashNodes ops.logged xs i d) (hashNodes ops xs i d) .zero := by
  induction xs generalizing i d with
  | nil => exact pure _
  | cons x xs ih =>
    unfold hashNodes
    repeat with_reducible first | exact ih _ _ | log_step

theorem dice (n : Nat) (off : U32) :
    Logs (diceLoop ops.logged n off : M cfg _ Unit) (diceLoop ops n off) .zero := by
  induction n generalizing off with
  | zero => exact fail _
  | succ n ih =>
    intro st w l out
    unfold diceLoop
    have hc : ops.logged.certChain off 2048 (w, l) = ((ops.certChain off 2048 w).1,
      ((ops.certChain off 2048 w).2, l ++ [.certChain off 2048])) := rfl
    simp only [hc]
    rcases ops.certChain off 2048 w with ⟨e | ⟨len, chunk⟩, w'⟩
    · exact ⟨[.certChain off 2048], rfl, Tally.zero_le _⟩
    · simp only
      have : Logs (do
          M.failIf (decide (2048 < len.toNat)) (.internal .certChainChunkSliceOob)
          M.crypto (ops.logged.hashUpdate (chunk.toList.take len.toNat))
          diceLoop ops.logged n (off + len) : M cfg _ Unit) (do
          M.failIf (decide (2048 < len.toNat)) (.internal .certChainChunkSliceOob)
          M.crypto (ops.hashUpdate (chunk.toList.take len.toNat))
          diceLoop ops n (off + len) : M cfg σ Unit) .zero := by
        have := ih (off + len)
        repeat with_reducible log_step
      obtain ⟨es, h1, h2⟩ := this st w' (l ++ [.certChain off 2048]) out
      refine ⟨.certChain off 2048 :: es, ?_, ?_⟩
      · rw [h1, List.append_assoc]; rfl
      · simpa [tallyOf, Use.tally, Tally.add] using h2

theorem when {c : Bool} {x' : M cfg (σ × List (Use ops)) α} {x : M cfg σ α} {a : α} {t : Tally}
    (h : Logs x' x t) : Logs (M.when c x' a) (M.when c x a) t := by
  unfold M.when
  exact ite h (pure _)

theorem measure (i : Nat) :
    Logs (computeMeasurementHash ops.logged i : M cfg _ Bytes) (computeMeasurementHash ops i) .zero := by
  unfold computeMeasurementHash internalInfo
  repeat with_reducible first
    | exact nodes _ _ _ | exact when (dice _ _) | exact getProfile _ | exact when (by repeat with_reducible first | exact getProfile _ | log_step) | log_step

theorem measureAny (i : Nat) {t : Tally} :
    Logs (computeMeasurementHash ops.logged i : M cfg _ Bytes) (computeMeasurementHash ops i) t :=
  (measure i).any

end Logs

/-! ### The certificate writer -/

/-- The same for the certificate writer. -/
def WLogs (m' : W (σ × List (Use ops)) α) (m : W σ α) (t : Tally) : Prop :=
  ∀ wr w l, ∃ es, m' (wr, (w, l)) =
    ((m (wr, w)).1, ((m (wr, w)).2.1, ((m (wr, w)).2.2, l ++ es))) ∧ (tallyOf es).le t

/-- The same for the signing callback: with the derived key it signs once, or else with the alias key. -/
def CbLogs (cb' : SignCb (σ × List (Use ops))) (cb : SignCb σ) : Prop :=
  ∀ d b w l, ∃ es, cb' d b (w, l) = ((cb d b w).1, ((cb d b w).2, l ++ es)) ∧
    (tallyOf es).le (if b then ⟨0, 1, 0, 0⟩ else ⟨0, 0, 1, 0⟩)

namespace WLogs

theorem plus {x' : W (σ × List (Use ops)) α} {x : W σ α}
    {f' : α → W (σ × List (Use ops)) β} {f : α → W σ β} {t u v : Tally}
    (hx : WLogs x' x t) (hf : ∀ a, WLogs (f' a) (f a) u) (hs : (t.add u).le v) :
    WLogs (x' >>= f') (x >>= f) v := by
  intro wr w l
  obtain ⟨es, h1, h2⟩ := hx wr w l
  have e' : (x' >>= f') (wr, (w, l)) = W.bind x' f' (wr, (w, l)) := rfl
  have e : (x >>= f) (wr, w) = W.bind x f (wr, w) := rfl
  rw [e', e]
  unfold W.bind
  rw [h1]
  rcases h : x (wr, w) with ⟨e | a, s'⟩
  · rw [h] at h1
    refine ⟨es, rfl, Tally.le_trans h2 (Tally.le_trans ?_ hs)⟩
    exact ⟨Nat.le_add_right _ _, Nat.le_add_right _ _, Nat.le_add_right _ _, Nat.le_add_right _ _⟩
  · rw [h] at h1
    obtain ⟨es', h3, h4⟩ := hf a s'.1 s'.2 (l ++ es)
    refine ⟨es ++ es', ?_, ?_⟩
    · simp only
      rw [h3, List.append_assoc]
    · rw [tallyOf_append]; exact Tally.add_le h2 h4 hs

theorem bind {x' : W (σ × List (Use ops)) α} {x : W σ α}
    {f' : α → W (σ × List (Use ops)) β} {f : α → W σ β} {t : Tally}
    (hx : WLogs x' x Tally.zero) (hf : ∀ a, WLogs (f' a) (f a) t) : WLogs (x' >>= f') (x >>= f) t :=
  hx.plus hf (by simp [Tally.zero, Tally.add, Tally.le])

theorem bindr {x' : W (σ × List (Use ops)) α} {x : W σ α}
    {f' : α → W (σ × List (Use ops)) β} {f : α → W σ β} {t : Tally}
    (hx : WLogs x' x t) (hf : ∀ a, WLogs (f' a) (f a) Tally.zero) : WLogs (x' >>= f') (x >>= f) t :=
  hx.plus hf (by simp [Tally.zero, Tally.add, Tally.le])

theorem silent {m' : W (σ × List (Use ops)) α} {m : W σ α} {t : Tally}
    (h : ∀ wr w l, m' (wr, (w, l)) = ((m (wr, w)).1, ((m (wr, w)).2.1, ((m (wr, w)).2.2, l)))) :
    WLogs m' m t := by
  intro wr w l
  exact ⟨[], by rw [List.append_nil]; exact h wr w l, Tally.zero_le t⟩

section
variable {t : Tally}
theorem pure (a : α) : WLogs (ops := ops) (Pure.pure a) (Pure.pure a : W σ α) t := silent fun _ _ _ => rfl
theorem enc (e : Enc) : WLogs (ops := ops) (W.enc e) (W.enc e : W σ _) t := silent fun _ _ _ => rfl
theorem lift (x : Except Err α) : WLogs (ops := ops) (W.lift x) (W.lift x : W σ _) t :=
  silent fun _ _ _ => rfl
theorem push (n : Nat) : WLogs (ops := ops) (W.push n) (W.push n : W σ _) t := by
  refine silent fun wr w l => ?_
  simp only [W.push]; split <;> rfl
theorem pop (n : Nat) : WLogs (ops := ops) (W.pop n) (W.pop n : W σ _) t := by
  refine silent fun wr w l => ?_
  simp only [W.pop]; split
  · rfl
  · split
    · rfl
    · split <;> rfl
theorem start : WLogs (ops := ops) W.start (W.start : W σ _) t := by
  refine silent fun wr w l => ?_
  simp only [W.start]; split <;> rfl
theorem finish : WLogs (ops := ops) W.finish (W.finish : W σ _) t := by
  refine silent fun wr w l => ?_
  simp only [W.finish]; split <;> rfl
theorem checkFits : WLogs (ops := ops) W.checkFits (W.checkFits : W σ _) t := by
  refine silent fun wr w l => ?_
  simp only [W.checkFits]; split <;> rfl
theorem checkPopped : WLogs (ops := ops) W.checkPopped (W.checkPopped : W σ _) t := by
  refine silent fun wr w l => ?_
  simp only [W.checkPopped]; split <;> rfl
theorem csrRange : WLogs (ops := ops) W.csrRange (W.csrRange : W σ _) t := by
  refine silent fun wr w l => ?_
  simp only [W.csrRange]; split <;> rfl
theorem setCsrRange (a b : Nat) : WLogs (ops := ops) (W.setCsrRange a b) (W.setCsrRange a b : W σ _) t :=
  silent fun _ _ _ => rfl
end

theorem sign {cb' : SignCb (σ × List (Use ops))} {cb : SignCb σ} (h : CbLogs cb' cb) (a b : Nat)
    (d : Bool) : WLogs (W.sign cb' a b d) (W.sign cb a b d)
      (if d then ⟨0, 1, 0, 0⟩ else ⟨0, 0, 1, 0⟩) := by
  intro wr w l
  obtain ⟨es, h1, h2⟩ := h ((wr.buf.drop a).take (b - a)) d w l
  refine ⟨es, ?_, h2⟩
  simp only [W.sign]
  rw [h1]
  rcases cb ((wr.buf.drop a).take (b - a)) d w with ⟨_ | _, x'⟩ <;> rfl

end WLogs

/-- One step of the proofs below, for steps that do not count. -/
macro "wlog_step" : tactic => `(tactic| first
  | assumption
  | exact WLogs.enc _ | exact WLogs.lift _ | exact WLogs.pure _ | exact WLogs.push _
  | exact WLogs.pop _ | exact WLogs.start | exact WLogs.finish | exact WLogs.checkFits
  | exact WLogs.checkPopped | exact WLogs.csrRange | exact WLogs.setCsrRange _ _
  | (refine WLogs.bind ?_ fun _ => ?_)
  | split)

namespace WLogs
variable {cb' : SignCb (σ × List (Use ops))} {cb : SignCb σ}

theorem tcbLoop (p : Profile) (r : Bool) (l : List (Except Err (Context cfg))) :
    WLogs (ops := ops) (Dpe.tcbLoop p r l) (Dpe.tcbLoop p r l : W σ _) .zero := by
  induction l with
  | nil => exact pure _
  | cons x xs ih => unfold Dpe.tcbLoop; repeat with_reducible wlog_step

theorem encMultiTcb (p : Profile) (c : Bool) (md : MeasData cfg) :
    WLogs (ops := ops) (Dpe.encMultiTcb p c md) (Dpe.encMultiTcb p c md : W σ _) .zero := by
  unfold Dpe.encMultiTcb
  repeat with_reducible first | exact tcbLoop _ _ _ | wlog_step

theorem encExtsWrapper (p : Profile) (c : Bool) (md : MeasData cfg) (b : Bool) :
    WLogs (ops := ops) (Dpe.encExtsWrapper p c md b) (Dpe.encExtsWrapper p c md b : W σ _) .zero := by
  unfold Dpe.encExtsWrapper; repeat with_reducible wlog_step

theorem encExts (p : Profile) (c : Bool) (md : MeasData cfg) (b : Bool) :
    WLogs (ops := ops) (Dpe.encExts p c md b) (Dpe.encExts p c md b : W σ _) .zero := by
  unfold Dpe.encExts
  repeat with_reducible first | exact encExtsWrapper _ _ _ _ | exact encMultiTcb _ _ _ | wlog_step

theorem encRdnChecked (n : Name) :
    WLogs (ops := ops) (Dpe.encRdnChecked n) (Dpe.encRdnChecked n : W σ _) .zero := by
  unfold Dpe.encRdnChecked; repeat with_reducible wlog_step

theorem encSpki (p : Profile) (k : PubKey) :
    WLogs (ops := ops) (Dpe.encSpki p k) (Dpe.encSpki p k : W σ _) .zero := by
  unfold Dpe.encSpki; repeat with_reducible wlog_step

theorem backfill (n : Nat) : WLogs (ops := ops) (Dpe.backfill n) (Dpe.backfill n : W σ _) .zero := by
  unfold Dpe.backfill; repeat with_reducible wlog_step

theorem encTbs (p : Profile) (c : Bool) (d : CertData cfg) :
    WLogs (ops := ops) (Dpe.encTbs p c d) (Dpe.encTbs p c d : W σ _) .zero := by
  unfold Dpe.encTbs
  repeat with_reducible first
    | exact encRdnChecked _ | exact encSpki _ _ | exact encExts _ _ _ _ | exact backfill _ | wlog_step

theorem encAttributes (p : Profile) (c : Bool) (md : MeasData cfg) :
    WLogs (ops := ops) (Dpe.encAttributes p c md) (Dpe.encAttributes p c md : W σ _) .zero := by
  unfold Dpe.encAttributes
  repeat with_reducible first | exact encExts _ _ _ _ | wlog_step

theorem encCri (p : Profile) (c : Bool) (d : CertData cfg) :
    WLogs (ops := ops) (Dpe.encCri p c d) (Dpe.encCri p c d : W σ _) .zero := by
  unfold Dpe.encCri
  repeat with_reducible first
    | exact encRdnChecked _ | exact encSpki _ _ | exact encAttributes _ _ _ | exact backfill _ | wlog_step

theorem encPayload (p : Profile) (c : Bool) (d : CertData cfg) (b : Bool) :
    WLogs (ops := ops) (Dpe.encPayload p c d b) (Dpe.encPayload p c d b : W σ _) .zero := by
  unfold Dpe.encPayload
  split
  · exact encCri _ _ _
  · exact encTbs _ _ _

theorem encSigned (h : CbLogs cb' cb) (p : Profile) (c : Bool) (d : CertData cfg) (b : Bool) :
    WLogs (Dpe.encSigned cb' p c d b) (Dpe.encSigned cb p c d b)
      (if b then ⟨0, 1, 0, 0⟩ else ⟨0, 0, 1, 0⟩) := by
  unfold Dpe.encSigned
  refine bind (enc _) fun _ => bind (push _) fun _ => bind (encPayload _ _ _ _) fun _ =>
    bindr (sign h _ _ _) fun _ => ?_
  repeat with_reducible first | exact backfill _ | wlog_step

theorem encCertOrCsr (h : CbLogs cb' cb) (p : Profile) (c : Bool) (d : CertData cfg) (b : Bool) :
    WLogs (Dpe.encCertOrCsr cb' p c d b) (Dpe.encCertOrCsr cb p c d b)
      (if b then ⟨0, 1, 0, 0⟩ else ⟨0, 0, 1, 0⟩) := by
  unfold Dpe.encCertOrCsr
  refine bindr (encSigned h _ _ _ _) fun _ => ?_
  repeat with_reducible wlog_step

theorem backfillEncap (a b : Nat) :
    WLogs (ops := ops) (Dpe.backfillEncap a b) (Dpe.backfillEncap a b : W σ _) .zero := by
  unfold Dpe.backfillEncap; repeat with_reducible wlog_step

theorem encEncap (h : CbLogs cb' cb) (p : Profile) (c : Bool) (d : CertData cfg) :
    WLogs (Dpe.encEncap cb' p c d) (Dpe.encEncap cb p c d) ⟨0, 1, 0, 0⟩ := by
  have := encCertOrCsr h p c d true
  rw [if_pos rfl] at this
  unfold Dpe.encEncap
  iterate 6 refine bind (by with_reducible wlog_step) fun _ => ?_
  refine bindr this fun _ => ?_
  repeat with_reducible first | exact backfillEncap _ _ | wlog_step

theorem backfillCms (a b c : Nat) :
    WLogs (ops := ops) (Dpe.backfillCms a b c) (Dpe.backfillCms a b c : W σ _) .zero := by
  unfold Dpe.backfillCms; repeat with_reducible wlog_step

theorem encCms (h : CbLogs cb' cb) (p : Profile) (c : Bool) (d : CertData cfg) (sid : SignerId) :
    WLogs (Dpe.encCms cb' p c d sid) (Dpe.encCms cb p c d sid) ⟨0, 1, 1, 0⟩ := by
  have := sign h (d := false)
  simp only [Bool.false_eq_true, if_false] at this
  unfold Dpe.encCms
  iterate 7 refine bind (by with_reducible wlog_step) fun _ => ?_
  refine plus (encEncap h _ _ _) (fun _ => ?_) (by decide : (Tally.add ⟨0, 1, 0, 0⟩ ⟨0, 0, 1, 0⟩).le _)
  refine bind csrRange fun _ => bindr (this _ _) fun _ => ?_
  repeat with_reducible first | exact backfillCms _ _ _ | wlog_step

end WLogs

/-! ### Certificates -/

theorem CbLogs.then {f' : σ × List (Use ops) → Except CryptoErr α × (σ × List (Use ops))}
    {f : σ → Except CryptoErr α × σ} {u : Except CryptoErr α → Use ops} {t : Tally}
    {g' : α → σ × List (Use ops) → Except CryptoErr β × (σ × List (Use ops))}
    {g : α → σ → Except CryptoErr β × σ} (hf : f' = noted f u) (hu : ∀ r, (u r).tally = Tally.zero)
    (hg : ∀ a w l, ∃ es, g' a (w, l) = ((g a w).1, ((g a w).2, l ++ es)) ∧ (tallyOf es).le t)
    (w : σ) (l : List (Use ops)) :
    ∃ es, thenCall f' g' (w, l) = ((thenCall f g w).1, ((thenCall f g w).2, l ++ es)) ∧
      (tallyOf es).le t := by
  subst hf
  unfold thenCall noted
  simp only
  rcases h : f w with ⟨e | a, w'⟩
  · refine ⟨[u (.error e)], rfl, ?_⟩
    rw [tallyOf, hu]
    exact Tally.zero_le _
  · obtain ⟨es, h1, h2⟩ := hg a w' (l ++ [u (.ok a)])
    refine ⟨u (.ok a) :: es, ?_, ?_⟩
    · simp only
      rw [h1, List.append_assoc]; rfl
    · rw [tallyOf, hu]
      simpa [Tally.zero, Tally.add] using h2

theorem CbLogs.one {f : σ → Except CryptoErr α × σ} {u : Except CryptoErr α → Use ops} {t : Tally}
    (hu : ∀ r, (u r).tally.le t) (w : σ) (l : List (Use ops)) :
    ∃ es, noted f u (w, l) = ((f w).1, ((f w).2, l ++ es)) ∧ (tallyOf es).le t := by
  refine ⟨[u (f w).1], rfl, ?_⟩
  have := hu (f w).1
  simpa [tallyOf, Tally.add, Tally.le] using this

theorem signCb_logs (a : CertArgs) (dg : Bytes) (ex : Bool) (h : Option (BArr 32)) :
    CbLogs (ops := ops) (signCb ops.logged a dg ex h) (signCb ops a dg ex h) := by
  intro d b w l
  have hs : ∀ (k : ops.Key) w l, ∃ es, ops.logged.sign k (.buffer d) (w, l) =
      ((ops.sign k (.buffer d) w).1, ((ops.sign k (.buffer d) w).2, l ++ es)) ∧
      (tallyOf es).le ⟨0, 1, 0, 0⟩ := fun k w l =>
    CbLogs.one (u := .sign k (.buffer d)) (fun _ => Tally.le_refl _) w l
  unfold signCb
  cases b
  · simp only [Bool.false_eq_true, if_false]
    exact CbLogs.one (u := fun _ => .signAlias (.buffer d)) (fun _ => Tally.le_refl _) w l
  · simp only [if_true]
    cases ex
    · simp only [Bool.false_eq_true, if_false]
      refine CbLogs.then (u := .deriveCdi _ _) rfl (fun _ => rfl) (fun c w l => ?_) w l
      exact CbLogs.then (u := .deriveKeyPair _ _ _) rfl (fun _ => rfl) hs w l
    · simp only [if_true]
      cases h with
      | none => exact ⟨[], by simp, Tally.zero_le _⟩
      | some h => exact CbLogs.then (u := .deriveKeyPairExported _ _ _) rfl (fun _ => rfl) hs w l

namespace Logs

theorem runWriter {m' : W (σ × List (Use ops)) α} {m : W σ α} {t : Tally} (h : WLogs m' m t) :
    Logs (Dpe.runWriter m' : M cfg _ α) (Dpe.runWriter m) t := by
  intro st w l out
  obtain ⟨es, h1, h2⟩ := h (Writer.new out) w l
  refine ⟨es, ?_, h2⟩
  unfold Dpe.runWriter
  simp only
  rw [h1]

theorem altName : Logs (getAltName ops.logged : M cfg _ _) (getAltName ops) .zero := by
  intro st w l out
  refine ⟨[.subjectAltName], ?_, Tally.zero_le _⟩
  unfold getAltName
  have hc : ops.logged.subjectAltName (w, l) = ((ops.subjectAltName w).1,
      ((ops.subjectAltName w).2, l ++ [.subjectAltName])) := rfl
  simp only [hc]
  rcases ops.subjectAltName w with ⟨e | a, w'⟩
  · cases e <;> rfl
  · rfl

theorem keyOf (ex : Bool) (a : CertArgs) (d : Bytes) :
    Logs (certKey ops.logged ex a d : M cfg _ _) (certKey ops ex a d)
      (if ex then ⟨0, 0, 0, 1⟩ else .zero) := by
  unfold certKey
  cases ex
  · exact bind (crypto_deriveCdi _ _) fun _ => bind (crypto_deriveKeyPair _ _ _) fun _ =>
      bind (crypto_publicKey _) fun _ => pure _
  · exact bindr (crypto _ (.deriveExportedCdi _ _) fun _ => Tally.le_refl _) fun _ =>
      bind (crypto_deriveKeyPairExported _ _ _) fun _ => bind (crypto_publicKey _) fun _ => pure _

theorem subject (ex : Bool) (k : PubKey) :
    Logs (subjectName ops.logged ex k : M cfg _ _) (subjectName ops ex k) .zero := by
  unfold subjectName pubkeySerial
  exact bind (bind (failIf _ _) fun _ => bind (failIf _ _) fun _ => bind (hashAll _) fun _ => lift _)
    fun _ => pure _

theorem keyId (k : PubKey) :
    Logs (subjectKeyIdOf ops.logged k : M cfg _ _) (subjectKeyIdOf ops k) .zero := by
  unfold subjectKeyIdOf
  repeat with_reducible first | exact hashAll _ | log_step

theorem issuer : Logs (getIssuer ops.logged : M cfg _ _) (getIssuer ops) .zero := by
  unfold getIssuer
  repeat with_reducible log_step

theorem finish {cb' : SignCb (σ × List (Use ops))} {cb : SignCb σ} (h : CbLogs cb' cb)
    (kind : CertKind) (crit : Bool) (d : CertData cfg) (sid : SignerId) :
    Logs (finishCert ops.logged cb' kind crit d sid) (finishCert ops cb kind crit d sid)
      (if kind = .leafCsr then ⟨0, 1, 1, 0⟩ else ⟨0, 0, 1, 0⟩) := by
  unfold finishCert
  split
  · exact bindr (runWriter (WLogs.encCms h _ _ _ _)) fun _ => lift _
  · refine bind issuer fun _ => bind (failIf _ _) fun _ => bindr (runWriter ?_) fun _ => lift _
    exact WLogs.encCertOrCsr h cfg.profile crit _ false

/-- What a certificate or request can cost. -/
def certTally : CertKind → Tally
  | .leafX509 => ⟨0, 0, 1, 0⟩
  | .leafCsr => ⟨0, 1, 1, 0⟩
  | .exportedX509 => ⟨0, 0, 1, 1⟩

theorem create (kind : CertKind) (a : CertArgs) :
    Logs (createCert ops.logged kind a : M cfg _ _) (createCert ops kind a) (certTally kind) := by
  unfold createCert
  refine bind get fun st => bind (lift _) fun i => bind (measure _) fun dg => ?_
  refine plus (keyOf _ _ _) (fun p => ?_) ?_ (u := if kind = .leafCsr then ⟨0, 1, 1, 0⟩ else ⟨0, 0, 1, 0⟩)
  · obtain ⟨k, h⟩ := p
    refine bind (subject _ _) fun _ => bind (keyId _) fun _ => bind platform_issuerKeyId fun _ =>
      bind altName fun _ => bind get fun _ => bind (lift _) fun _ => bind (lift _) fun _ =>
      bind platform_certValidity fun _ => bind platform_signerId fun _ =>
      bindr (finish (signCb_logs _ _ _ _) _ _ _ _) fun _ => ite (bind (okOr _ _) fun _ => pure _) (pure _)
  · cases kind <;> decide

theorem cert (kind : CertKind) (a : CertArgs) (base : Nat) :
    Logs (runCert (ops.logged.env cfg) kind a base) (runCert (ops.env cfg) kind a base)
      (certTally kind) := by
  intro st w l out
  obtain ⟨es, h1, h2⟩ := create (ops := ops) kind a st w l (out.drop base)
  refine ⟨es, ?_, h2⟩
  simp only [runCert, Ops.env]
  rw [h1]

/-! ### The commands -/

theorem sign (c : SignCmd) (loc : U32) :
    Logs (signCmd ops.logged c loc : M cfg _ _) (signCmd ops c loc) ⟨8, 1, 0, 0⟩ := by
  unfold signCmd signWith
  refine bind (lift _) fun _ => bind get fun _ => bind (lift _) fun _ => bind (okOr _ _) fun _ =>
    bind (failIf _ _) fun _ => plus (t := ⟨0, 1, 0, 0⟩) (u := .roll) ?_ (fun _ => ?_) (by decide)
  · exact bind (measure _) fun _ => bind (crypto_deriveCdi _ _) fun _ =>
      bind (crypto_deriveKeyPair _ _ _) fun _ => crypto _ (.sign _ _) fun _ => Tally.le_refl _
  · refine bindr (roll _) fun _ => ?_
    repeat with_reducible log_step

theorem certify (c : CertifyCmd) (loc : U32) :
    Logs (certifyKey (ops.logged.env cfg) c loc) (certifyKey (ops.env cfg) c loc) ⟨8, 1, 1, 0⟩ := by
  unfold certifyKey
  refine bind get fun _ => bind (lift _) fun _ => bind (okOr _ _) fun _ => bind (failIf _ _) fun _ =>
    bind (failIf _ _) fun _ => bind (failIf _ _) fun _ => bind (failIf _ _) fun _ => ?_
  rcases hc : certKindOf c.format with e | kind
  · exact silent fun _ _ _ _ => rfl
  · have hle : (certTally kind).le ⟨0, 1, 1, 0⟩ := by
      unfold certKindOf at hc
      split at hc
      · cases hc; decide
      · split at hc
        · cases hc; decide
        · cases hc
    have e1 : ∀ {τ : Type} (f : CertKind → M cfg τ Nat), (M.lift (.ok kind) >>= f) = f kind := fun _ => rfl
    rw [e1, e1]
    refine plus ((cert _ _ _).mono hle) (u := .roll) (fun _ => ?_) (by decide)
    refine bindr (roll _) fun _ => ?_
    repeat with_reducible log_step

theorem derive (c : DeriveCmd cfg) (loc : U32) :
    Logs (deriveCtx (ops.logged.env cfg) c loc) (deriveCtx (ops.env cfg) c loc) ⟨16, 0, 1, 1⟩ := by
  unfold deriveCtx
  refine bind get fun _ => bind (failIf _ _) fun _ => bind (lift _) fun _ => bind (okOr _ _) fun _ =>
    bind (failIf _ _) fun _ => ite ?_ ?_
  · unfold deriveRecursive
    refine bind (failIf _ _) fun _ => bind (addTci _ _ _) fun _ => ?_
    refine (bindr (roll _) fun _ => ?_ : Logs _ _ .roll).mono (by decide)
    repeat with_reducible log_step
  · refine bind (lift _) fun _ => bind (failIf _ _) fun _ => plus (t := .roll) (u := ⟨8, 0, 1, 1⟩) ?_
      (fun _ => ite ?_ ?_) (by decide)
    · unfold deriveParent
      exact ite (ite (bindr newHandle fun _ => pure _) (pure _)) (pure _)
    · unfold deriveExport
      refine bind platform_ueid fun _ => bind (lift _) fun _ => bind get fun _ => ?_
      refine (bindr (cert _ _ _) fun _ => ?_ : Logs _ _ (certTally .exportedX509)).mono (by decide)
      repeat with_reducible log_step
    · unfold deriveChild
      refine bind get fun _ => bind (okOr _ _) fun _ => bind (failIf _ _) fun _ => ?_
      refine (bindr (t := .roll) ?_ fun _ => ?_ : Logs _ _ .roll).mono (by decide)
      · unfold pickHandle
        exact ite (pure _) newHandle
      · refine bind (addTci _ _ _) fun _ => ?_
        repeat with_reducible log_step

theorem update (c : UpdateCmd cfg) (loc : U32) :
    Logs (updateCtx ops.logged c loc) (updateCtx ops c loc) ⟨16, 0, 0, 0⟩ := by
  unfold updateCtx
  refine bind (failIf _ _) fun _ => bind get fun _ => bind (lift _) fun _ => bind (okOr _ _) fun _ =>
    bind (okOr _ _) fun _ => bind (okOr _ _) fun _ => bind (addTci _ _ _) fun _ =>
    plus (roll _) (fun _ => bind (modify _) fun _ => bindr (roll _) fun _ => ?_) (by decide)
  repeat with_reducible log_step

theorem exec (c : Cmd cfg) (loc : U32) :
    Logs (Dpe.exec (ops.logged.env cfg) c loc) (Dpe.exec (ops.env cfg) c loc) c.limit := by
  cases c with
  | getProfile =>
    show Logs (getProfileCmd ops.logged) (getProfileCmd ops) .zero
    unfold getProfileCmd
    repeat with_reducible first | exact getProfile _ | log_step
  | init f =>
    show Logs (initCtx ops.logged f loc) (initCtx ops f loc) .roll
    unfold initCtx
    refine bind get fun _ => bind (failIf _ _) fun _ => bind (failIf _ _) fun _ => bind (okOr _ _) fun _ =>
      bindr ?_ fun _ => ?_
    · unfold initHandle
      exact ite (bind (modify _) fun _ => pure _) newHandle
    · repeat with_reducible log_step
  | derive c => exact derive c loc
  | certify c => exact certify c loc
  | sign c => exact sign c loc
  | rotate c =>
    show Logs (rotateCtx ops.logged c loc) (rotateCtx ops c loc) .roll
    unfold rotateCtx
    refine bind get fun _ => bind (failIf _ _) fun _ => bind (lift _) fun _ => bind (failIf _ _) fun _ =>
      bindr ?_ fun _ => ?_
    · unfold pickHandle
      exact ite (pure _) newHandle
    · repeat with_reducible log_step
  | destroy h =>
    show Logs (destroyCtx h loc) (destroyCtx h loc) .zero
    unfold destroyCtx
    repeat with_reducible log_step
  | chain c =>
    show Logs (getCertChain ops.logged c) (getCertChain ops c) .zero
    unfold getCertChain
    refine bind (failIf _ _) fun _ => bind (platform_certChain _ _) fun p => ?_
    obtain ⟨len, chunk⟩ := p
    repeat with_reducible log_step
  | update c => exact update c loc

end Logs

end Dpe
