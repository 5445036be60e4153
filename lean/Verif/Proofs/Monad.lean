import Verif.Model.Commands
import Verif.Proofs.Bits
/-
Inversion lemmas for the command monad.
-/
namespace Dpe
variable {cfg : Cfg} {σ α β : Type}

theorem bind_iff {x : M cfg σ α} {f : α → M cfg σ β} {s s' : Sys cfg σ} {r : Except Err β} :
    (x >>= f) s = (r, s') ↔
      (∃ e, x s = (.error e, s') ∧ r = .error e) ∨
      (∃ a s1, x s = (.ok a, s1) ∧ f a s1 = (r, s')) := by
  show M.bind x f s = (r, s') ↔ _
  unfold M.bind
  rcases h : x s with ⟨e | a, s1⟩
  · simp only [Prod.mk.injEq, Except.error.injEq]
    constructor
    · rintro ⟨rfl, rfl⟩; exact Or.inl ⟨e, ⟨rfl, rfl⟩, rfl⟩
    · rintro (⟨e', ⟨rfl, rfl⟩, rfl⟩ | ⟨a, s2, ⟨h, _⟩, _⟩)
      · exact ⟨rfl, rfl⟩
      · cases h
  · simp only [Prod.mk.injEq]
    constructor
    · intro h; exact Or.inr ⟨a, s1, ⟨rfl, rfl⟩, h⟩
    · rintro (⟨e', ⟨h, _⟩, _⟩ | ⟨a', s2, ⟨h1, h2⟩, h3⟩)
      · cases h
      · cases h1; subst h2; exact h3

theorem pure_iff {a : α} {s s' : Sys cfg σ} {r : Except Err α} :
    (pure a : M cfg σ α) s = (r, s') ↔ r = .ok a ∧ s' = s := by
  show ((Except.ok a, s) : _ × _) = (r, s') ↔ _
  simp only [Prod.mk.injEq]
  constructor
  · rintro ⟨rfl, rfl⟩; exact ⟨rfl, rfl⟩
  · rintro ⟨rfl, rfl⟩; exact ⟨rfl, rfl⟩

theorem fail_iff {e : Err} {s s' : Sys cfg σ} {r : Except Err α} :
    (M.fail e : M cfg σ α) s = (r, s') ↔ r = .error e ∧ s' = s := by
  show ((Except.error e, s) : _ × _) = (r, s') ↔ _
  simp only [Prod.mk.injEq]
  constructor
  · rintro ⟨rfl, rfl⟩; exact ⟨rfl, rfl⟩
  · rintro ⟨rfl, rfl⟩; exact ⟨rfl, rfl⟩

theorem failIf_iff {c : Bool} {e : Err} {s s' : Sys cfg σ} {r : Except Err Unit} :
    (M.failIf c e : M cfg σ Unit) s = (r, s') ↔
      (c = true ∧ r = .error e ∧ s' = s) ∨ (c = false ∧ r = .ok () ∧ s' = s) := by
  unfold M.failIf
  cases c <;> simp only [if_true, if_false, Prod.mk.injEq, Bool.false_eq_true, Bool.true_eq_false,
    false_and, true_and, false_or, or_false] <;>
  · constructor
    · rintro ⟨rfl, rfl⟩; exact ⟨rfl, rfl⟩
    · rintro ⟨rfl, rfl⟩; exact ⟨rfl, rfl⟩

theorem lift_iff {x : Except Err α} {s s' : Sys cfg σ} {r : Except Err α} :
    (M.lift x : M cfg σ α) s = (r, s') ↔ x = r ∧ s' = s := by
  unfold M.lift
  simp only [Prod.mk.injEq]
  exact and_congr_right fun _ => eq_comm

theorem okOr_iff {x : Option α} {e : Err} {s s' : Sys cfg σ} {r : Except Err α} :
    (M.okOr x e : M cfg σ α) s = (r, s') ↔
      (x = none ∧ r = .error e ∧ s' = s) ∨ (∃ a, x = some a ∧ r = .ok a ∧ s' = s) := by
  unfold M.okOr
  cases x <;> simp only [Prod.mk.injEq, reduceCtorEq, false_and, true_and, false_or, or_false,
    exists_false, Option.some.injEq]
  · constructor
    · rintro ⟨rfl, rfl⟩; exact ⟨rfl, rfl⟩
    · rintro ⟨rfl, rfl⟩; exact ⟨rfl, rfl⟩
  · constructor
    · rintro ⟨rfl, rfl⟩; exact ⟨_, rfl, rfl, rfl⟩
    · rintro ⟨_, rfl, rfl, rfl⟩; exact ⟨rfl, rfl⟩

theorem get_iff {s s' : Sys cfg σ} {r : Except Err (State cfg)} :
    (M.get : M cfg σ _) s = (r, s') ↔ r = .ok s.st ∧ s' = s := by
  unfold M.get
  simp only [Prod.mk.injEq]
  constructor
  · rintro ⟨rfl, rfl⟩; exact ⟨rfl, rfl⟩
  · rintro ⟨rfl, rfl⟩; exact ⟨rfl, rfl⟩

theorem modify_iff {f : State cfg → State cfg} {s s' : Sys cfg σ} {r : Except Err Unit} :
    (M.modify f : M cfg σ _) s = (r, s') ↔ r = .ok () ∧ s' = { s with st := f s.st } := by
  unfold M.modify
  simp only [Prod.mk.injEq]
  constructor
  · rintro ⟨rfl, rfl⟩; exact ⟨rfl, rfl⟩
  · rintro ⟨rfl, rfl⟩; exact ⟨rfl, rfl⟩

theorem crypto_iff {f : σ → Except CryptoErr α × σ} {s s' : Sys cfg σ} {r : Except Err α} :
    (M.crypto f : M cfg σ _) s = (r, s') ↔
      (∃ e w', f s.w = (.error e, w') ∧ r = .error (.crypto e) ∧ s' = { s with w := w' }) ∨
      (∃ a w', f s.w = (.ok a, w') ∧ r = .ok a ∧ s' = { s with w := w' }) := by
  unfold M.crypto
  rcases h : f s.w with ⟨e | a, w'⟩ <;> simp only [Prod.mk.injEq, reduceCtorEq, false_and,
    exists_false, false_or, or_false, Except.error.injEq, Except.ok.injEq]
  · constructor
    · rintro ⟨rfl, rfl⟩; exact ⟨_, _, ⟨rfl, rfl⟩, rfl, rfl⟩
    · rintro ⟨_, _, ⟨rfl, rfl⟩, rfl, rfl⟩; exact ⟨rfl, rfl⟩
  · constructor
    · rintro ⟨rfl, rfl⟩; exact ⟨_, _, ⟨rfl, rfl⟩, rfl, rfl⟩
    · rintro ⟨_, _, ⟨rfl, rfl⟩, rfl, rfl⟩; exact ⟨rfl, rfl⟩

theorem platform_iff {f : σ → Except PlatErr α × σ} {s s' : Sys cfg σ} {r : Except Err α} :
    (M.platform f : M cfg σ _) s = (r, s') ↔
      (∃ e w', f s.w = (.error e, w') ∧ r = .error (.platform e) ∧ s' = { s with w := w' }) ∨
      (∃ a w', f s.w = (.ok a, w') ∧ r = .ok a ∧ s' = { s with w := w' }) := by
  unfold M.platform
  rcases h : f s.w with ⟨e | a, w'⟩ <;> simp only [Prod.mk.injEq, reduceCtorEq, false_and,
    exists_false, false_or, or_false, Except.error.injEq, Except.ok.injEq]
  · constructor
    · rintro ⟨rfl, rfl⟩; exact ⟨_, _, ⟨rfl, rfl⟩, rfl, rfl⟩
    · rintro ⟨_, _, ⟨rfl, rfl⟩, rfl, rfl⟩; exact ⟨rfl, rfl⟩
  · constructor
    · rintro ⟨rfl, rfl⟩; exact ⟨_, _, ⟨rfl, rfl⟩, rfl, rfl⟩
    · rintro ⟨_, _, ⟨rfl, rfl⟩, rfl, rfl⟩; exact ⟨rfl, rfl⟩

theorem writeAt_iff {off : Nat} {d : Bytes} {s s' : Sys cfg σ} {r : Except Err Unit} :
    (writeAt off d : M cfg σ _) s = (r, s') ↔
      (s.out.length < off + d.length ∧ r = .error .invalidResponseBuf ∧ s' = s) ∨
      (off + d.length ≤ s.out.length ∧ r = .ok () ∧
        s' = { s with out := s.out.take off ++ d ++ s.out.drop (off + d.length) }) := by
  unfold writeAt bufWrite
  by_cases h : off + d.length ≤ s.out.length
  · simp only [h, if_true, Prod.mk.injEq, true_and, Nat.not_lt.mpr h, false_and, false_or]
    constructor
    · rintro ⟨rfl, rfl⟩; exact ⟨rfl, rfl⟩
    · rintro ⟨rfl, rfl⟩; exact ⟨rfl, rfl⟩
  · simp only [h, if_false, Prod.mk.injEq, Nat.lt_of_not_le h, true_and, false_and, or_false]
    constructor
    · rintro ⟨rfl, rfl⟩; exact ⟨rfl, rfl⟩
    · rintro ⟨rfl, rfl⟩; exact ⟨rfl, rfl⟩

/-- A step that touches only the hidden world. -/
def WorldOnly (x : M cfg σ α) : Prop := ∀ s, (x s).2.st = s.st ∧ (x s).2.out = s.out

theorem WorldOnly.eq {x : M cfg σ α} (hx : WorldOnly x) {s s' : Sys cfg σ} {r : Except Err α}
    (h : x s = (r, s')) : s' = { s with w := s'.w } := by
  have := hx s
  rw [h] at this
  rcases s with ⟨a, b, c⟩; rcases s' with ⟨a', b', c'⟩
  simp only at this
  obtain ⟨rfl, rfl⟩ := this
  rfl

theorem WorldOnly.pure (a : α) : WorldOnly (Pure.pure a : M cfg σ α) := fun _ => ⟨rfl, rfl⟩

theorem WorldOnly.bind {x : M cfg σ α} {f : α → M cfg σ β} (hx : WorldOnly x)
    (hf : ∀ a, WorldOnly (f a)) : WorldOnly (x >>= f) := by
  intro s
  show (M.bind x f s).2.st = _ ∧ (M.bind x f s).2.out = _
  unfold M.bind
  have h1 := hx s
  rcases h : x s with ⟨e | a, s1⟩
  · rw [h] at h1; simpa using h1
  · rw [h] at h1
    have h2 := hf a s1
    simp only at h1 ⊢
    exact ⟨h2.1.trans h1.1, h2.2.trans h1.2⟩

theorem WorldOnly.fail (e : Err) : WorldOnly (M.fail e : M cfg σ α) := fun _ => ⟨rfl, rfl⟩

theorem WorldOnly.failIf (c : Bool) (e : Err) : WorldOnly (M.failIf c e : M cfg σ _) := by
  intro s; unfold M.failIf; cases c <;> exact ⟨rfl, rfl⟩

theorem WorldOnly.lift (x : Except Err α) : WorldOnly (M.lift x : M cfg σ _) := fun _ => ⟨rfl, rfl⟩

theorem WorldOnly.okOr (x : Option α) (e : Err) : WorldOnly (M.okOr x e : M cfg σ _) := by
  intro s; unfold M.okOr; cases x <;> exact ⟨rfl, rfl⟩

theorem WorldOnly.get : WorldOnly (M.get : M cfg σ _) := fun _ => ⟨rfl, rfl⟩

theorem WorldOnly.crypto (f : σ → Except CryptoErr α × σ) : WorldOnly (M.crypto f : M cfg σ _) := by
  intro s; unfold M.crypto; rcases f s.w with ⟨_ | _, _⟩ <;> exact ⟨rfl, rfl⟩

theorem WorldOnly.platform (f : σ → Except PlatErr α × σ) :
    WorldOnly (M.platform f : M cfg σ _) := by
  intro s; unfold M.platform; rcases f s.w with ⟨_ | _, _⟩ <;> exact ⟨rfl, rfl⟩

theorem WorldOnly.ite {c : Prop} [Decidable c] {x y : M cfg σ α} (hx : WorldOnly x)
    (hy : WorldOnly y) : WorldOnly (if c then x else y) := by
  split <;> assumption

theorem WorldOnly.when {c : Bool} {x : M cfg σ α} {d : α} (hx : WorldOnly x) :
    WorldOnly (M.when c x d) := WorldOnly.ite hx (WorldOnly.pure d)

theorem genHandleLoop_world (ops : Ops σ) (n : Nat) :
    WorldOnly (genHandleLoop ops n : M cfg σ _) := by
  induction n with
  | zero => exact WorldOnly.fail _
  | succ n ih =>
    exact WorldOnly.bind (WorldOnly.crypto _) fun h => WorldOnly.bind WorldOnly.get fun st =>
      WorldOnly.ite (WorldOnly.pure _) ih

theorem generateNewHandle_world (ops : Ops σ) : WorldOnly (generateNewHandle ops : M cfg σ _) :=
  genHandleLoop_world ops 8

theorem rollHandle_world (ops : Ops σ) (c : Context cfg) : WorldOnly (rollHandle ops c) :=
  WorldOnly.ite (WorldOnly.pure _)
    (WorldOnly.bind (generateNewHandle_world ops) fun _ => WorldOnly.pure _)

theorem hashChunks_world (ops : Ops σ) (l : List Bytes) : WorldOnly (hashChunks ops l : M cfg σ _) := by
  induction l with
  | nil => exact WorldOnly.pure _
  | cons b bs ih => exact WorldOnly.bind (WorldOnly.crypto _) fun _ => ih

theorem hashAll_world (ops : Ops σ) (l : List Bytes) : WorldOnly (hashAll ops l : M cfg σ _) :=
  WorldOnly.bind (WorldOnly.crypto _) fun _ => WorldOnly.bind (WorldOnly.crypto _) fun _ =>
    WorldOnly.bind (hashChunks_world ops l) fun _ => WorldOnly.crypto _

theorem addTci_world (ops : Ops σ) (c : Context cfg) (m : BArr cfg.tciSize) (loc : U32) :
    WorldOnly (addTci ops c m loc) :=
  WorldOnly.bind (WorldOnly.failIf _ _) fun _ => WorldOnly.bind (WorldOnly.failIf _ _) fun _ =>
    WorldOnly.bind (hashAll_world ops _) fun _ => WorldOnly.bind (WorldOnly.lift _) fun _ =>
      WorldOnly.pure _

theorem getProfile_world (ops : Ops σ) (s : U32) : WorldOnly (getProfile ops s : M cfg σ _) :=
  WorldOnly.bind (WorldOnly.platform _) fun _ => WorldOnly.bind (WorldOnly.platform _) fun _ =>
    WorldOnly.pure _

theorem internalInfo_world (ops : Ops σ) (s : U32) : WorldOnly (internalInfo ops s : M cfg σ _) :=
  WorldOnly.bind (getProfile_world ops s) fun _ => WorldOnly.pure _

theorem hashNodes_world (ops : Ops σ) (l : List (Except Err (Context cfg))) (a b : Bool) :
    WorldOnly (hashNodes ops l a b) := by
  induction l generalizing a b with
  | nil => exact WorldOnly.pure _
  | cons x xs ih =>
    exact WorldOnly.bind (WorldOnly.lift _) fun _ => WorldOnly.bind (WorldOnly.crypto _) fun _ =>
      WorldOnly.bind (WorldOnly.crypto _) fun _ => ih _ _

theorem diceLoop_world (ops : Ops σ) (n : Nat) (off : U32) :
    WorldOnly (diceLoop ops n off : M cfg σ _) := by
  induction n generalizing off with
  | zero => exact WorldOnly.fail _
  | succ n ih =>
    intro s
    unfold diceLoop
    rcases ops.certChain off 2048 s.w with ⟨_ | ⟨len, chunk⟩, w'⟩
    · exact ⟨rfl, rfl⟩
    · exact (WorldOnly.bind (WorldOnly.failIf _ _) fun _ => WorldOnly.bind (WorldOnly.crypto _)
        fun _ => ih _) { s with w := w' }

theorem computeMeasurementHash_world (ops : Ops σ) (i : Nat) :
    WorldOnly (computeMeasurementHash ops i : M cfg σ _) :=
  WorldOnly.bind (WorldOnly.crypto _) fun _ => WorldOnly.bind (WorldOnly.crypto _) fun _ =>
    WorldOnly.bind WorldOnly.get fun _ => WorldOnly.bind (WorldOnly.lift _) fun _ =>
      WorldOnly.bind (hashNodes_world ops _ _ _) fun _ =>
        WorldOnly.bind (WorldOnly.when (WorldOnly.bind (internalInfo_world ops _) fun _ =>
          WorldOnly.crypto _)) fun _ =>
          WorldOnly.bind (WorldOnly.when (diceLoop_world ops _ _)) fun _ => WorldOnly.crypto _

theorem signWith_world (ops : Ops σ) (i : Nat) (l : Bytes) (d : SignData) :
    WorldOnly (signWith ops i l d : M cfg σ _) :=
  WorldOnly.bind (computeMeasurementHash_world ops i) fun _ =>
    WorldOnly.bind (WorldOnly.crypto _) fun _ => WorldOnly.bind (WorldOnly.crypto _) fun _ =>
      WorldOnly.crypto _

end Dpe
