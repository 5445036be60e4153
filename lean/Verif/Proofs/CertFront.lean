import Verif.Proofs.CertSafe
/-
What a failing CertifyKey or exporting DeriveContext leaves in the response buffer.
-/
namespace Dpe
variable {cfg : Cfg} {σ α β : Type} {b : Nat}

/-- The operation leaves the first `b` octets and the length of the buffer alone. -/
def M.Front (b : Nat) (m : M cfg σ α) : Prop :=
  ∀ s, (m s).2.out.take b = s.out.take b ∧ (m s).2.out.length = s.out.length

/-- The operation does so when it fails. -/
def M.FailFront (b : Nat) (m : M cfg σ α) : Prop :=
  ∀ s e s', m s = (.error e, s') → s'.out.take b = s.out.take b ∧ s'.out.length = s.out.length

theorem WorldOnly.front {m : M cfg σ α} (h : WorldOnly m) : m.Front b := by
  intro s
  rw [(h s).2]
  exact ⟨rfl, rfl⟩

theorem M.FailFront.bind {m : M cfg σ α} {f : α → M cfg σ β} (hm : m.Front b)
    (hf : ∀ a, (f a).FailFront b) : (m >>= f).FailFront b := by
  intro s e s' h
  rw [run_bind] at h
  have hs := hm s
  rcases hx : m s with ⟨e' | a, s1⟩
  · rw [hx] at h hs
    cases h
    exact hs
  · rw [hx] at h hs
    have := hf a s1 e s' h
    exact ⟨this.1.trans hs.1, this.2.trans hs.2⟩

theorem front_get : (M.get : M cfg σ _).Front b := fun _ => ⟨rfl, rfl⟩

theorem front_modify {g : State cfg → State cfg} : (M.modify g : M cfg σ _).Front b := fun _ => ⟨rfl, rfl⟩

theorem front_lift {x : Except Err α} : (M.lift x : M cfg σ _).Front b := by
  intro s; cases x <;> exact ⟨rfl, rfl⟩

theorem front_okOr {x : Option α} {e : Err} : (M.okOr x e : M cfg σ _).Front b := by
  intro s; cases x <;> exact ⟨rfl, rfl⟩

theorem front_failIf {c : Bool} {e : Err} : (M.failIf c e : M cfg σ _).Front b := by
  intro s; cases c <;> exact ⟨rfl, rfl⟩

theorem front_platform {f : σ → Except PlatErr α × σ} : (M.platform f : M cfg σ _).Front b := by
  intro s
  unfold M.platform
  rcases f s.w with ⟨e | a, w⟩ <;> exact ⟨rfl, rfl⟩

theorem front_runCert {env : Env cfg σ} (hw : KeepsWindow env) {kind : CertKind} {a : CertArgs} :
    (runCert env kind a b).Front b := by
  intro s
  unfold runCert
  rcases hg : env.certGen kind a s.st s.w (s.out.drop b) with ⟨⟨r, w⟩, win⟩
  have hl := hw _ _ _ _ _ _ _ hg
  rw [List.length_drop] at hl
  simp only
  constructor
  · by_cases h : b ≤ s.out.length
    · rw [List.take_append_of_le_length (by simp [h]), List.take_take, Nat.min_self]
    · have : win = [] := List.eq_nil_of_length_eq_zero (by omega)
      rw [this, List.append_nil, List.take_take, Nat.min_self]
  · rw [List.length_append, List.length_take, hl]; omega

theorem failFront_reply {bs : Bytes} {n : Nat} :
    (do writeAt 0 bs; pure n : M cfg σ Nat).FailFront b := by
  intro s e s' h
  rw [run_writeAt0] at h
  by_cases hb : bs.length ≤ s.out.length
  · rw [if_pos hb] at h; cases h
  · rw [if_neg hb] at h; cases h; exact ⟨rfl, rfl⟩

theorem certify_front {env : Env cfg σ} (hw : KeepsWindow env) (c : CertifyCmd) (loc : U32) :
    (certifyKey env c loc).FailFront (certifyHdrSize c.variant) := by
  unfold certifyKey
  refine .bind front_get fun _ => .bind front_lift fun _ => .bind front_okOr fun _ =>
    .bind front_failIf fun _ => .bind front_failIf fun _ => .bind front_failIf fun _ =>
    .bind front_failIf fun _ => .bind front_lift fun _ => .bind (front_runCert hw) fun _ =>
    .bind (rollHandle_world _ _).front fun _ => .bind front_modify fun _ => .bind front_okOr fun _ =>
    failFront_reply

theorem failFront_ite {p : Prop} [Decidable p] {m m' : M cfg σ α} (h : p → m.FailFront b)
    (h' : ¬ p → m'.FailFront b) : (if p then m else m').FailFront b := by
  by_cases hp : p
  · rw [if_pos hp]; exact h hp
  · rw [if_neg hp]; exact h' hp

theorem export_front {env : Env cfg σ} (hw : KeepsWindow env) (c : DeriveCmd cfg) (loc : U32) :
    (deriveCtx env c loc).FailFront exportHdrSize := by
  unfold deriveCtx
  refine .bind front_get fun _ => .bind front_failIf fun _ => .bind front_lift fun _ =>
    .bind front_okOr fun _ => .bind front_failIf fun _ => failFront_ite (fun _ => ?_) fun _ =>
    .bind front_lift fun _ => .bind front_failIf fun _ => .bind (deriveParent_world _ _ _).front fun _ =>
    failFront_ite (fun _ => ?_) fun _ => ?_
  · unfold deriveRecursive
    exact .bind front_failIf fun _ => .bind (addTci_world _ _ _ _).front fun _ =>
      .bind (rollHandle_world _ _).front fun _ => .bind front_modify fun _ => failFront_reply
  · unfold deriveExport
    exact .bind front_platform fun _ => .bind front_lift fun _ => .bind front_get fun _ =>
      .bind (front_runCert hw) fun _ => .bind front_get fun _ => .bind front_okOr fun _ =>
      .bind front_lift fun _ => .bind front_modify fun _ => .bind front_okOr fun _ => failFront_reply
  · unfold deriveChild
    exact .bind front_get fun _ => .bind front_okOr fun _ => .bind front_failIf fun _ =>
      .bind (pickHandle_world _ _).front fun _ => .bind (addTci_world _ _ _ _).front fun _ =>
      .bind front_lift fun _ => .bind front_modify fun _ => failFront_reply

end Dpe
