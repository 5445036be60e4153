import Verif.Spec.Cfi
import Verif.Spec.Effects
import Verif.Proofs.Refine
/-
Commands with repeated decisions, against those without.
-/
namespace Dpe
variable {cfg : Cfg} {σ α β : Type} {g : Site → Bool} {Q : State cfg → Prop}

/-- The run fails in a state that satisfies `Q`. -/
def Fails (Q : State cfg → Prop) (x : M cfg σ α) (s : Sys cfg σ) : Prop :=
  (∃ e, (x s).1 = .error e) ∧ Q (x s).2.st

/-- The run is the other one, or fails in a state that satisfies `Q`. -/
def Safe (Q : State cfg → Prop) (x y : M cfg σ α) (s : Sys cfg σ) : Prop := x s = y s ∨ Fails Q x s

theorem Safe.refl (x : M cfg σ α) (s : Sys cfg σ) : Safe Q x x s := .inl rfl

theorem dec_off {k : Site} {b : Bool} (h : g k = false) : dec g k b = b := by simp [dec, h]

theorem dec_on {k : Site} {b : Bool} (h : g k = true) : dec g k b = !b := by simp [dec, h]

theorem Fails.bind_left {x : M cfg σ α} {f : α → M cfg σ β} {s : Sys cfg σ} (h : Fails Q x s) :
    Fails Q (x >>= f) s := by
  obtain ⟨⟨e, he⟩, hq⟩ := h
  unfold Fails
  rw [run_bind]
  rcases hx : x s with ⟨_ | a, s1⟩
  · rw [hx] at hq; exact ⟨⟨_, rfl⟩, hq⟩
  · rw [hx] at he; cases he

theorem Fails.bind {x : M cfg σ α} {f : α → M cfg σ β} {s : Sys cfg σ} (hx : WorldOnly x) (hq : Q s.st)
    (h : ∀ a w, x s = (.ok a, { s with w := w }) → Fails Q (f a) { s with w := w }) : Fails Q (x >>= f) s := by
  unfold Fails
  rw [run_bind]
  rcases h1 : x s with ⟨_ | a, s1⟩
  · have := (hx s).1
    rw [h1] at this
    exact ⟨⟨_, rfl⟩, by simp only at this ⊢; rw [this]; exact hq⟩
  · have e := hx.eq h1
    rw [e] at h1 ⊢
    exact h a _ h1

theorem Safe.bind {x x' : M cfg σ α} {f f' : α → M cfg σ β} {s : Sys cfg σ} (hx : Safe Q x x' s)
    (h : ∀ a s1, x' s = (.ok a, s1) → Safe Q (f a) (f' a) s1) : Safe Q (x >>= f) (x' >>= f') s := by
  rcases hx with hx | hx
  · unfold Safe Fails
    rw [run_bind, run_bind, hx]
    rcases h1 : x' s with ⟨_ | a, s1⟩
    · exact .inl rfl
    · exact h a s1 h1
  · exact .inr hx.bind_left

theorem Safe.same {x : M cfg σ α} {f f' : α → M cfg σ β} {s : Sys cfg σ}
    (h : ∀ a s1, x s = (.ok a, s1) → Safe Q (f a) (f' a) s1) : Safe Q (x >>= f) (x >>= f') s :=
  Safe.bind (.inl rfl) h

theorem Safe.world {x x' : M cfg σ α} {f f' : α → M cfg σ β} {s : Sys cfg σ} (hx : Safe Q x x' s)
    (hw : WorldOnly x')
    (h : ∀ a w, x' s = (.ok a, { s with w := w }) → Safe Q (f a) (f' a) { s with w := w }) :
    Safe Q (x >>= f) (x' >>= f') s :=
  Safe.bind hx fun a s1 h1 => by
    have e := hw.eq h1
    rw [e] at h1 ⊢
    exact h a _ h1

theorem Safe.get {f f' : State cfg → M cfg σ β} {s : Sys cfg σ} (h : Safe Q (f s.st) (f' s.st) s) :
    Safe Q (M.get >>= f) (M.get >>= f') s := h

theorem Safe.refuse {k : Site} {b : Bool} {e : Err} {f f' : Unit → M cfg σ β} {s : Sys cfg σ}
    (hq : g k = true → Q s.st) (h1 : b = false → Safe Q (f ()) (f' ()) s)
    (h2 : b = true → g k = true → Fails Q (f ()) s) :
    Safe Q (M.refuse g k b e >>= f) (M.failIf b e >>= f') s := by
  unfold Safe Fails M.refuse
  rw [run_failIf, run_failIf]
  cases hg : g k
  · rw [dec_off hg]
    cases b
    · exact h1 rfl
    · exact .inl rfl
  · rw [dec_on hg]
    cases b
    · exact .inr ⟨⟨_, rfl⟩, hq hg⟩
    · exact .inr (h2 rfl hg)

theorem Safe.assert {b : Bool} {f : Unit → M cfg σ β} {y : M cfg σ β} {s : Sys cfg σ} (hb : b = true)
    (h : Safe Q (f ()) y s) : Safe Q (M.assert b >>= f) y s := by subst hb; exact h

theorem Fails.assert {b : Bool} {f : Unit → M cfg σ β} {s : Sys cfg σ} (hq : Q s.st)
    (h : b = true → Fails Q (f ()) s) : Fails Q (M.assert b >>= f) s := by
  cases b
  · exact ⟨⟨_, rfl⟩, hq⟩
  · exact h rfl

theorem Fails.refuse {k : Site} {b : Bool} {e : Err} {f : Unit → M cfg σ β} {s : Sys cfg σ} (hq : Q s.st)
    (h : Fails Q (f ()) s) : Fails Q (M.refuse g k b e >>= f) s :=
  Fails.bind (WorldOnly.failIf _ _) hq fun _ _ h1 => by
    unfold M.refuse at h1
    rw [failIf_iff] at h1
    rcases h1 with ⟨_, h1, _⟩ | ⟨_, _, h1⟩
    · cases h1
    · rw [h1]; exact h

theorem Fails.fail {e : Err} {x : M cfg σ β} {s : Sys cfg σ} (h : x s = (.error e, s)) (hq : Q s.st) :
    Fails Q x s := by
  unfold Fails
  rw [h]
  exact ⟨⟨_, rfl⟩, hq⟩

theorem roll_safe {n : Nat} {ops : Ops σ} {c : Context cfg} {s : Sys cfg σ}
    (hq : g (.roll n) = true → c.handle ≠ Handle.default ∧ Q s.st) :
    Safe Q (rollHandleCfi g n ops c) (rollHandle ops c) s := by
  unfold rollHandleCfi rollHandle
  cases hg : g (.roll n)
  · rw [dec_off hg]
    cases hd : c.handle.isDefault
    · exact .inl rfl
    · exact .inl rfl
  · obtain ⟨h1, h2⟩ := hq hg
    rw [dec_on hg, isDefault_false.2 h1]
    exact .inr ⟨⟨_, rfl⟩, h2⟩

theorem addTci_safe {ops : Ops σ} {c : Context cfg} {m : BArr cfg.tciSize} {loc : U32} {s : Sys cfg σ}
    (hq : ∀ k, g k = true → Q s.st) : Safe Q (addTciCfi g ops c m loc) (addTci ops c m loc) s := by
  unfold addTciCfi addTci
  refine Safe.refuse (hq _) (fun h1 => ?_) fun h1 hg => ?_
  · refine Safe.refuse (hq _) (fun h2 => ?_) fun h2 hg => ?_
    · refine Safe.assert (by simpa using h1) (Safe.assert (by simpa using h2) (Safe.refl _ _))
    · exact Fails.assert (hq _ hg) fun _ => Fails.assert (hq _ hg) fun h => by simp_all
  · exact Fails.refuse (hq _ hg) (Fails.assert (hq _ hg) fun h => by simp_all)

theorem init_safe {ops : Ops σ} {f loc : U32} {s : Sys cfg σ} (hq : ∀ k, g k = true → Q s.st)
    (hp : g .initPick = false) : Safe Q (initCtxCfi g ops f loc) (initCtx ops f loc) s := by
  unfold initCtxCfi initCtx
  refine Safe.get (Safe.refuse (hq _) (fun h1 => ?_) fun h1 hg => ?_)
  · refine Safe.refuse (hq _) (fun h2 => ?_) fun h2 hg => ?_
    · simp only [Bool.or_eq_false_iff, Bool.and_eq_false_iff, Bool.not_eq_false'] at h1 h2
      refine Safe.assert (by simp only [Bool.or_eq_true, Bool.not_eq_true']; exact h1.1) (Safe.assert (by
        simp only [Bool.or_eq_true, Bool.not_eq_true']; exact h1.2) (Safe.assert h2 (Safe.same fun i s1 _ => ?_)))
      refine .inl ?_
      rw [run_bind, run_bind]
      unfold initHandleCfi initHandle initArgs
      rw [dec_off hp]
      cases initDefaultFlag f
      · simp only [Bool.false_eq_true, if_false]
        rw [run_bind]
        rcases generateNewHandle ops s1 with ⟨_ | h, s2⟩ <;> rfl
      · rfl
    · exact Fails.assert (hq _ hg) fun _ => Fails.assert (hq _ hg) fun _ => Fails.assert (hq _ hg) fun h => by
        rw [h] at h2; cases h2
  · refine Fails.refuse (hq _ hg) (Fails.assert (hq _ hg) fun h3 => Fails.assert (hq _ hg) fun h4 => ?_)
    exfalso
    revert h1 h3 h4
    cases initDefaultFlag f <;> cases initSimFlag f <;> cases s.st.hasInitialized <;>
      cases simBit s.st.support <;> simp

theorem rotateGuard_safe {t c : Bool} {s : Sys cfg σ} (hq : ∀ k, g k = true → Q s.st) :
    Safe Q (rotateGuardCfi g t c) (M.failIf (t && c) .invalidArgument) s := by
  unfold rotateGuardCfi M.refuse M.assert
  unfold Safe Fails
  cases h1 : g .rotateTarget <;> cases h2 : g .rotateClash <;> cases t <;> cases c <;>
    simp only [dec, h1, h2, Bool.not_true, Bool.not_false, if_true, if_false,
      Bool.false_eq_true, Bool.and_true, Bool.and_false, run_failIf] <;>
    first
      | exact .inl trivial
      | exact .inl rfl
      | exact .inr ⟨⟨_, rfl⟩, hq _ h1⟩
      | exact .inr ⟨⟨_, rfl⟩, hq _ h2⟩

theorem rotate_safe {ops : Ops σ} {c : RotateCmd} {loc : U32} {s : Sys cfg σ} (hq : ∀ k, g k = true → Q s.st)
    (hp : g .rotatePick = false) : Safe Q (rotateCtxCfi g ops c loc) (rotateCtx ops c loc) s := by
  unfold rotateCtxCfi rotateCtx
  refine Safe.get (Safe.refuse (hq _) (fun h1 => ?_) fun h1 hg => ?_)
  · refine Safe.assert (by simpa using h1) (Safe.world (Safe.refl _ _) (WorldOnly.lift _) fun i w _ => ?_)
    refine Safe.bind (rotateGuard_safe hq) fun _ s1 _ => ?_
    rw [dec_off hp]
    exact Safe.refl _ _
  · exact Fails.assert (hq _ hg) fun h => by simp_all

theorem retired_same (hg : ∀ n, g (.destroyRetired n) = false) (st : State cfg) (n p : Nat) (acc : Children) :
    retiredChainCfi g st n p acc = retiredChain st n p acc := by
  induction n generalizing p acc with
  | zero => rfl
  | succ n ih =>
    unfold retiredChainCfi retiredChain
    split
    · rfl
    · cases st.contexts[p]? with
      | none => rfl
      | some pc =>
        simp only [dec_off (hg n), ih]
        by_cases h : (pc.state == .retired && (childList cfg pc.children).length == 1) = true
        · simp only [h, if_true]
          cases addChildBit cfg acc p <;> rfl
        · have h2 : (pc.state != .retired || (childList cfg pc.children).length != 1) = true := by
            cases h3 : pc.state == .retired <;> cases h4 : (childList cfg pc.children).length == 1 <;>
              simp_all [bne]
          simp only [h, h2, assertE, if_true]
          rfl

theorem clear_same (hg : ∀ n, g (.destroyClear n) = false) (st : State cfg) (x : Children) :
    clearCfi g st x = .ok (st.clear x) := by
  unfold clearCfi State.clear
  simp only [dec_off (hg _), Bool.or_not_self, List.all_eq_true, assertE]
  rw [if_pos (by simp)]
  rfl

theorem destroyContext_safe (h1 : ∀ n, g (.destroyRetired n) = false) (h2 : ∀ n, g (.destroyClear n) = false)
    (st : State cfg) (h : Handle) (loc : U32) :
    destroyContextCfi g st h loc = destroyContext st h loc ∨
      g .destroyLocality = true ∧ ∃ e, destroyContextCfi g st h loc = .error e := by
  unfold destroyContextCfi destroyContext destroySetCfi destroySet
  cases st.findActive h loc with
  | error e => exact .inl rfl
  | ok i =>
    simp only [bind, Except.bind]
    cases st.contexts[i]? with
    | none => exact .inl rfl
    | some c =>
      simp only [retired_same h1, clear_same h2]
      cases hg : g .destroyLocality
      · rw [dec_off hg]
        cases hl : c.locality != loc
        · have : (c.locality == loc) = true := by simpa using hl
          simp only [this, assertE, if_true, Bool.false_eq_true, if_false]
          exact .inl rfl
        · exact .inl rfl
      · rw [dec_on hg]
        refine .inr ⟨rfl, ?_⟩
        cases hl : c.locality != loc
        · exact ⟨_, rfl⟩
        · have : (c.locality == loc) = false := by simpa using hl
          simp only [this, assertE, Bool.not_true, Bool.false_eq_true, if_false]
          exact ⟨_, rfl⟩

theorem lift_safe {x y : Except Err α} {s : Sys cfg σ} (h : x = y ∨ Q s.st ∧ ∃ e, x = .error e) :
    Safe Q (M.lift x) (M.lift y) s := by
  rcases h with rfl | ⟨h, e, rfl⟩
  · exact Safe.refl _ _
  · exact .inr ⟨⟨_, rfl⟩, h⟩

theorem destroy_safe {h : Handle} {loc : U32} {s : Sys cfg σ} (hq : ∀ k, g k = true → Q s.st)
    (h1 : ∀ n, g (.destroyRetired n) = false) (h2 : ∀ n, g (.destroyClear n) = false) :
    Safe Q (destroyCtxCfi g h loc) (destroyCtx h loc) s := by
  unfold destroyCtxCfi destroyCtx
  refine Safe.get (Safe.bind (lift_safe ?_) fun _ _ _ => Safe.refl _ _)
  exact (destroyContext_safe h1 h2 _ _ _).imp id fun h => ⟨hq _ h.1, h.2⟩

theorem deriveRecursive_safe {ops : Ops σ} {c : DeriveCmd cfg} {i : Nat} {p : Context cfg} {tl : U32}
    {s : Sys cfg σ} (hq : ∀ k, g k = true → Q s.st) (hd : g (.roll 0) = true → p.handle ≠ Handle.default) :
    Safe Q (deriveRecursiveCfi g ops c i p tl) (deriveRecursive ops c i p tl) s := by
  unfold deriveRecursiveCfi deriveRecursive
  refine Safe.refuse (hq _) (fun h1 => ?_) fun h1 hg => ?_
  · refine Safe.assert (by simpa using h1) (Safe.world (addTci_safe hq) (addTci_world _ _ _ _) fun p1 w ha => ?_)
    obtain ⟨_, _, v, _, rfl⟩ := addTci_ok ha
    exact Safe.bind (roll_safe fun hg => ⟨hd hg, hq _ hg⟩) fun _ _ _ => Safe.refl _ _
  · exact Fails.assert (hq _ hg) fun h => by simp_all

theorem deriveParent_safe {ops : Ops σ} {c : DeriveCmd cfg} {p : Context cfg} {s : Sys cfg σ}
    (hq : ∀ k, g k = true → Q s.st) (h1 : g .deriveRetain = true → c.retain = true ∨ p.handle = Handle.default)
    (h2 : g .deriveDefault = true → p.handle ≠ Handle.default) :
    Safe Q (deriveParentCfi g ops c p) (deriveParent ops c p) s := by
  unfold deriveParentCfi deriveParent Safe Fails M.assert
  cases hr : c.retain <;> cases hd : p.handle.isDefault <;> cases g1 : g .deriveRetain <;>
    cases g2 : g .deriveDefault <;>
    simp only [dec, g1, g2, Bool.not_true, Bool.not_false, if_true, if_false,
      Bool.false_eq_true, run_failIf] <;>
    first
      | exact .inl trivial
      | exact .inl rfl
      | exact .inr ⟨⟨_, rfl⟩, hq _ g1⟩
      | exact .inr ⟨⟨_, rfl⟩, hq _ g2⟩
      | exact absurd (isDefault_iff.1 hd) (h2 g2)
      | (rcases h1 g1 with h | h
         · rw [hr] at h; cases h
         · exact absurd h (isDefault_false.1 hd))

theorem pick_safe {ops : Ops σ} {d : Bool} {s : Sys cfg σ} (hq : ∀ k, g k = true → Q s.st) :
    Safe Q (pickHandleCfi g ops d) (pickHandle ops d) s := by
  unfold pickHandleCfi pickHandle Safe Fails M.assert
  cases g1 : g .derivePick <;> cases d <;>
    simp only [dec, g1, Bool.not_true, Bool.not_false, if_true, if_false, Bool.false_eq_true,
      run_failIf] <;>
    first
      | exact .inl trivial
      | exact .inl rfl
      | exact .inr ⟨⟨_, rfl⟩, hq _ g1⟩

theorem deriveChild_safe {ops : Ops σ} {c : DeriveCmd cfg} {tl : U32} {i : Nat} {p p' : Context cfg}
    {s : Sys cfg σ} (hq : ∀ k, g k = true → Q s.st) :
    Safe Q (deriveChildCfi g ops c tl i p p') (deriveChild ops c tl i p p') s := by
  unfold deriveChildCfi deriveChild
  refine Safe.get (Safe.world (Safe.refl _ _) (WorldOnly.okOr _ _) fun k w _ => ?_)
  refine Safe.refuse (hq _) (fun h1 => ?_) fun h1 hg => ?_
  · refine Safe.assert (by simpa using h1) (Safe.world (pick_safe hq) (pickHandle_world _ _) fun h w _ => ?_)
    exact Safe.bind (addTci_safe hq) fun _ _ _ => Safe.refl _ _
  · exact Fails.assert (hq _ hg) fun h => by simp_all

theorem deriveExport_safe {env : Env cfg σ} {c : DeriveCmd cfg} {loc : U32} {i : Nat} {p' : Context cfg}
    {s : Sys cfg σ} (hq : ∀ k, g k = true → Q s.st) (h0 : g .deriveDestroy = false)
    (h1 : ∀ n, g (.destroyRetired n) = false) (h2 : ∀ n, g (.destroyClear n) = false) :
    Safe Q (deriveExportCfi g env c loc i p') (deriveExport env c loc i p') s := by
  unfold deriveExportCfi deriveExport
  refine Safe.world (Safe.refl _ _) (WorldOnly.platform _) fun u w _ => ?_
  refine Safe.world (Safe.refl _ _) (WorldOnly.lift _) fun u w _ => ?_
  refine Safe.get (Safe.same fun r s1 hr => ?_)
  have hst : s1.st = s.st := by
    unfold runCert at hr
    have := congrArg (fun x => x.2.st) hr
    exact this.symm
  refine Safe.get (Safe.world (Safe.refl _ _) (WorldOnly.okOr _ _) fun old w _ => ?_)
  rw [dec_off h0]
  refine Safe.bind (lift_safe ?_) fun _ _ _ => Safe.refl _ _
  split
  · refine (destroyContext_safe h1 h2 _ _ _).imp id fun h => ⟨?_, h.2⟩
    show Q s1.st
    rw [hst]; exact hq _ h.1
  · exact .inl rfl

theorem off {st : State cfg} {loc : U32} {c : Cmd cfg} {k : Site} (hc : ∀ k, g k = true → Covered st loc c k)
    (h : ¬ Covered st loc c k) : g k = false := by
  cases hg : g k
  · rfl
  · exact absurd (hc k hg) h

theorem deriveTarget_safe {c : DeriveCmd cfg} {loc : U32} {s : Sys cfg σ} (hq : ∀ k, g k = true → Q s.st) :
    Safe Q (deriveTargetCfi g c loc) (pure (if c.changeLoc then c.targetLocality else loc)) s := by
  unfold deriveTargetCfi Safe Fails M.assert
  cases g1 : g .deriveTarget <;> cases c.changeLoc <;>
    simp only [dec, g1, Bool.not_true, Bool.not_false, if_true, if_false, Bool.false_eq_true, run_failIf] <;>
    first
      | exact .inl trivial
      | exact .inl rfl
      | exact .inr ⟨⟨_, rfl⟩, hq _ g1⟩

theorem Fails.target {c : DeriveCmd cfg} {loc : U32} {f : U32 → M cfg σ β} {s : Sys cfg σ} (hq : Q s.st)
    (h : ∀ tl, Fails Q (f tl) s) : Fails Q (deriveTargetCfi g c loc >>= f) s := by
  have hw : ∀ s1 : Sys cfg σ, (deriveTargetCfi g c loc s1).2 = s1 := by
    intro s1
    unfold deriveTargetCfi M.assert
    cases dec g .deriveTarget (!c.changeLoc) <;> cases c.changeLoc <;> rfl
  unfold Fails
  rw [run_bind]
  have := hw s
  rcases hx : deriveTargetCfi g c loc s with ⟨_ | a, s1⟩
  · rw [hx] at this; subst this; exact ⟨⟨_, rfl⟩, hq⟩
  · rw [hx] at this; subst this; exact h a

theorem derive_safe {env : Env cfg σ} {c : DeriveCmd cfg} {loc : U32} {s : Sys cfg σ}
    (hc : ∀ k, g k = true → Covered s.st loc (.derive c) k) (hq : ∀ k, g k = true → Q s.st) :
    Safe Q (deriveCtxCfi g env c loc) (deriveCtx env c loc) s := by
  unfold deriveCtxCfi deriveCtx
  refine Safe.get (Safe.refuse (hq _) (fun h1 => ?_) fun h1 hg => ?_)
  · refine Safe.world (Safe.refl _ _) (WorldOnly.lift _) fun i w hi => ?_
    refine Safe.world (Safe.refl _ _) (WorldOnly.okOr _ _) fun p w hp => ?_
    rw [lift_iff] at hi
    have hp : s.st.contexts[i]? = some p := by
      rw [okOr_iff] at hp
      rcases hp with ⟨_, hp, _⟩ | ⟨_, h, h2, _⟩
      · cases hp
      · cases h2; exact h
    obtain ⟨hres, rfl⟩ := resolves_content hi.1 hp
    have hh : (s.st.at i).handle = c.handle := hres.1.2.1
    refine Safe.refuse (hq _) (fun h2 => ?_) fun h2 hg => ?_
    · have : ∀ (tl : U32) (f : U32 → M cfg σ Nat), f tl = (pure tl >>= f : M cfg σ Nat) := fun _ _ => rfl
      simp only [deriveUnsupported, Bool.or_eq_false_iff, Bool.and_eq_false_iff, Bool.not_eq_false'] at h1
      have h2' := h2
      simp only [deriveBadArgs, Bool.or_eq_false_iff, Bool.and_eq_false_iff, Bool.not_eq_false'] at h2'
      rw [this (if c.changeLoc then c.targetLocality else loc)
        (fun tl => if c.recursive then deriveRecursive env.toOps c i (s.st.at i) tl else do
          let u ← M.lift (typeUnique s.st c.tciType (childList cfg (s.st.at i).children))
          M.failIf (!u) .invalidArgument
          let p' ← deriveParent env.toOps c (s.st.at i)
          if c.createCert && c.exportCdi then deriveExport env c loc i p'
          else deriveChild env.toOps c tl i (s.st.at i) p')]
      refine Safe.world (deriveTarget_safe hq) (WorldOnly.pure _) fun tl w _ => ?_
      obtain ⟨⟨⟨⟨⟨a1, a2⟩, a3⟩, a4⟩, _⟩, _⟩ := h1
      obtain ⟨⟨⟨⟨⟨⟨⟨⟨b1, _⟩, _⟩, _⟩, _⟩, _⟩, b7⟩, _⟩, _⟩ := h2'
      refine Safe.assert (by simpa using a1) (Safe.assert (by simpa using a2) (Safe.assert (by simpa using a3)
        (Safe.assert (by simpa using a4) (Safe.assert (by simpa using b1) (Safe.assert (by simpa using b7) ?_)))))
      rw [dec_off (off hc (k := .deriveRecursive) id)]
      split
      · exact deriveRecursive_safe hq fun hg e => by
          have := hc _ hg
          simp only [Covered, Cmd.handleOf] at this
          rw [hh] at e
          exact this (by rw [e])
      · refine Safe.world (Safe.refl _ _) (WorldOnly.lift _) fun u w _ => ?_
        unfold M.refuse
        rw [dec_off (off hc (k := .deriveUnique) id)]
        refine Safe.world (Safe.refl _ _) (WorldOnly.failIf _ _) fun _ w _ => ?_
        refine Safe.world (deriveParent_safe hq (fun hg => ?_) fun hg e => ?_) (deriveParent_world _ _ _) fun p' w _ => ?_
        · rw [hh]; exact hc _ hg c rfl
        · have := hc _ hg
          simp only [Covered, Cmd.handleOf] at this
          rw [hh] at e
          exact this (by rw [e])
        · rw [dec_off (off hc (k := .deriveExport) id)]
          split
          · exact deriveExport_safe hq (off hc id) (fun _ => off hc id) fun _ => off hc id
          · exact deriveChild_safe hq
    · have hcov := hc _ hg c rfl
      refine Fails.target (hq _ hg) fun tl => ?_
      refine Fails.assert (hq _ hg) fun _ => Fails.assert (hq _ hg) fun _ => Fails.assert (hq _ hg) fun _ =>
        Fails.assert (hq _ hg) fun _ => Fails.assert (hq _ hg) fun a5 => Fails.assert (hq _ hg) fun a6 => ?_
      exfalso
      have e1 : c.exportCdi = false := Bool.eq_false_iff.2 hcov.1
      have e2 : c.recursive = true → c.allowRecursive = false ∧ (s.st.at i).allowRecursive = true := fun h =>
        ⟨Bool.eq_false_iff.2 (hcov.2 h).1, (hcov.2 h).2 i hres⟩
      simp only [deriveBadArgs, e1, Bool.false_and, Bool.or_false, Bool.or_eq_true, Bool.and_eq_true,
        Bool.not_eq_true'] at h2 a5 a6
      rcases h2 with ((h | h) | h) | h
      · simp [h] at a5
      · simp [h] at a6
      · rw [(e2 h.2).1] at h; cases h.1
      · rw [(e2 h.2).2] at h; cases h.1
  · have hcov := hc _ hg c rfl
    refine Fails.bind (WorldOnly.lift _) (hq _ hg) fun i w _ => Fails.bind (WorldOnly.okOr _ _) (hq _ hg) fun p w _ =>
      Fails.refuse (hq _ hg) (Fails.target (hq _ hg) fun tl => ?_)
    refine Fails.assert (hq _ hg) fun a1 => Fails.assert (hq _ hg) fun a2 => Fails.assert (hq _ hg) fun a3 =>
      Fails.assert (hq _ hg) fun a4 => ?_
    exfalso
    have e1 : c.recursive = true → recursiveBit s.st.support = true := hcov.1
    have e2 : c.createCert = true ∨ c.exportCdi = true → exportBit s.st.support = true := hcov.2
    simp only [deriveUnsupported, Bool.or_eq_true, Bool.and_eq_true, Bool.not_eq_true'] at h1 a1 a2 a3 a4
    rcases h1 with ((((h | h) | h) | h) | h) | h
    · simp [h] at a1
    · simp [h] at a2
    · simp [h] at a3
    · simp [h] at a4
    · rw [e2 h.2] at h; cases h.1
    · rw [e1 h.2] at h; cases h.1

theorem update_safe {ops : Ops σ} {c : UpdateCmd cfg} {loc : U32} {s : Sys cfg σ}
    (hc : ∀ k, g k = true → Covered s.st loc (.update c) k) (hq : ∀ k, g k = true → Q s.st)
    (hu : ∀ st', g (.roll 1) = true → HalfUpdate s.st c loc st' → Q st') :
    Safe Q (updateCtxCfi g ops c loc) (updateCtx ops c loc) s := by
  unfold updateCtxCfi updateCtx M.refuse
  rw [dec_off (off hc (k := .updateDefault) id)]
  refine Safe.world (Safe.refl _ _) (WorldOnly.failIf _ _) fun _ w hd => ?_
  have hd : c.parentHandle ≠ Handle.default := by
    rw [failIf_iff] at hd
    rcases hd with ⟨_, h, _⟩ | ⟨h, _⟩
    · cases h
    · exact isDefault_false.1 h
  refine Safe.get (Safe.world (Safe.refl _ _) (WorldOnly.lift _) fun i w hi => ?_)
  refine Safe.world (Safe.refl _ _) (WorldOnly.okOr _ _) fun p w hp => ?_
  refine Safe.world (Safe.refl _ _) (WorldOnly.okOr _ _) fun k w hk => ?_
  refine Safe.world (Safe.refl _ _) (WorldOnly.okOr _ _) fun ch w hch => ?_
  have hi : s.st.findActive c.parentHandle loc = .ok i := by
    rw [lift_iff] at hi
    have hi := hi.1
    cases hf : s.st.findActive c.parentHandle loc <;> simp [hf, mapParentErr] at hi ⊢
    exact hi
  have some_of : ∀ {γ : Type} {x : Option γ} {e : Err} {a : γ} {s1 s2 : Sys cfg σ},
      M.okOr x e s1 = (.ok a, s2) → x = some a := by
    intro γ x e a s1 s2 h
    rw [okOr_iff] at h
    rcases h with ⟨_, h, _⟩ | ⟨_, h, h2, _⟩
    · cases h
    · cases h2; exact h
  obtain ⟨hres, rfl⟩ := resolves_content hi (some_of hp)
  have hac := findChildOfType_mem (some_of hk)
  have e5 := at_of_getElem? (some_of hch)
  subst e5
  have hlt := hres.lt
  refine Safe.world (addTci_safe hq) (addTci_world _ _ _ _) fun ch1 w ha => ?_
  obtain ⟨_, _, v, _, rfl⟩ := addTci_ok ha
  refine Safe.world (roll_safe fun hg => ⟨?_, hq _ hg⟩) (rollHandle_world _ _) fun p1 w hr => ?_
  · rw [hres.1.2.1]; exact hd
  obtain ⟨hp, rfl, hroll⟩ := rollHandle_ok hr
  have hfr : Unused s.st hp := by
    rcases hroll with ⟨h, _⟩ | ⟨_, h⟩
    · rw [hres.1.2.1] at h; exact absurd h hd
    · exact fresh_iff.mp h
  refine Safe.same fun _ s1 hm => ?_
  rw [modify_iff] at hm
  obtain ⟨_, rfl⟩ := hm
  refine Safe.bind (roll_safe fun hg => ?_) fun _ _ _ => Safe.refl _ _
  have hcd : (s.st.at k).handle ≠ Handle.default := hc _ hg c rfl i k hres hac
  exact ⟨hcd, hu _ hg ⟨i, k, hp, hres, hd, hac, hcd, hfr, setSlot_of hlt _⟩⟩

theorem certKind_safe (f : U32) :
    certKindCfi g f = certKindOf f ∨
      (g .certFormat0 = true ∨ g .certFormat1 = true) ∧ ∃ e, certKindCfi g f = .error e := by
  unfold certKindCfi certKindOf assertE
  by_cases h0 : f = 0
  · subst h0
    cases g1 : g .certFormat0 <;> cases g2 : g .certFormat1 <;> simp [dec, g1, g2, bind, Except.bind, pure, Except.pure]
  · by_cases h1 : f = 1
    · subst h1
      cases g1 : g .certFormat0 <;> cases g2 : g .certFormat1 <;>
        simp [dec, g1, g2, bind, Except.bind, pure, Except.pure]
    · cases g1 : g .certFormat0 <;> cases g2 : g .certFormat1 <;>
        simp only [dec, g1, g2, h0, h1, bind, Except.bind, decide_false, Bool.not_false,
          Bool.false_eq_true, if_false, if_true] <;>
        first
          | exact .inl trivial
          | exact .inr ⟨.inl trivial, _, rfl⟩
          | exact .inr ⟨.inr trivial, _, rfl⟩

theorem certifyGuard_world (f : U32) (a b c : Bool) :
    WorldOnly (certifyGuardCfi g f a b c : M cfg σ Unit) :=
  WorldOnly.ite (WorldOnly.bind (WorldOnly.failIf _ _) fun _ => WorldOnly.failIf _ _) (WorldOnly.failIf _ _)

/-- Without a reason to refuse, the checks of the format pass or were glitched. -/
theorem certifyGuard_ok {f : U32} {a b c : Bool} {s : Sys cfg σ} (h1 : (f == 0 && !a) = false)
    (h2 : (f == 0 && !b) = false) (h3 : (f == 1 && !c) = false) (hq : ∀ k, g k = true → Q s.st) :
    Safe Q (certifyGuardCfi g f a b c) (pure ()) s := by
  unfold certifyGuardCfi M.refuse Safe Fails
  by_cases h0 : f = 0
  · subst h0
    cases a
    · cases h1
    cases b
    · cases h2
    cases g1 : g .certIsX509 <;> cases g2 : g .certX509 <;> cases g3 : g .certAllow <;> cases g4 : g .certCsr <;>
      simp only [dec, g1, g2, g3, g4, beq_self_eq_true, if_true, if_false, Bool.not_true, Bool.not_false,
        Bool.false_eq_true, run_failIf, show ((0 : U32) == 1) = false from rfl, Bool.false_and] <;>
      first
        | exact .inl rfl
        | exact .inr ⟨⟨_, rfl⟩, hq _ g1⟩
        | exact .inr ⟨⟨_, rfl⟩, hq _ g2⟩
        | exact .inr ⟨⟨_, rfl⟩, hq _ g3⟩
  · have e0 : (f == 0) = false := by simpa using h0
    rw [h3, e0]
    cases a <;> cases b <;> cases g1 : g .certIsX509 <;> cases g2 : g .certX509 <;> cases g3 : g .certAllow <;>
      cases g4 : g .certCsr <;>
      simp only [dec, g1, g2, g3, g4, if_true, if_false, Bool.not_true, Bool.not_false,
        Bool.false_eq_true, run_failIf] <;>
      first
        | exact .inl rfl
        | exact .inr ⟨⟨_, rfl⟩, hq _ g1⟩
        | exact .inr ⟨⟨_, rfl⟩, hq _ g4⟩

theorem certifyChecks_safe {f l loc : U32} {a b c : Bool} {X Y : M cfg σ β} {s : Sys cfg σ}
    (hq : ∀ k, g k = true → Q s.st) (h : Safe Q X Y s) :
    Safe Q (do
        certifyGuardCfi g f a b c
        M.refuse g .certLocality (l != loc) .invalidLocality
        M.assert (f != 0 || a)
        M.assert (f != 0 || b)
        M.assert (f != 1 || c)
        M.assert (l == loc)
        X)
      (do
        M.failIf (f == 0 && !a) .argumentNotSupported
        M.failIf (f == 0 && !b) .invalidArgument
        M.failIf (f == 1 && !c) .argumentNotSupported
        M.failIf (l != loc) .invalidLocality
        Y) s := by
  by_cases hbad : (f == 0 && !a) = true ∨ (f == 0 && !b) = true ∨ (f == 1 && !c) = true ∨ (l != loc) = true
  · by_cases hg : ∃ k, g k = true
    · obtain ⟨k, hk⟩ := hg
      have q := hq k hk
      refine .inr (Fails.bind (certifyGuard_world _ _ _ _) q fun _ w _ => Fails.refuse q ?_)
      refine Fails.assert q fun a1 => Fails.assert q fun a2 => Fails.assert q fun a3 => Fails.assert q fun a4 => ?_
      exfalso
      simp only [bne, Bool.and_eq_true, Bool.or_eq_true, Bool.not_eq_true'] at hbad a1 a2 a3 a4
      rcases hbad with h | h | h | h
      · rw [h.1, h.2] at a1; simp at a1
      · rw [h.1, h.2] at a2; simp at a2
      · rw [h.1, h.2] at a3; simp at a3
      · rw [a4] at h; cases h
    · have hd : ∀ k x, dec g k x = x := fun k x => dec_off (by
        cases h : g k
        · rfl
        · exact absurd ⟨k, h⟩ hg)
      refine .inl ?_
      unfold certifyGuardCfi M.refuse
      simp only [hd]
      by_cases h0 : f = 0
      · subst h0
        have e1 : ((0 : U32) == 1) = false := rfl
        simp only [beq_self_eq_true, if_true, Bool.true_and, e1, Bool.false_and, Bool.false_eq_true,
          false_or] at hbad ⊢
        rw [run_bind, run_failIf, run_failIf]
        cases a
        · rfl
        · rw [run_failIf]
          cases b
          · rfl
          · rcases hbad with h | h | h
            · cases h
            · cases h
            · simp only [Bool.not_true, Bool.false_eq_true, if_false]
              show (M.failIf (l != loc) .invalidLocality >>= _) s = (M.failIf (l != loc) .invalidLocality >>= _) s
              rw [run_failIf, run_failIf, if_pos h, if_pos h]
      · have e0 : (f == 0) = false := by simpa using h0
        simp only [e0, Bool.false_and, Bool.false_eq_true, if_false, false_or] at hbad ⊢
        show (M.failIf (f == 1 && !c) .argumentNotSupported >>= _) s =
          (M.failIf (f == 1 && !c) .argumentNotSupported >>= _) s
        cases hx : (f == 1 && !c)
        · have h : (l != loc) = true := hbad.resolve_left (by rw [hx]; exact Bool.false_ne_true)
          show (M.failIf (l != loc) .invalidLocality >>= _) s = (M.failIf (l != loc) .invalidLocality >>= _) s
          rw [run_failIf, if_pos h, run_failIf, if_pos h]
        · rfl
  · simp only [not_or, Bool.not_eq_true] at hbad
    obtain ⟨h1, h2, h3, h4⟩ := hbad
    rw [h1, h2, h3]
    refine Safe.bind (x' := pure ()) (certifyGuard_ok h1 h2 h3 hq) fun _ s1 hs => ?_
    rw [pure_iff] at hs
    obtain ⟨_, rfl⟩ := hs
    show Safe Q _ (M.failIf (l != loc) .invalidLocality >>= fun _ => Y) s1
    refine Safe.refuse (hq _) (fun _ => ?_) fun h => absurd h4 (by simp [h])
    refine Safe.assert ?_ (Safe.assert ?_ (Safe.assert ?_ (Safe.assert (by simpa using h4) h)))
    all_goals
      simp only [Bool.and_eq_false_iff, Bool.not_eq_false', bne, Bool.or_eq_true, Bool.not_eq_true'] at h1 h2 h3 ⊢
      assumption

theorem certify_safe {env : Env cfg σ} {c : CertifyCmd} {loc : U32} {s : Sys cfg σ}
    (hc : ∀ k, g k = true → Covered s.st loc (.certify c) k) (hq : ∀ k, g k = true → Q s.st) :
    Safe Q (certifyKeyCfi g env c loc) (certifyKey env c loc) s := by
  unfold certifyKeyCfi certifyKey
  refine Safe.get (Safe.world (Safe.refl _ _) (WorldOnly.lift _) fun i w hi => ?_)
  refine Safe.world (Safe.refl _ _) (WorldOnly.okOr _ _) fun p w hp => ?_
  rw [lift_iff] at hi
  have hp : s.st.contexts[i]? = some p := by
    rw [okOr_iff] at hp
    rcases hp with ⟨_, hp, _⟩ | ⟨_, h, h2, _⟩
    · cases hp
    · cases h2; exact h
  obtain ⟨hres, rfl⟩ := resolves_content hi.1 hp
  have hh : (s.st.at i).handle = c.handle := hres.1.2.1
  refine certifyChecks_safe hq ?_
  refine Safe.world (lift_safe ?_) (WorldOnly.lift _) fun kind w _ => Safe.same fun r s1 hr => ?_
  · exact (certKind_safe _).imp id fun h => ⟨h.1.elim (hq _) (hq _), h.2⟩
  have hst : s1.st = s.st := by
    unfold runCert at hr
    have := congrArg (fun x => x.2.st) hr
    exact this.symm
  refine Safe.bind (roll_safe fun hg => ⟨fun e => ?_, by rw [hst]; exact hq _ hg⟩) fun _ _ _ => Safe.refl _ _
  have := hc _ hg
  simp only [Covered, Cmd.handleOf] at this
  rw [hh] at e
  exact this (by rw [e])

theorem sign_safe {ops : Ops σ} {c : SignCmd} {loc : U32} {s : Sys cfg σ}
    (hc : ∀ k, g k = true → Covered s.st loc (.sign c) k) (hq : ∀ k, g k = true → Q s.st) :
    Safe Q (signCmdCfi g ops c loc) (signCmd ops c loc) s := by
  unfold signCmdCfi signCmd
  refine Safe.world (Safe.refl _ _) (WorldOnly.lift _) fun d w _ => ?_
  refine Safe.get (Safe.world (Safe.refl _ _) (WorldOnly.lift _) fun i w hi => ?_)
  refine Safe.world (Safe.refl _ _) (WorldOnly.okOr _ _) fun p w hp => ?_
  rw [lift_iff] at hi
  have hp : s.st.contexts[i]? = some p := by
    rw [okOr_iff] at hp
    rcases hp with ⟨_, hp, _⟩ | ⟨_, h, h2, _⟩
    · cases hp
    · cases h2; exact h
  obtain ⟨hres, rfl⟩ := resolves_content hi.1 hp
  have hh : (s.st.at i).handle = c.handle := hres.1.2.1
  refine Safe.refuse (hq _) (fun h1 => ?_) fun h1 hg => ?_
  · refine Safe.assert (by simpa [bne] using h1) (Safe.world (Safe.refl _ _) (signWith_world _ _ _ _) fun sig w _ => ?_)
    refine Safe.bind (roll_safe fun hg => ⟨fun e => ?_, hq _ hg⟩) fun _ _ _ => Safe.refl _ _
    have := hc _ hg
    simp only [Covered, Cmd.handleOf] at this
    rw [hh] at e
    exact this (by rw [e])
  · exact Fails.assert (hq _ hg) fun h => by simp_all [bne]

/-- The commands, with decisions going wrong only where they are repeated. -/
theorem exec_safe {env : Env cfg σ} {c : Cmd cfg} {loc : U32} {s : Sys cfg σ}
    (hc : ∀ k, g k = true → Covered s.st loc c k) (hq : ∀ k, g k = true → Q s.st)
    (hu : ∀ u st', c = .update u → g (.roll 1) = true → HalfUpdate s.st u loc st' → Q st') :
    Safe Q (execCfi g env c loc) (exec env c loc) s := by
  cases c with
  | getProfile => exact Safe.refl _ _
  | init f => exact init_safe hq (off hc id)
  | derive c => exact derive_safe hc hq
  | certify c => exact certify_safe hc hq
  | sign c => exact sign_safe hc hq
  | rotate c => exact rotate_safe hq (off hc id)
  | destroy h => exact destroy_safe hq (fun _ => off hc id) fun _ => off hc id
  | chain c =>
    show Safe Q (getCertChainCfi g env.toOps c) (getCertChain env.toOps c) s
    unfold getCertChainCfi getCertChain M.refuse
    rw [dec_off (off hc (k := .chainSize) id)]
    exact Safe.refl _ _
  | update c => exact update_safe hc hq fun st' => hu c st' rfl

theorem new_safe {ops : Ops σ} {s : Sys cfg σ} (hp : g .initPick = false)
    (ha : g .autoInit = true → autoInitBit s.st.support = true) :
    Safe (fun _ => ∃ k, g k = true) (dpeNewCfi g ops) (dpeNew ops) s := by
  unfold dpeNewCfi dpeNew
  refine Safe.get ?_
  unfold M.when
  cases hg : g .autoInit
  · rw [dec_off hg]
    cases autoInitBit s.st.support
    · exact Safe.refl _ _
    · simp only [if_true]
      refine Safe.world (Safe.refl _ _) (WorldOnly.platform _) fun loc w _ => ?_
      refine Safe.bind ?_ fun _ _ _ => Safe.refl _ _
      have := init_safe (Q := fun _ => ∃ k, g k = true) (g := g) (ops := ops) (f := 0x40000000) (loc := loc)
        (s := { st := s.st, w := w, out := List.replicate 28 0 }) (fun k hk => ⟨k, hk⟩) hp
      unfold Safe Fails withBuf at *
      simp only
      rcases this with h | ⟨⟨e, h⟩, hk⟩
      · rw [h]; exact .inl rfl
      · exact .inr ⟨⟨e, h⟩, hk⟩
  · rw [dec_on hg, ha hg]
    exact .inr ⟨⟨_, rfl⟩, _, hg⟩

theorem newAutoInit_safe {ops : Ops σ} {ty : U32} {m : BArr cfg.tciSize} {s : Sys cfg σ}
    (hp : g .initPick = false) :
    Safe (fun _ => ∃ k, g k = true) (dpeNewAutoInitCfi g ops ty m) (dpeNewAutoInit ops ty m) s := by
  unfold dpeNewAutoInitCfi dpeNewAutoInit
  refine Safe.get (Safe.refuse (fun h => ⟨_, h⟩) (fun h1 => ?_) fun h1 hg => ?_)
  · have h1 : autoInitBit s.st.support = true := by simpa using h1
    refine Safe.assert h1 (Safe.bind (new_safe hp fun _ => h1) fun _ s1 _ => ?_)
    refine Safe.world (Safe.refl _ _) (WorldOnly.platform _) fun loc w _ => ?_
    refine Safe.get (Safe.world (Safe.refl _ _) (WorldOnly.lift _) fun i w _ => ?_)
    refine Safe.world (Safe.refl _ _) (WorldOnly.okOr _ _) fun c w _ => ?_
    exact Safe.bind (addTci_safe fun k hk => ⟨k, hk⟩) fun _ _ _ => Safe.refl _ _
  · exact Fails.assert ⟨_, hg⟩ fun h => by simp_all

end Dpe
