import Verif.Model.TestsUpdate
import Verif.Props.TestsRecursive
/-
C94: what the error cases of the conformance suite's test of UpdateContextMeasurement find out.
-/
namespace Dpe
open Suite
section
variable {cfg : Cfg} {σ : Type} {ops : Ops σ}

/-- Nothing but a rule makes an update fail with InvalidArgument. -/
theorem fault_update {s : Sys cfg σ} {u : UpdateCmd cfg} {e : Err} (h : Fault ops s (.update u) e) :
    e ≠ .invalidArgument := by
  have ov : (e = .internal .certSizeOverflow ∨ e = .x509InvalidWidth) → e ≠ .invalidArgument := by
    rintro (rfl | rfl) <;> simp
  cases h with
  | wrongKey h => cases h
  | cert h =>
    obtain ⟨kind, _, h | ⟨a, w, D, w1, _, h⟩⟩ := h
    · cases h <;> simp
    · cases h with
      | tbs _ _ h => exact ov (overflows_error (h (Classical.choice ⟨.mldsa (Vector.replicate _ 0)⟩)))
      | certificate _ _ _ h => exact ov (overflows_error h)
      | info h => exact ov (overflows_error (h (.mldsa (Vector.replicate _ 0)) (.mldsa (Vector.replicate _ 0))))
      | request _ _ _ h => exact ov (overflows_error (h (.mldsa (Vector.replicate _ 0))))
      | message _ _ _ _ h => exact ov (overflows_error h)
      | _ => simp
  | _ => simp

end
section
variable {cfg : Cfg} {L : Lib} {a : Artifact} {c : Client} {loc : U32} {addr : Nat} {st : State cfg}
  {s : Sys cfg (Soft (L.crypto cfg.profile) × Unit)}
variable (hL : L.Total) (ha : a.Fit) (hb : Built cfg a) (hs : cfg.Standard) (hc : Connected L a cfg c)
include hL ha hb hs hc

/-- UpdateContextMeasurement returns InvalidArgument exactly for the default handle as parent, and where the parent has no
active child of the type. -/
theorem single_update {h : Handle} {y : U32} (hst : InService st) (hal : addr % 4 = 0) :
    Single L a c loc addr st statusInvalidArgument (.update h (updateValue c.kind.digest) y)
      (h = Handle.default ∨ Named st h loc fun i => ∀ k, ¬ ActiveChild st i y k) := by
  have hz : (updateValue c.kind.digest).length = digestLength cfg.profile := by
    have := (zeros_sizes hL ha hb hs hc).1
    simpa [updateValue, zeros] using this
  rcases C61_means hs (.update h (updateValue c.kind.digest) y) with h' | h' | ⟨cmd, h1, h2⟩
  · exact absurd hz h'
  · exact h'.elim
  generalize updateValue c.kind.digest = z at h1
  cases h1 with
  | update _ d =>
  have hm : Means (.update h d.toList y) (.update (cfg := cfg) ⟨h, d, 0, y, 0⟩) := .update ..
  have key : FirstRefusal (rules st loc (.update (cfg := cfg) ⟨h, d, 0, y, 0⟩)) .invalidArgument ↔
      (h = Handle.default ∨ Named st h loc fun i => ∀ k, ¬ ActiveChild st i y k) := by
    simp only [rules, earlyRules, lateRules, FirstRefusal, List.append_nil]
    constructor
    · rintro (g | ⟨g0, g | ⟨g1, g | g⟩⟩)
      · exact .inl g.1
      · exact absurd g.2 (by decide)
      · obtain ⟨i, hi⟩ := Classical.not_not.1 g1
        obtain ⟨i, hi⟩ := exists_resolves hi
        exact .inr ⟨i, hi, fun k hk => g.1 ⟨i, hi, k, hk⟩⟩
      · exact g.2.elim
    · rintro (g | ⟨i, hi, g⟩)
      · exact .inl ⟨g, trivial⟩
      · by_cases g0 : h = Handle.default
        · exact .inl ⟨g0, trivial⟩
        · refine .inr ⟨g0, .inr ⟨fun q => q ⟨i, hi.1⟩, .inl ⟨?_, trivial⟩⟩⟩
          rintro ⟨i', hi', k, hk⟩
          obtain rfl := hi'.unique hi
          exact g k hk
  refine Single.congr ?_ key
  rintro s rfl
  have refused : FirstRefusal (rules s.st loc (.update (cfg := cfg) ⟨h, d, 0, y, 0⟩)) .invalidArgument →
      ∃ s', c.call (simSend ((device L a cfg.profile).env cfg) loc addr) (.update h d.toList y) (some s) =
        (.error (.status statusInvalidArgument), some s') ∧ s'.st = s.st := by
    intro hr
    have hx : ¬ ∃ reply st' w', Succeeds (device L a cfg.profile) s.st loc s.w (.update ⟨h, d, 0, y, 0⟩) reply st' w' := by
      rintro ⟨_, _, _, h, _⟩
      exact hr.not_none h
    obtain ⟨e', s', h1, _, h3, h4⟩ := C61_failed hL ha hb hs hc hst hal hm trivial hx
    refine ⟨s', ?_, h4.resolve_right ?_⟩
    · rcases h3 with h3 | ⟨_, h3, _⟩ | ⟨h3, _⟩
      · rw [h1, h3.unique hr]
        rfl
      · cases h3
      · exact absurd h3 hr.not_none
    · rintro ⟨u, hu, idx, k, hp, q1, q2, q3, _⟩
      cases hu
      rcases key.1 hr with g | ⟨i, hi, g⟩
      · exact q2 g
      · obtain rfl := hi.unique q1
        exact g k q3
  refine ⟨⟨fun hw => ?_, fun hw => ?_⟩, fun hw => ?_⟩
  · by_cases hx : ∃ reply st' w', Succeeds (device L a cfg.profile) s.st loc s.w (.update ⟨h, d, 0, y, 0⟩) reply st' w'
    · obtain ⟨reply, st', w', hx⟩ := hx
      obtain ⟨v, h1, _⟩ := C61_served hL ha hb hs hc hst hal hm trivial hx
      rw [h1] at hw
      cases hw
    · obtain ⟨e', s', h1, _, h3, _⟩ := C61_failed hL ha hb hs hc hst hal hm trivial hx
      rw [h1] at hw
      injection hw with hw
      injection hw with hw
      obtain rfl := word_inj (.inr rfl) hw
      rcases h3 with h3 | ⟨_, h3, _⟩ | ⟨_, h3⟩
      · exact h3
      · cases h3
      · exact absurd rfl (fault_update h3)
  · obtain ⟨s', h1, _⟩ := refused hw
    rw [h1]
  · obtain ⟨s', h1, h2⟩ := refused hw
    exact ⟨s', by rw [h1], h2⟩

/-- C94: the error cases of `TestUpdateContextMeasurement` are answered as the test demands exactly if the parent's handle
names a context of the locality which has no active child of the type 0xDEADBEEF, or is the default handle; and then the
device is left as it was.  The default handle is refused as a parent even where it names a context. -/
theorem C94_update_errors (hst : InService s.st) (hal : addr % 4 = 0) (parent : Handle) :
    ((updateErrors c (simSend ((device L a cfg.profile).env cfg) loc addr) parent (some s)).1 = true ↔
      parent = Handle.default ∨ Named s.st parent loc fun i => ∀ k, ¬ ActiveChild s.st i 0xDEADBEEF k) ∧
    ((updateErrors c (simSend ((device L a cfg.profile).env cfg) loc addr) parent (some s)).1 = true →
      ∃ s', (updateErrors c (simSend ((device L a cfg.profile).env cfg) loc addr) parent (some s)).2 = some s' ∧
        s'.st = s.st) := by
  have h1 := single_update (c := c) (loc := loc) (h := Handle.default) (y := 0x12345678) hL ha hb hs hc hst hal
  have h2 := single_update (c := c) (loc := loc) (h := parent) (y := otherType) hL ha hb hs hc hst hal
  obtain ⟨g1, g2⟩ := Passes.cons h1 (Passes.cons h2 Passes.nil) s rfl
  refine ⟨g1.trans ⟨fun h => h.2.1, fun h => ⟨.inl rfl, h, trivial⟩⟩, fun h => g2 (g1.1 h)⟩

end

namespace Ref

/-- Evaluated: the error cases with the handle that the default context is given, with the default handle, and with a
handle that names nothing. -/
example : runs target 0 (fun c t x => match c.call t (.rotate Handle.default 0) x with
      | (.ok (.handle h), x') => updateErrors c t h x'
      | (_, x') => (false, x')) = true ∧
    runs target 0 (fun c t x => updateErrors c t Handle.default x) = true ∧
    runs target 0 (fun c t x => updateErrors c t Handle.invalid x) = false := by decide +kernel

end Ref
end Dpe
