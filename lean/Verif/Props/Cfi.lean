import Verif.Proofs.Cfi
import Verif.Examples.Toy
/-
C60: the build with the feature `cfi`.  Without glitches its commands are those of the build without the
feature, so that everything proved of the latter holds of it too.  If decisions go the wrong way at
places that the assertions repeat, the command does what it would have done, or fails and changes nothing.
-/
namespace Dpe
section
variable {cfg : Cfg} {σ : Type}

/-- No decision goes the wrong way. -/
def steady : Site → Bool := fun _ => false

/-- C60: in the absence of glitches, no assertion fails, and every command answers and changes the state as
the build without the assertions does, for every environment and from every state. -/
theorem C60_same (env : Env cfg σ) (c : Cmd cfg) (loc : U32) (s : Sys cfg σ) :
    execCfi steady env c loc s = exec env c loc s := by
  have := exec_safe (g := steady) (Q := fun _ => False) (env := env) (c := c) (loc := loc) (s := s)
    (fun _ h => by cases h) (fun _ h => by cases h) (fun _ _ _ h => by cases h)
  exact this.resolve_right fun h => h.2

/-- C60, starting: the same for `DpeInstance::new` and `DpeInstance::new_auto_init`. -/
theorem C60_start_same (ops : Ops σ) (ty : U32) (m : BArr cfg.tciSize) (s : Sys cfg σ) :
    dpeNewCfi steady ops s = dpeNew ops s ∧ dpeNewAutoInitCfi steady ops ty m s = dpeNewAutoInit ops ty m s := by
  constructor
  · exact (new_safe (g := steady) rfl fun h => by cases h).resolve_right fun h => by
      obtain ⟨_, _, h⟩ := h; cases h
  · exact (newAutoInit_safe (g := steady) rfl).resolve_right fun h => by
      obtain ⟨_, _, h⟩ := h; cases h

/-- C60, glitches: whatever decisions go the wrong way among those that are repeated, any number of them
and in every environment and state, the command does exactly what it would have done without, or it
fails (with an error, or with the panic of an assertion).  A failure leaves the state as it was, but for
UpdateContextMeasurement, which may have replaced the parent's handle. -/
theorem C60_covered {g : Site → Bool} {env : Env cfg σ} {c : Cmd cfg} {loc : U32} {s s' : Sys cfg σ}
    {r : Except Err Nat} (hg : ∀ k, g k = true → Covered s.st loc c k) (h : execCfi g env c loc s = (r, s')) :
    exec env c loc s = (r, s') ∨
      (∃ e, r = .error e) ∧ (s'.st = s.st ∨ ∃ u, c = .update u ∧ HalfUpdate s.st u loc s'.st) := by
  have := exec_safe (g := g) (Q := fun st' => st' = s.st ∨ ∃ u, c = .update u ∧ HalfUpdate s.st u loc st')
    (env := env) (c := c) (loc := loc) (s := s) hg (fun _ _ => .inl rfl) (fun u _ hu _ hh => .inr ⟨u, hu, hh⟩)
  rcases this with h1 | ⟨h1, h2⟩
  · exact .inl (h1.symm.trans h)
  · rw [h] at h1 h2; exact .inr ⟨h1, h2⟩

/-- C60, refusals: hence a command that is refused without glitches is not carried out with them. -/
theorem C60_refused {g : Site → Bool} {env : Env cfg σ} {c : Cmd cfg} {loc : U32} {s s0 : Sys cfg σ} {e : Err}
    (hg : ∀ k, g k = true → Covered s.st loc c k) (h : exec env c loc s = (.error e, s0)) :
    ∃ e', (execCfi g env c loc s).1 = .error e' := by
  rcases C60_covered (r := (execCfi g env c loc s).1) (s' := (execCfi g env c loc s).2) hg rfl with h1 | ⟨h1, _⟩
  · rw [h] at h1; exact ⟨e, (Prod.mk.inj h1).1.symm⟩
  · exact h1

/-- C60, starting with glitches: `new_auto_init` does what it would have done, or fails, whatever decisions
go the wrong way but the choice between the default and a simulation context; `new` too, if automatic
initialisation is supported or that decision is not glitched. -/
theorem C60_start {g : Site → Bool} (ops : Ops σ) (ty : U32) (m : BArr cfg.tciSize) (s : Sys cfg σ)
    (hp : g .initPick = false) :
    (dpeNewAutoInitCfi g ops ty m s = dpeNewAutoInit ops ty m s ∨
      ∃ e, (dpeNewAutoInitCfi g ops ty m s).1 = .error e) ∧
    ((g .autoInit = true → s.st.supports Feature.autoInit) → dpeNewCfi g ops s = dpeNew ops s ∨
      ∃ e, (dpeNewCfi g ops s).1 = .error e) :=
  ⟨(newAutoInit_safe hp).imp id And.left, fun ha => (new_safe hp ha).imp id And.left⟩

end

/-! ### What is not repeated -/

/-- One decision goes the wrong way. -/
def glitch (k : Site) : Site → Bool := fun j => j == k

/-- C60, a gap: the refusal of forbidden arguments is repeated in part only.  One glitch there lets
DeriveContext export the CDI of a context that may not be exported. -/
theorem C60_gap_export :
    let c : Cmd Toy.cfg := .derive ⟨Toy.hd 4, Toy.data 0 0, Toy.fExport, 0, 0, 0⟩
    (Toy.s4.st.at 2).handle = Toy.hd 4 ∧ (Toy.s4.st.at 2).allowExport = false ∧
    (exec Toy.env c 0 Toy.s4.sys).1 = .error .invalidArgument ∧
    (execCfi (glitch .deriveArgs) Toy.env c 0 Toy.s4.sys).1.toOption.isSome = true := by decide +kernel

/-- C60, a gap: one glitch exports a CDI although the caller asked for a child, and the parent may not be
exported. -/
theorem C60_gap_export_branch :
    let c : Cmd Toy.cfg := .derive ⟨Toy.hd 4, Toy.data 0 0, 0, 0, 0, 0⟩
    let x := execCfi (glitch .deriveExport) Toy.env c 0 Toy.s4.sys
    (Toy.s4.st.at 2).handle = Toy.hd 4 ∧ (Toy.s4.st.at 2).allowExport = false ∧ x.1.toOption.isSome = true ∧
    (x.2.out.drop 44).take 32 = List.replicate 32 9 := by decide +kernel

/-- C60, a gap: one glitch lets a caller change the measurement of a context that does not permit it. -/
theorem C60_gap_recursive :
    let c : Cmd Toy.cfg := .derive ⟨Toy.hd 4, Toy.data 9 9, Toy.fRecursive, 6, 0, 0⟩
    let x := execCfi (glitch .deriveArgs) Toy.env c 0 Toy.s4.sys
    (Toy.s4.st.at 2).handle = Toy.hd 4 ∧ (Toy.s4.st.at 2).allowRecursive = false ∧
    (exec Toy.env c 0 Toy.s4.sys).1 = .error .invalidArgument ∧ x.1.toOption.isSome = true ∧
    (Toy.s4.st.at 2).tci.current = Toy.data 3 4 ∧ (x.2.st.at 2).tci.current = Toy.data 9 9 := by decide +kernel

/-- C60, a gap: one glitch makes DestroyContext destroy an active ancestor. -/
theorem C60_gap_destroy :
    let x := execCfi (glitch (.destroyRetired 3)) Toy.env (.destroy (Toy.hd 4)) 0 Toy.s4.sys
    let y := exec Toy.env (.destroy (Toy.hd 4)) 0 Toy.s4.sys
    y.1.toOption.isSome = true ∧ (y.2.st.at 0).state = .active ∧
    x.1.toOption.isSome = true ∧ (x.2.st.at 0).state = .inactive := by decide +kernel

/-- C60, a gap: one glitch gives a context the default handle beside others of its locality. -/
theorem C60_gap_rotate :
    let x := execCfi (glitch .rotatePick) Toy.env (.rotate ⟨Toy.hd 2, 0⟩) 0 Toy.s4.sys
    x.1.toOption.isSome = true ∧ (x.2.st.at 0).handle = Handle.default ∧ (x.2.st.at 0).locality = 0 ∧
    (x.2.st.at 2).state = .active ∧ (x.2.st.at 2).handle = Toy.hd 4 ∧ (x.2.st.at 2).locality = 0 := by
  decide +kernel

/-- C60, a gap: one glitch gives a context two children of one type. -/
theorem C60_gap_twins :
    let c : Cmd Toy.cfg := .derive ⟨Toy.hd 2, Toy.data 0 0, Toy.fRetain, 5, 0, 0⟩
    let x := execCfi (glitch .deriveUnique) Toy.env c 0 Toy.s3.sys
    (exec Toy.env c 0 Toy.s3.sys).1 = .error .invalidArgument ∧ x.1.toOption.isSome = true ∧
    (x.2.st.at 1).tci.tciType = 5 ∧ (x.2.st.at 2).tci.tciType = 5 ∧
    (x.2.st.at 1).parentIdx = 0 ∧ (x.2.st.at 2).parentIdx = 0 := by decide +kernel

/-! ### Examples -/

/-- A glitch at a repeated decision ends in a panic: an unknown format is not taken for a known one. -/
example :
    let c : Cmd Toy.cfg := .certify (.p256 (Toy.hd 4) 0 7 (Vector.replicate 32 0))
    (exec Toy.env c 0 Toy.s4.sys).1 = .error .invalidArgument ∧
    (execCfi (glitch .certFormat1) Toy.env c 0 Toy.s4.sys).1 = .error .panic ∧
    (execCfi (glitch .certFormat0) Toy.env c 0 Toy.s4.sys).1 = .error .panic := by decide +kernel

/-- … and one at a decision that would have passed ends in a failure. -/
example : (execCfi (glitch (.roll 0)) Toy.env (.sign (.p256 (Toy.hd 4) (Vector.replicate 32 0) 0
      (Vector.replicate 32 0))) 0 Toy.s4.sys).1 = .error .panic ∧
    (execCfi steady Toy.env (.sign (.p256 (Toy.hd 4) (Vector.replicate 32 0) 0
      (Vector.replicate 32 0))) 0 Toy.s4.sys).1.toOption.isSome = true := by decide +kernel

/-- `C60_covered` applies with two glitches at once. -/
example : ∀ k, (k == Site.deriveType || k == Site.deriveTarget) = true →
    Covered Toy.s4.st 0 (.derive ⟨Toy.hd 4, Toy.data 9 9, Toy.fRecursive, 6, 0, 0⟩ : Cmd Toy.cfg) k := by
  intro k hk
  simp only [Bool.or_eq_true, beq_iff_eq] at hk
  rcases hk with rfl | rfl <;> trivial

end Dpe
