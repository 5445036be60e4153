import Verif.Proofs.Vocab
import Verif.Examples.Toy
/-
Properties of every reachable state: C01, C06, C07, C14, C15 and the state part of C16.
-/
namespace Dpe
variable {cfg : Cfg} {σ : Type}

/-- C01: the parent/child links of every reachable state form a forest. -/
theorem C01_forest {st : State cfg} (h : InService st) : Forest st := by
  have wf := h.wf
  constructor
  · intro i hi hn
    have hl := wf.up i hi hn
    exact ⟨live_of_lists wf hl, hl, fun j hj => ((wf.down j i hj).2).symm⟩
  · intro i j hl
    exact ⟨live_of_lists wf hl, wf.down i j hl⟩
  · intro i hi
    obtain ⟨l, hl⟩ := wf.path i hi
    exact ⟨l, hl, hl.nodup, hl.length_le⟩

/-- Non-vacuity for C01: a reachable state with a three-node chain through a Retired node. -/
example : Forest Toy.s4.st ∧ Path Toy.s4.st 2 [2, 1, 0] := by
  refine ⟨C01_forest Toy.s4.reach, ?_⟩
  refine .step (by unfold Live; decide +kernel) (by decide +kernel) ?_
  rw [show (Toy.s4.st.at 2).parentIdx = 1 by decide +kernel]
  refine .step (by unfold Live; decide +kernel) (by decide +kernel) ?_
  rw [show (Toy.s4.st.at 1).parentIdx = 0 by decide +kernel]
  exact .root (by unfold Live; decide +kernel) (by decide +kernel)

/-- C06: at most one root is Normal, and every context has the type of its parent. -/
theorem C06_one_normal_tree {st : State cfg} (h : InService st) :
    (∀ i j, IsRoot st i → IsRoot st j → (st.at i).ctype = .normal → (st.at j).ctype = .normal →
      i = j) ∧
    (∀ i, Live st i → (st.at i).parentIdx ≠ ROOT →
      (st.at i).ctype = (st.at (st.at i).parentIdx).ctype) :=
  ⟨h.wf.norm, fun i hi hn => h.wf.kind _ _ (h.wf.up i hi hn)⟩

/-- Every context of the tree above a node has the type of the node. -/
theorem C06_tree_type {st : State cfg} (h : InService st) {i j : Nat} (ha : Anc st i j) :
    (st.at i).ctype = (st.at j).ctype := by
  induction ha with
  | parent hi hn => exact (C06_one_normal_tree h).2 i hi hn
  | step _ hj hn ih => exact ih.trans ((C06_one_normal_tree h).2 _ hj hn)

/-- Non-vacuity for C06: a Normal tree of three contexts next to a Simulation root. -/
example : ∃ st : State Toy.cfg, Reachable st ∧ IsRoot st 0 ∧ (st.at 0).ctype = .normal ∧
    Live st 2 ∧ (st.at 2).parentIdx = 1 ∧ IsRoot st 3 ∧ (st.at 3).ctype = .simulation :=
  ⟨(Toy.s4.step (.init 0x80000000) 1).st, (Toy.s4.step (.init 0x80000000) 1).reach, by
    unfold IsRoot Live; decide +kernel⟩

/-- C07: a Retired context always has a live child and an Active descendant. -/
theorem C07_retired_not_stranded {st : State cfg} (h : InService st) {i : Nat}
    (hr : (st.at i).state = .retired) :
    (∃ j, Lists st i j ∧ Live st j) ∧ (∃ j, Desc st i j ∧ (st.at j).state = .active) := by
  have wf := h.wf
  obtain ⟨j, hj⟩ := wf.retired i hr
  obtain ⟨l, hl⟩ := wf.path i (live_of_retired hr)
  exact ⟨⟨j, hj, (wf.down i j hj).1⟩, active_under wf.links wf.retired (cfg.maxHandles + 1) i l hl (by omega) hr⟩

/-- Non-vacuity for C07: slot 1 of the example state is Retired. -/
example : (Toy.s4.st.at 1).state = .retired ∧
    ∃ j, Desc Toy.s4.st 1 j ∧ (Toy.s4.st.at j).state = .active :=
  ⟨by decide +kernel, (C07_retired_not_stranded Toy.s4.reach (by decide +kernel)).2⟩

/-- C14: two different children of one context never have the same type. -/
theorem C14_sibling_types {st : State cfg} (h : Reachable st) {i j k : Nat} (hj : Lists st i j)
    (hk : Lists st i k) (hne : j ≠ k) : (st.at j).tci.tciType ≠ (st.at k).tci.tciType :=
  fun he => hne (h.rights.sib i j k hj hk he)

/-- The same through parent links: two live contexts with the same parent. -/
theorem C14_sibling_types_up {st : State cfg} (h : Reachable st) {j k : Nat} (hj : Live st j)
    (hk : Live st k) (hp : (st.at j).parentIdx = (st.at k).parentIdx)
    (hn : (st.at j).parentIdx ≠ ROOT) (hne : j ≠ k) :
    (st.at j).tci.tciType ≠ (st.at k).tci.tciType :=
  C14_sibling_types h (h.wf.up j hj hn) (by rw [hp]; exact h.wf.up k hk (hp ▸ hn)) hne

/-- The root (handle 2 of `Toy.s3`) derives a second retained child, of type 8. -/
def Toy.s3b : Toy.R :=
  Toy.s3.step (.derive ⟨Toy.hd 2, Toy.data 7 7, Toy.fRetain ||| Toy.fX509, 8, 0, 0⟩) 0

/-- Non-vacuity for C14: slot 0 has the two children 1 and 2. -/
example : Lists Toy.s3b.st 0 1 ∧ Lists Toy.s3b.st 0 2 ∧
    (Toy.s3b.st.at 1).tci.tciType ≠ (Toy.s3b.st.at 2).tci.tciType := by
  have h1 : Lists Toy.s3b.st 0 1 := by unfold Lists; decide +kernel
  have h2 : Lists Toy.s3b.st 0 2 := by unfold Lists; decide +kernel
  have h3 := C14_sibling_types (st := Toy.s3b.st) Toy.s3b.reach h1 h2 (by decide)
  exact ⟨h1, h2, h3⟩

theorem Rights.up {st : State cfg} (wf : WF st) (rt : Rights st) {i j : Nat} (ha : Anc st i j) :
    ((st.at i).allowX509 = true → (st.at j).allowX509 = true) ∧
    ((st.at i).allowExport = true → (st.at j).allowExport = true) ∧
    ((st.at i).allowRecursive = true → (st.at j).allowRecursive = true) := by
  induction ha with
  | parent hi hn =>
    have hl := wf.up i hi hn
    exact ⟨rt.px509 _ _ hl, rt.pexport _ _ hl, rt.prec _ _ hl⟩
  | step _ hj hn ih =>
    have hl := wf.up _ hj hn
    exact ⟨fun hx => rt.px509 _ _ hl (ih.1 hx), fun hx => rt.pexport _ _ hl (ih.2.1 hx),
      fun hx => rt.prec _ _ hl (ih.2.2 hx)⟩

/-- C15: a privilege of a context is held by all of its ancestors. -/
theorem C15_privileges {st : State cfg} (h : Reachable st) {i j : Nat} (ha : Anc st i j) :
    ((st.at i).allowX509 = true → (st.at j).allowX509 = true) ∧
    ((st.at i).allowExport = true → (st.at j).allowExport = true) ∧
    ((st.at i).allowRecursive = true → (st.at j).allowRecursive = true) :=
  h.rights.up h.wf ha

/-- Non-vacuity for C15: slot 1 of `Toy.s3` has all three privileges and a parent. -/
example : Anc Toy.s3.st 1 0 ∧ (Toy.s3.st.at 1).allowX509 = true ∧
    (Toy.s3.st.at 1).allowExport = true ∧ (Toy.s3.st.at 1).allowRecursive = true := by
  refine ⟨?_, by decide +kernel⟩
  have := Anc.parent (st := Toy.s3.st) (i := 1) (by unfold Live; decide +kernel) (by decide +kernel)
  rwa [show (Toy.s3.st.at 1).parentIdx = 0 by decide +kernel] at this

/-- C16 (state part): a reachable state carries no attribute of an unsupported feature: no
live Simulation context without simulation, no internal-input flags without support for
them, and no derived context with X.509 permission without X.509 support. -/
theorem C16_attributes {st : State cfg} (h : InService st) :
    (¬ st.supports Feature.simulation → ∀ i, (st.at i).ctype = .normal) ∧
    (¬ st.supports Feature.internalInfo → ∀ i, (st.at i).usesInfo = false) ∧
    (¬ st.supports Feature.internalDice → ∀ i, (st.at i).usesDice = false) ∧
    (¬ st.supports Feature.x509 → ∀ i, (st.at i).parentIdx ≠ ROOT → (st.at i).allowX509 = false) := by
  have wf := h.wf
  refine ⟨fun hs i => ?_, fun hs i => ?_, fun hs i => ?_, fun hs i hp => ?_⟩
  · cases hc : (st.at i).ctype with
    | normal => rfl
    | simulation => exact absurd (wf.sim i hc) hs
  · by_contra hc; exact hs (wf.info i (by simpa using hc))
  · by_contra hc; exact hs (wf.dice i (by simpa using hc))
  · by_contra hc; exact hs (wf.x509 i hp (by simpa using hc))

/-- Non-vacuity for C16: an instance without any optional feature, holding a root. -/
example : ∃ st : State Toy.cfg, Reachable st ∧ Live st 0 ∧ ¬ st.supports Feature.simulation ∧
    ¬ st.supports Feature.internalInfo ∧ ¬ st.supports Feature.internalDice ∧
    ¬ st.supports Feature.x509 :=
  ⟨_, Reachable.step Toy.env (.init 0x40000000) 0 _ 0 Toy.buf (.new 0 0), by
    unfold Live State.supports; decide +kernel⟩

end Dpe
