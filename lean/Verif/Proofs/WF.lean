import Verif.Proofs.Slots
import Batteries.Data.List.Perm
/-
The global state invariant and its preservation.
-/
namespace Dpe
variable {cfg : Cfg} {σ : Type}

/-- Invariant of reachable states. -/
structure WF (st : State cfg) : Prop where
  clean : ∀ i, (st.at i).state = .inactive → (st.at i).parentIdx = ROOT ∧ (st.at i).children = 0 ∧
    (st.at i).tci = Tci.new ∧ (st.at i).usesInfo = false ∧ (st.at i).usesDice = false ∧
    (st.at i).allowX509 = false ∧ (st.at i).locality = 0
  up : ∀ i, Live st i → (st.at i).parentIdx ≠ ROOT → Lists st (st.at i).parentIdx i
  down : ∀ i j, Lists st i j → Live st j ∧ (st.at j).parentIdx = i
  path : ∀ i, Live st i → ∃ l, Path st i l
  retired : ∀ i, (st.at i).state = .retired → ∃ j, Lists st i j
  kind : ∀ i j, Lists st i j → (st.at j).ctype = (st.at i).ctype
  norm : ∀ i j, IsRoot st i → IsRoot st j → (st.at i).ctype = .normal → (st.at j).ctype = .normal →
    i = j
  inited : ∀ i, Live st i → (st.at i).ctype = .normal → st.hasInitialized = true
  sim : ∀ i, (st.at i).ctype = .simulation → simBit st.support = true
  info : ∀ i, (st.at i).usesInfo = true → infoBit st.support = true
  dice : ∀ i, (st.at i).usesDice = true → diceBit st.support = true
  x509 : ∀ i, (st.at i).parentIdx ≠ ROOT → (st.at i).allowX509 = true → x509Bit st.support = true
  tloc : ∀ i, (st.at i).tci.locality = (st.at i).locality

theorem live_of_active {st : State cfg} {i : Nat} (h : (st.at i).state = .active) : Live st i := by
  rw [Live, h]; simp

theorem live_of_retired {st : State cfg} {i : Nat} (h : (st.at i).state = .retired) : Live st i := by
  rw [Live, h]; simp

theorem live_of_lists {st : State cfg} (wf : WF st) {i j : Nat} (h : Lists st i j) : Live st i := by
  intro hi
  have := (wf.clean i hi).2.1
  rw [Lists, this] at h
  simp at h

theorem Path.head {st : State cfg} {i : Nat} {l : List Nat} (h : Path st i l) :
    ∃ t, l = i :: t := by
  cases h with
  | root => exact ⟨[], rfl⟩
  | step => exact ⟨_, rfl⟩

theorem Path.live {st : State cfg} {i : Nat} {l : List Nat} (h : Path st i l) : Live st i := by
  cases h <;> assumption

theorem Path.unique {st : State cfg} {i : Nat} {l l' : List Nat} (h : Path st i l)
    (h' : Path st i l') : l = l' := by
  induction h generalizing l' with
  | root _ hr =>
    cases h' with
    | root => rfl
    | step _ hn => exact absurd hr hn
  | step _ hn _ ih =>
    cases h' with
    | root _ hr => exact absurd hr hn
    | step _ _ h2 => rw [ih h2]

theorem Path.suffix {st : State cfg} {i j : Nat} {l : List Nat} (h : Path st i l) (hj : j ∈ l) :
    ∃ t, Path st j t ∧ t <:+ l := by
  induction h with
  | root hl hr =>
    simp only [List.mem_singleton] at hj; subst hj
    exact ⟨_, .root hl hr, List.suffix_refl _⟩
  | @step i l hl hn hp ih =>
    rcases List.mem_cons.mp hj with rfl | hj
    · exact ⟨_, .step hl hn hp, List.suffix_refl _⟩
    · obtain ⟨t, h1, h2⟩ := ih hj
      exact ⟨t, h1, h2.trans (List.suffix_cons _ _)⟩

theorem Path.nodup {st : State cfg} {i : Nat} {l : List Nat} (h : Path st i l) : l.Nodup := by
  induction h with
  | root => simp
  | @step i l hl hn hp ih =>
    rw [List.nodup_cons]
    refine ⟨?_, ih⟩
    intro hmem
    obtain ⟨t, h1, h2⟩ := hp.suffix hmem
    have := Path.unique h1 (.step hl hn hp)
    have h3 := h2.length_le
    rw [this] at h3
    simp at h3
    omega

theorem Path.all_live {st : State cfg} {i j : Nat} {l : List Nat} (h : Path st i l) (hj : j ∈ l) :
    Live st j := by
  obtain ⟨t, h1, _⟩ := h.suffix hj
  exact h1.live

theorem length_le_of_nodup_lt {l : List Nat} {n : Nat} (hn : l.Nodup) (h : ∀ x ∈ l, x < n) :
    l.length ≤ n := by
  have : l.Subperm (List.range n) := by
    apply List.subperm_of_subset hn
    intro x hx; simpa using h x hx
  simpa using this.length_le

theorem Path.length_le {st : State cfg} {i : Nat} {l : List Nat} (h : Path st i l) :
    l.length ≤ cfg.maxHandles :=
  length_le_of_nodup_lt h.nodup fun _ hx => lt_of_live (h.all_live hx)

/-- Transfer of a path to another state. -/
theorem Path.transfer {st st' : State cfg} {P : Nat → Prop}
    (hP : ∀ j, Live st j → P j → Live st' j ∧ (st'.at j).parentIdx = (st.at j).parentIdx ∧
      ((st.at j).parentIdx ≠ ROOT → P (st.at j).parentIdx))
    {i : Nat} {l : List Nat} (h : Path st i l) (hi : P i) : Path st' i l := by
  induction h with
  | root hl hr =>
    obtain ⟨h1, h2, _⟩ := hP _ hl hi
    exact .root h1 (h2.trans hr)
  | step hl hn _ ih =>
    obtain ⟨h1, h2, h3⟩ := hP _ hl hi
    refine .step h1 (by rw [h2]; exact hn) ?_
    rw [h2]; exact ih (h3 hn)

theorem WF.new (cfg : Cfg) (support : U32) (flags : BitVec 16) :
    WF (State.new cfg support flags) := by
  constructor <;> intros <;> simp_all [Live, Lists, IsRoot, at_new, Context.new, Tci.new]

/-- Changing one slot without touching links, identity or liveness. -/
theorem WF.similar {st : State cfg} (wf : WF st) {idx : Nat} (hidx : idx < cfg.maxHandles)
    {c : Context cfg} (hlive : Live st idx) (hst : c.state ≠ .inactive)
    (hret : c.state = .retired → ∃ j, Lists st idx j)
    (h1 : c.children = (st.at idx).children) (h2 : c.parentIdx = (st.at idx).parentIdx)
    (h3 : c.locality = (st.at idx).locality) (h4 : c.ctype = (st.at idx).ctype)
    (h5 : c.usesInfo = (st.at idx).usesInfo) (h6 : c.usesDice = (st.at idx).usesDice)
    (h7 : c.allowX509 = (st.at idx).allowX509)
    (h11 : c.tci.locality = (st.at idx).tci.locality) : WF (st.setCtx idx c) := by
  have hat : ∀ j, (st.setCtx idx c).at j = if j = idx then c else st.at j := at_setCtx hidx c
  have hlists : ∀ i j, Lists (st.setCtx idx c) i j ↔ Lists st i j := by
    intro i j; unfold Lists; rw [hat]; split
    · subst_vars; rw [h1]
    · rfl
  have hlv : ∀ i, Live (st.setCtx idx c) i ↔ Live st i := by
    intro i; unfold Live; rw [hat]; split
    · subst_vars; exact ⟨fun _ => hlive, fun _ => hst⟩
    · rfl
  have hpar : ∀ i, ((st.setCtx idx c).at i).parentIdx = (st.at i).parentIdx := by
    intro i; rw [hat]; split
    · subst_vars; exact h2
    · rfl
  have hct : ∀ i, ((st.setCtx idx c).at i).ctype = (st.at i).ctype := by
    intro i; rw [hat]; split
    · subst_vars; exact h4
    · rfl
  have hx : ∀ i, ((st.setCtx idx c).at i).allowX509 = (st.at i).allowX509 := by
    intro i; rw [hat]; split
    · subst_vars; exact h7
    · rfl
  have hroot : ∀ i, IsRoot (st.setCtx idx c) i ↔ IsRoot st i := by
    intro i; unfold IsRoot; rw [hlv, hpar]
  constructor
  · intro i hi
    rw [hat] at hi ⊢
    split at hi
    · exact absurd hi hst
    · rename_i hne; rw [if_neg hne]; exact wf.clean i hi
  · intro i hi hn; rw [hlists]; rw [hpar] at hn ⊢; exact wf.up i ((hlv i).mp hi) hn
  · intro i j hl; rw [hlv, hpar]; exact wf.down i j ((hlists i j).mp hl)
  · intro i hi
    obtain ⟨l, hl⟩ := wf.path i ((hlv i).mp hi)
    exact ⟨l, hl.transfer (P := fun _ => True) (fun j hj _ => ⟨(hlv j).mpr hj, hpar j, fun _ => trivial⟩)
      trivial⟩
  · intro i hi
    simp only [hlists]
    rw [hat] at hi
    split at hi
    · subst_vars; exact hret hi
    · exact wf.retired i hi
  · intro i j; rw [hlists, hct, hct]; exact wf.kind i j
  · intro i j; rw [hroot, hroot, hct, hct]; exact wf.norm i j
  · intro i; rw [hlv, hct]; exact wf.inited i
  · intro i; rw [hct]; exact wf.sim i
  · intro i; rw [hat]; split
    · subst_vars; rw [h5]; exact wf.info _
    · exact wf.info i
  · intro i; rw [hat]; split
    · subst_vars; rw [h6]; exact wf.dice _
    · exact wf.dice i
  · intro i; rw [hpar, hx]; exact wf.x509 i
  · intro i; rw [hat]; split
    · subst_vars; rw [h11, h3]; exact wf.tloc _
    · exact wf.tloc i

theorem nextInactive_at {st : State cfg} {k : Nat} (h : st.nextInactive = some k) :
    k < cfg.maxHandles ∧ (st.at k).state = .inactive := by
  obtain ⟨c, h1, h2, _⟩ := nextInactive_some h
  exact ⟨lt_of_getElem? h1, by rw [at_of_getElem? h1]; exact h2⟩

theorem at_initPost {st : State cfg} {f loc : U32} {idx : Nat} {hd : Handle}
    (hidx : idx < cfg.maxHandles) (j : Nat) :
    (initPost st f loc idx hd).at j =
      if j = idx then Context.new.activate (initArgs f loc hd) else st.at j :=
  at_setCtx (st := { st with hasInitialized := st.hasInitialized || initDefaultFlag f }) hidx _ j

theorem not_lists_inactive {st : State cfg} (wf : WF st) {k : Nat}
    (hk : (st.at k).state = .inactive) (j : Nat) : ¬ Lists st k j := by
  intro h; exact live_of_lists wf h hk

theorem not_lists_to_inactive {st : State cfg} (wf : WF st) {k : Nat}
    (hk : (st.at k).state = .inactive) (j : Nat) : ¬ Lists st j k := by
  intro h; exact (wf.down j k h).1 hk

theorem WF.init {st : State cfg} (wf : WF st) {f loc : U32} {idx : Nat} {hd : Handle}
    (h1 : (initDefaultFlag f && st.hasInitialized) = false)
    (h2 : (initSimFlag f && !simBit st.support) = false)
    (h3 : (initDefaultFlag f ^^ initSimFlag f) = true)
    (h4 : st.nextInactive = some idx) : WF (initPost st f loc idx hd) := by
  obtain ⟨hidx, hin⟩ := nextInactive_at h4
  have hat := at_initPost (st := st) (f := f) (loc := loc) (hd := hd) hidx
  generalize hst' : initPost st f loc idx hd = st' at *
  have hsup : st'.support = st.support := by subst hst'; rfl
  have hini : st'.hasInitialized = (st.hasInitialized || initDefaultFlag f) := by subst hst'; rfl
  have hlists : ∀ i j, Lists st' i j ↔ Lists st i j := by
    intro i j; unfold Lists; rw [hat]; split
    · subst_vars
      have := not_lists_inactive wf hin j
      unfold Lists at this
      simp [Context.activate, this]
    · rfl
  have hne : ∀ {i j}, Lists st i j → i ≠ idx ∧ j ≠ idx := by
    intro i j h
    exact ⟨fun e => not_lists_inactive wf hin j (e ▸ h), fun e => not_lists_to_inactive wf hin i (e ▸ h)⟩
  have hlv : ∀ i, Live st' i ↔ (i = idx ∨ Live st i) := by
    intro i; unfold Live; rw [hat]; split
    · subst_vars; simp [Context.activate]
    · simp_all
  have hold : ∀ {i}, i ≠ idx → st'.at i = st.at i := by
    intro i h; rw [hat, if_neg h]
  constructor
  · intro i hi
    rw [hat] at hi ⊢
    split at hi
    · simp [Context.activate] at hi
    · rename_i hne; rw [if_neg hne]; exact wf.clean i hi
  · intro i hi hn
    rw [hlists]
    by_cases h : i = idx
    · subst h; rw [hat, if_pos rfl] at hn; simp [Context.activate, initArgs] at hn
    · rw [hold h] at hn ⊢
      exact wf.up i (((hlv i).mp hi).resolve_left h) hn
  · intro i j hl
    have hl := (hlists i j).mp hl
    rw [hold (hne hl).2]
    exact ⟨(hlv j).mpr (.inr (wf.down i j hl).1), (wf.down i j hl).2⟩
  · intro i hi
    by_cases h : i = idx
    · refine ⟨[i], .root hi ?_⟩
      rw [hat, if_pos h]; rfl
    · obtain ⟨l, hl⟩ := wf.path i (((hlv i).mp hi).resolve_left h)
      refine ⟨l, hl.transfer (P := fun j => j ≠ idx) ?_ h⟩
      intro j hj hji
      refine ⟨(hlv j).mpr (.inr hj), by rw [hold hji], ?_⟩
      intro hn
      exact (hne (wf.up j hj hn)).1
  · intro i hi
    simp only [hlists]
    rw [hat] at hi
    split at hi
    · simp [Context.activate] at hi
    · exact wf.retired i hi
  · intro i j hj
    rw [hlists] at hj
    rw [hold (hne hj).1, hold (hne hj).2]; exact wf.kind i j hj
  · have key : ∀ j, j ≠ idx → IsRoot st' j → (st'.at j).ctype = .normal →
        (st'.at idx).ctype = .normal → False := by
      intro j hj hr hn hn2
      rw [hat, if_pos rfl] at hn2
      rw [hold hj] at hn
      have hdf : initDefaultFlag f = true := by
        by_contra hc; simp [Context.activate, initArgs, hc] at hn2
      have := wf.inited j (((hlv j).mp hr.1).resolve_left hj) hn
      simp [hdf, this] at h1
    intro i j hi hj hni hnj
    by_cases e1 : i = idx
    · by_cases e2 : j = idx
      · rw [e1, e2]
      · exact (key j e2 hj hnj (e1 ▸ hni)).elim
    · by_cases e2 : j = idx
      · exact (key i e1 hi hni (e2 ▸ hnj)).elim
      · have hi' := ((hlv i).mp hi.1).resolve_left e1
        have hj' := ((hlv j).mp hj.1).resolve_left e2
        have hp1 := hi.2; have hp2 := hj.2
        rw [hold e1] at hp1 hni
        rw [hold e2] at hp2 hnj
        exact wf.norm i j ⟨hi', hp1⟩ ⟨hj', hp2⟩ hni hnj
  · intro i hi hn
    rw [hini]
    by_cases e1 : i = idx
    · rw [hat, if_pos e1] at hn
      have hdf : initDefaultFlag f = true := by
        by_contra hc; simp [Context.activate, initArgs, hc] at hn
      simp [hdf]
    · rw [hold e1] at hn
      simp [wf.inited i (((hlv i).mp hi).resolve_left e1) hn]
  · intro i hn
    rw [hsup]
    by_cases e1 : i = idx
    · rw [hat, if_pos e1] at hn
      have hdf : initDefaultFlag f = false := by
        by_contra hc; simp [Context.activate, initArgs, hc] at hn
      have hsf : initSimFlag f = true := by simpa [hdf] using h3
      simpa [hsf] using h2
    · rw [hold e1] at hn; exact wf.sim i hn
  · intro i; rw [hat, hsup]; split
    · simp [Context.activate, initArgs]
    · exact wf.info i
  · intro i; rw [hat, hsup]; split
    · simp [Context.activate, initArgs]
    · exact wf.dice i
  · intro i; rw [hat, hsup]; split
    · simp [Context.activate, initArgs]
    · exact wf.x509 i
  · intro i; rw [hat]; split
    · simp [Context.activate]
    · exact wf.tloc i

theorem typeUnique_true {st : State cfg} {ty : U32} {l : List Nat}
    (h : typeUnique st ty l = .ok true) : ∀ k ∈ l, (st.at k).tci.tciType ≠ ty := by
  induction l with
  | nil => intro k hk; cases hk
  | cons a l ih =>
    unfold typeUnique at h
    split at h
    · cases h
    · rename_i c hc
      split at h
      · cases h
      · rename_i hne
        intro k hk
        rcases List.mem_cons.mp hk with rfl | hk
        · rw [at_of_getElem? hc]; simpa using hne
        · exact ih h k hk

theorem ParentUpd.facts {st : State cfg} {c : DeriveCmd cfg} {p p' : Context cfg}
    (h : ParentUpd st c p p') (hp : p.state = .active) :
    ∃ hd s, p' = { p with handle := hd, state := s } ∧ s ≠ .inactive := by
  rcases h with ⟨_, hh, _, rfl⟩ | ⟨_, rfl⟩
  · exact ⟨hh, .active, by rw [← hp], by simp⟩
  · exact ⟨Handle.invalid, .retired, rfl, by simp⟩

theorem addChild_ok {p : Context cfg} {k : Nat} {kids : Children} (h : p.addChild k = .ok kids) :
    k < cfg.maxHandles ∧ ∀ j, kids.getLsbD j = (p.children.getLsbD j || decide (k = j)) := by
  unfold Context.addChild at h
  split at h
  · cases h
  · exact addChildBit_ok h

/-- Slot contents after a child was derived. -/
theorem at_child {st : State cfg} {idx k : Nat} (hidx : idx < cfg.maxHandles)
    (hk : k < cfg.maxHandles) (child par : Context cfg) (j : Nat) :
    ((st.setCtx k child).setCtx idx par).at j =
      if j = idx then par else if j = k then child else st.at j := by
  rw [at_setCtx hidx]; split
  · rfl
  · rw [at_setCtx hk]

theorem WF.child {st : State cfg} (wf : WF st) {c : DeriveCmd cfg} {tl : U32} {idx k : Nat}
    {hd : Handle} {v : BArr cfg.tciSize} {p' : Context cfg} {kids : Children}
    (hidx : idx < cfg.maxHandles) (hact : (st.at idx).state = .active)
    (h1 : deriveUnsupported st.support c = false)
    (h4 : ParentUpd st c (st.at idx) p') (h5 : st.nextInactive = some k)
    (h6 : p'.addChild k = .ok kids) :
    WF ((st.setCtx k (childOf c tl idx (st.at idx) hd v)).setCtx idx
      { p' with children := kids }) := by
  obtain ⟨hk, hin⟩ := nextInactive_at h5
  have hki : k ≠ idx := by rintro rfl; rw [hact] at hin; cases hin
  have hat := at_child (st := st) hidx hk (childOf c tl idx (st.at idx) hd v)
    { p' with children := kids }
  generalize hst' : (st.setCtx k (childOf c tl idx (st.at idx) hd v)).setCtx idx
    { p' with children := kids } = st' at *
  have hsup : st'.support = st.support := by subst hst'; rfl
  have hini : st'.hasInitialized = st.hasInitialized := by subst hst'; rfl
  obtain ⟨ph, ps, rfl, hps⟩ := h4.facts hact
  obtain ⟨_, hkids⟩ := addChild_ok h6
  simp only at hkids
  have hidx255 : idx % 256 = idx := by have := cfg.le64; omega
  have hrt : idx ≠ ROOT := by rintro rfl; exact root_not_lt hidx
  have atk : st'.at k = childOf c tl idx (st.at idx) hd v := by rw [hat, if_neg hki, if_pos rfl]
  have ati : st'.at idx = { st.at idx with handle := ph, state := ps, children := kids } := by
    rw [hat, if_pos rfl]
  have hold : ∀ {j}, j ≠ idx → j ≠ k → st'.at j = st.at j := by
    intro j h1 h2; rw [hat, if_neg h1, if_neg h2]
  -- fields of untouched-identity slots
  have par : ∀ {j}, j ≠ k → (st'.at j).parentIdx = (st.at j).parentIdx := by
    intro j h
    by_cases e : j = idx
    · rw [e, ati]
    · rw [hold e h]
  have fld : ∀ {j}, j ≠ k → (st'.at j).ctype = (st.at j).ctype ∧
      (st'.at j).allowX509 = (st.at j).allowX509 ∧ (st'.at j).allowExport = (st.at j).allowExport ∧
      (st'.at j).allowRecursive = (st.at j).allowRecursive ∧ (st'.at j).tci = (st.at j).tci ∧
      (st'.at j).usesInfo = (st.at j).usesInfo ∧ (st'.at j).usesDice = (st.at j).usesDice ∧
      (st'.at j).locality = (st.at j).locality := by
    intro j h
    by_cases e : j = idx
    · rw [e, ati]; exact ⟨rfl, rfl, rfl, rfl, rfl, rfl, rfl, rfl⟩
    · rw [hold e h]; exact ⟨rfl, rfl, rfl, rfl, rfl, rfl, rfl, rfl⟩
  have hlists : ∀ i j, Lists st' i j ↔ (Lists st i j ∨ (i = idx ∧ j = k)) := by
    intro i j
    by_cases hi : i = idx
    · subst hi; unfold Lists; rw [ati]
      simp only [hkids, Bool.or_eq_true, decide_eq_true_eq, true_and]
      exact or_congr Iff.rfl eq_comm
    · by_cases hik : i = k
      · subst hik
        have hn := not_lists_inactive wf hin j
        unfold Lists at hn ⊢; rw [atk]
        simp [childOf, Context.activate, hi, hn]
      · unfold Lists; rw [hold hi hik]; simp [hi]
  have hne : ∀ {i j}, Lists st i j → i ≠ k ∧ j ≠ k := by
    intro i j h
    exact ⟨fun e => not_lists_inactive wf hin j (e ▸ h), fun e => not_lists_to_inactive wf hin i (e ▸ h)⟩
  have hlidx : Live st idx := live_of_active hact
  have hlv : ∀ i, Live st' i ↔ (i = k ∨ Live st i) := by
    intro i
    by_cases hi : i = idx
    · subst hi; unfold Live; rw [ati]
      exact ⟨fun _ => .inr hlidx, fun _ => hps⟩
    · by_cases hik : i = k
      · subst hik; unfold Live; rw [atk]; simp [childOf, Context.activate]
      · unfold Live; rw [hold hi hik]; simp [hik]
  simp only [deriveUnsupported, Bool.or_eq_false_iff, Bool.and_eq_false_iff, Bool.not_eq_false'] at h1
  constructor
  · intro i hi
    by_cases hik : i = k
    · subst hik; rw [atk] at hi; simp [childOf, Context.activate] at hi
    · by_cases hii : i = idx
      · subst hii; rw [ati] at hi; exact absurd hi hps
      · rw [hold hii hik] at hi ⊢; exact wf.clean i hi
  · intro i hi hn
    rw [hlists]
    by_cases hik : i = k
    · subst hik; right
      rw [atk]; exact ⟨by simp [childOf, Context.activate, deriveArgs, hidx255], rfl⟩
    · left
      rw [par hik] at hn ⊢
      exact wf.up i (((hlv i).mp hi).resolve_left hik) hn
  · intro i j hl
    rcases (hlists i j).mp hl with hl | ⟨rfl, rfl⟩
    · rw [par (hne hl).2]
      exact ⟨(hlv j).mpr (.inr (wf.down i j hl).1), (wf.down i j hl).2⟩
    · exact ⟨(hlv _).mpr (.inl rfl), by rw [atk]; simp [childOf, Context.activate, deriveArgs, hidx255]⟩
  · have hp : ∀ i, Live st i → ∃ l, Path st' i l := by
      intro i hi
      obtain ⟨l, hl⟩ := wf.path i hi
      refine ⟨l, hl.transfer (P := fun j => j ≠ k) ?_ (fun e => hi (e ▸ hin))⟩
      intro j hj hji
      exact ⟨(hlv j).mpr (.inr hj), par hji, fun hn => (hne (wf.up j hj hn)).1⟩
    intro i hi
    by_cases hik : i = k
    · subst hik
      obtain ⟨l, hl⟩ := hp idx hlidx
      have e : (st'.at i).parentIdx = idx := by
        rw [atk]; simp [childOf, Context.activate, deriveArgs, hidx255]
      exact ⟨i :: l, .step hi (by rw [e]; exact hrt) (by rw [e]; exact hl)⟩
    · exact hp i (((hlv i).mp hi).resolve_left hik)
  · intro i hi
    by_cases hii : i = idx
    · exact ⟨k, (hlists i k).mpr (.inr ⟨hii, rfl⟩)⟩
    · by_cases hik : i = k
      · subst hik; rw [atk] at hi; simp [childOf, Context.activate] at hi
      · rw [hold hii hik] at hi
        obtain ⟨j, hj⟩ := wf.retired i hi
        exact ⟨j, (hlists i j).mpr (.inl hj)⟩
  · intro i j hj
    rcases (hlists i j).mp hj with hj | ⟨rfl, rfl⟩
    · rw [(fld (hne hj).1).1, (fld (hne hj).2).1]; exact wf.kind i j hj
    · rw [atk, ati]; simp [childOf, Context.activate, deriveArgs]
  · have hnk : ∀ i, IsRoot st' i → i ≠ k := by
      rintro i ⟨_, hr⟩ rfl
      rw [atk] at hr; simp [childOf, Context.activate, deriveArgs, hidx255] at hr
      exact hrt hr
    intro i j hi hj
    have ei := hnk i hi; have ej := hnk j hj
    rw [(fld ei).1, (fld ej).1]
    have hpi := hi.2; have hpj := hj.2
    rw [par ei] at hpi; rw [par ej] at hpj
    exact wf.norm i j ⟨((hlv i).mp hi.1).resolve_left ei, hpi⟩ ⟨((hlv j).mp hj.1).resolve_left ej, hpj⟩
  · intro i hi hn
    rw [hini]
    by_cases hik : i = k
    · subst hik
      rw [atk] at hn
      exact wf.inited idx hlidx (by simpa [childOf, Context.activate, deriveArgs] using hn)
    · rw [(fld hik).1] at hn
      exact wf.inited i (((hlv i).mp hi).resolve_left hik) hn
  · intro i hn
    rw [hsup]
    by_cases hik : i = k
    · subst hik
      rw [atk] at hn
      exact wf.sim idx (by simpa [childOf, Context.activate, deriveArgs] using hn)
    · rw [(fld hik).1] at hn; exact wf.sim i hn
  · intro i hn
    rw [hsup]
    by_cases hik : i = k
    · subst hik
      rw [atk] at hn
      have hn : c.info = true := by simpa [childOf, Context.activate, deriveArgs] using hn
      simpa [hn] using h1.1.1.1.1.1
    · rw [(fld hik).2.2.2.2.2.1] at hn; exact wf.info i hn
  · intro i hn
    rw [hsup]
    by_cases hik : i = k
    · subst hik
      rw [atk] at hn
      have hn : c.dice = true := by simpa [childOf, Context.activate, deriveArgs] using hn
      simpa [hn] using h1.1.1.1.1.2
    · rw [(fld hik).2.2.2.2.2.2.1] at hn; exact wf.dice i hn
  · intro i hp hn
    rw [hsup]
    by_cases hik : i = k
    · subst hik
      rw [atk] at hn
      have hn : c.allowX509 = true := by simpa [childOf, Context.activate, deriveArgs] using hn
      simpa [hn] using h1.1.1.2
    · rw [(fld hik).2.1] at hn; rw [par hik] at hp; exact wf.x509 i hp hn
  · intro i
    by_cases hik : i = k
    · subst hik; rw [atk]; simp [childOf, Context.activate]
    · rw [(fld hik).2.2.2.2.1, (fld hik).2.2.2.2.2.2.2]; exact wf.tloc i

end Dpe
