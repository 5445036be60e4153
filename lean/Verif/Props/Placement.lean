import Verif.Proofs.PlacementUndo
import Verif.Spec.Placement
import Verif.Props.Effects
import Verif.Props.Handles
import Verif.Props.Unique
import Verif.Examples.Toy
/-
Where contexts are stored does not matter (C71).  Two instances that hold the same contexts, in whatever
slots and whatever was in the other slots before, answer every sequence of commands with the same bytes.
In particular a context that is created and destroyed again leaves no trace.
-/
namespace Dpe
variable {cfg : Cfg} {σ : Type} {ops : Ops σ} {st st2 : State cfg}

theorem same_and_calls {w : σ} (hw : NeverAllOnes ops w) (h1 : InService st) (h2 : InService st2)
    (ha : Alike st st2) (ht : Tidy st) (c : Cmd cfg) (loc : U32) (out : Bytes) :
    let x := exec (ops.env cfg) c loc ⟨st, w, out⟩
    let y := exec (ops.env cfg) c loc ⟨st2, w, out⟩
    (y.1 = x.1 ∧ y.2.w = x.2.w ∧ y.2.out = x.2.out ∧ Alike x.2.st y.2.st) ∧ OpCalls ops w x.2.w := by
  obtain ⟨ρ, h⟩ := ha
  obtain ⟨e1, e2, e3, h4, hc⟩ := (twin_exec (S := everywhere ops) (shared_everywhere.2 h) h1.wf h2.wf
    (apart_everywhere _ _) (apart_everywhere _ _) ⟨fun _ _ _ _ _ => ht.names _ _ _ _, ht.sib⟩ c (loc := loc)
    (fun _ _ => trivial) (fun _ => h.room)).split hw out
  exact ⟨⟨e1, e2, e3, concur_everywhere.1 h4⟩, hc⟩

/-- C71: a command that is executed on two states that hold the same contexts has the same result and the
same effect on the response buffer and on the outside world, and leaves states that hold the same contexts
again.  Handles have to be unambiguous (`Tidy`), and the random source must not deliver the handle that
marks destroyed contexts. -/
theorem C71_same {w : σ} (hw : NeverAllOnes ops w) (h1 : InService st) (h2 : InService st2)
    (ha : Alike st st2) (ht : Tidy st) (c : Cmd cfg) (loc : U32) (out : Bytes) :
    let x := exec (ops.env cfg) c loc ⟨st, w, out⟩
    let y := exec (ops.env cfg) c loc ⟨st2, w, out⟩
    y.1 = x.1 ∧ y.2.w = x.2.w ∧ y.2.out = x.2.out ∧ Alike x.2.st y.2.st :=
  (same_and_calls hw h1 h2 ha ht c loc out).1

/-- C71: the same for the creation of an instance on the state. -/
theorem C71_create {w : σ} (hw : NeverAllOnes ops w) (h1 : InService st) (h2 : InService st2)
    (ha : Alike st st2) (out : Bytes) :
    let x := dpeNew ops ⟨st, w, out⟩
    let y := dpeNew ops ⟨st2, w, out⟩
    y.1 = x.1 ∧ y.2.w = x.2.w ∧ y.2.out = x.2.out ∧ Alike x.2.st y.2.st := by
  obtain ⟨ρ, h⟩ := ha
  obtain ⟨e1, e2, e3, h4, _⟩ := (twin_new (S := everywhere ops) (shared_everywhere.2 h) h1.wf h2.wf
    (apart_everywhere _ _) (apart_everywhere _ _) (fun _ => trivial) h.room).split hw out
  exact ⟨e1, e2, e3, concur_everywhere.1 h4⟩

/-- C71: two states that hold the same contexts answer every sequence of requests in the same way, byte for
byte. -/
theorem C71_answers {w : σ} (hw : NeverAllOnes ops w) (h1 : InService st) (h2 : InService st2)
    (ha : Alike st st2) (reqs : List (Asked cfg)) (ht : TidyAlong ops reqs st w) :
    answers ops reqs st2 w = answers ops reqs st w := by
  induction reqs generalizing st st2 w with
  | nil => rfl
  | cons r rest ih =>
    obtain ⟨c, loc, out⟩ := r
    obtain ⟨⟨e1, e2, e3, h3⟩, hc⟩ := same_and_calls hw h1 h2 ha ht.1 c loc out
    have := ih (hw.calls hc) (h1.step (ops.env cfg) c loc st w out) (h2.step (ops.env cfg) c loc st2 w out)
      h3 ht.2
    show (_, _) :: _ = (_, _) :: _
    rw [e1, e3, ← this, e2]

/-- C71: every reachable state holds the same contexts as itself, that is, slots without a context carry
the default handle or the all-ones handle. -/
theorem C71_self (h : Reachable st) : Alike st st := ⟨_, .self h.spare⟩

/-- C71: the condition on handles follows from that of C12 and C13: no two Active contexts share a
non-default handle, and default contexts are alone in their locality.  Parent and type always name at most
one context. -/
theorem C71_tidy (h : Reachable st) (hu : UniqueHandles st) (hd : DefaultAlone st) : Tidy st :=
  ⟨fun _ _ _ _ => C12_names_one hu hd, h.rights.sib⟩

theorem ok_effect {env : Env cfg σ} {c : Cmd cfg} {loc : U32} {s s' : Sys cfg σ} {n : Nat}
    (hst : InService s.st) (h : exec env c loc s = (.ok n, s')) :
    ∃ hs, Effect (fun _ _ => True) s.st loc c hs s'.st ∧ RepliesWith cfg.profile hs s'.out :=
  C52_success_effect hst (digests_true _) h

theorem grown_undone {env : Env cfg σ} {k n : Nat} {h : Handle} {loc : U32} {s1 s2 : Sys cfg σ}
    (hst : Reachable st) (hs1 : InService s1.st) (hg : Grown st k s1.st)
    (hk : Names s1.st h loc k) (ht : ∀ i j, Names s1.st h loc i → Names s1.st h loc j → i = j)
    (hx : exec env (.destroy h) loc s1 = (.ok n, s2)) : Alike st s2.st := by
  obtain ⟨hs, ⟨_, idx, hr, he⟩, _⟩ := ok_effect hs1 hx
  obtain rfl := ht idx k hr.1 hk
  exact ⟨_, hg.undone hst.wf hst.spare he⟩

/-- C71: a child that is derived from a context with the default handle, which is retained, and then
destroyed through the handle in the reply, leaves no trace: the state holds the same contexts as before.
Nothing is assumed about the outside world, which may be another one for the two commands; only that no other
context answers to the handle and locality of the child. -/
theorem C71_derive_destroy {env env2 : Env cfg σ} {c : DeriveCmd cfg} {loc loc2 : U32} {n m : Nat}
    {h : Handle} {w w2 : σ} {out out2 : Bytes} {s1 s2 : Sys cfg σ}
    (hst : Reachable st) (hdef : c.handle = Handle.default) (hret : Bit c.flags DFlag.retainParent)
    (hrec : ¬ Bit c.flags DFlag.recursive) (hexp : ¬ Bit c.flags DFlag.exportCdi)
    (h1 : exec env (.derive c) loc ⟨st, w, out⟩ = (.ok n, s1))
    (hh : replyHandle s1.out 0 = h.toList)
    (hl : loc2 = if Bit c.flags DFlag.changeLocality then c.targetLocality else loc)
    (ht : ∀ i j, Names s1.st h loc2 i → Names s1.st h loc2 j → i = j)
    (h2 : exec env2 (.destroy h) loc2 ⟨s1.st, w2, out2⟩ = (.ok m, s2)) : Alike st s2.st := by
  obtain ⟨hs, ⟨idx, a, b, rfl, hr, he⟩, hrep⟩ := ok_effect (s := ⟨st, w, out⟩) (.reached hst) h1
  have hs1 : InService s1.st := by
    have := (InService.reached hst).step env (.derive c) loc st w out
    rw [h1] at this; exact this
  obtain ⟨k, hg, hk⟩ := he.grown hr.1.1 (hr.1.2.1.trans hdef) hret hrec hexp
  have ea : h = a := Vector.toList_inj.1 (hh.symm.trans (hrep.at (k := 0) rfl))
  subst ea hl
  exact grown_undone (s1 := ⟨s1.st, w2, out2⟩) hst hs1 hg hk ht h2

/-- C71: the same for a simulation context that is created and destroyed. -/
theorem C71_init_destroy {env env2 : Env cfg σ} {f loc : U32} {n m : Nat}
    {h : Handle} {w w2 : σ} {out out2 : Bytes} {s1 s2 : Sys cfg σ}
    (hst : Reachable st) (hdef : ¬ Bit f IFlag.default)
    (h1 : exec env (.init f) loc ⟨st, w, out⟩ = (.ok n, s1))
    (hh : replyHandle s1.out 0 = h.toList)
    (ht : ∀ i j, Names s1.st h loc i → Names s1.st h loc j → i = j)
    (h2 : exec env2 (.destroy h) loc ⟨s1.st, w2, out2⟩ = (.ok m, s2)) : Alike st s2.st := by
  obtain ⟨hs, ⟨a, rfl, he⟩, hrep⟩ := ok_effect (s := ⟨st, w, out⟩) (.reached hst) h1
  have hs1 : InService s1.st := by
    have := (InService.reached hst).step env (.init f) loc st w out
    rw [h1] at this; exact this
  obtain ⟨k, hg, hk⟩ := he.grown hdef
  have ea : h = a := Vector.toList_inj.1 (hh.symm.trans (hrep.at (k := 0) rfl))
  subst ea
  exact grown_undone (s1 := ⟨s1.st, w2, out2⟩) hst hs1 hg hk ht h2

/-- C71: whatever is asked after a derived child was destroyed, is answered as if the child had never
existed. -/
theorem C71_no_trace {env env2 : Env cfg σ} {c : DeriveCmd cfg} {loc loc2 : U32} {n m : Nat}
    {h : Handle} {w w2 : σ} {out out2 : Bytes} {s1 s2 : Sys cfg σ}
    (hst : Reachable st) (hdef : c.handle = Handle.default) (hret : Bit c.flags DFlag.retainParent)
    (hrec : ¬ Bit c.flags DFlag.recursive) (hexp : ¬ Bit c.flags DFlag.exportCdi)
    (h1 : exec env (.derive c) loc ⟨st, w, out⟩ = (.ok n, s1))
    (hh : replyHandle s1.out 0 = h.toList)
    (hl : loc2 = if Bit c.flags DFlag.changeLocality then c.targetLocality else loc)
    (ht : ∀ i j, Names s1.st h loc2 i → Names s1.st h loc2 j → i = j)
    (h2 : exec env2 (.destroy h) loc2 ⟨s1.st, w2, out2⟩ = (.ok m, s2))
    (reqs : List (Asked cfg)) (hops : NeverAllOnes ops s2.w)
    (hta : TidyAlong ops reqs st s2.w) :
    answers ops reqs s2.st s2.w = answers ops reqs st s2.w := by
  have ha := C71_derive_destroy hst hdef hret hrec hexp h1 hh hl ht h2
  have hs1 := (InService.reached hst).step env (.derive c) loc st w out
  rw [h1] at hs1
  have hs2 := hs1.step env2 (.destroy h) loc2 s1.st w2 out2
  rw [h2] at hs2
  exact C71_answers hops (.reached hst) hs2 ha reqs hta

/-! ### Witnesses and non-vacuity -/

/-- No two Active contexts have the same handle and locality. -/
def tableTidy (st : State cfg) : Bool :=
  (List.range cfg.maxHandles).all fun i => (List.range cfg.maxHandles).all fun j =>
    decide ((st.at i).state = .active ∧ (st.at j).state = .active ∧ (st.at i).handle = (st.at j).handle ∧
      (st.at i).locality = (st.at j).locality → i = j)

theorem tidy_of_table (hr : Reachable st) (h : tableTidy st = true) : Tidy st := by
  refine ⟨fun _ _ i j hi hj => ?_, hr.rights.sib⟩
  unfold tableTidy at h
  simp only [List.all_eq_true, decide_eq_true_eq] at h
  exact h i (List.mem_range.2 (lt_of_live (live_of_active hi.1))) j
    (List.mem_range.2 (lt_of_live (live_of_active hj.1)))
    ⟨hi.1, hj.1, hi.2.1.trans hj.2.1.symm, hi.2.2.trans hj.2.2.symm⟩

theorem Toy.never (w : Nat) : NeverAllOnes Toy.ops w := by
  rintro w _ h h0 rfl
  have h1 : Toy.hd (w + 1) = Handle.invalid := by injection h0
  have h2 : (Toy.hd (w + 1))[1] = (Handle.invalid)[1] := by rw [h1]
  have h3 : (Toy.hd (w + 1))[1] = (Handle.default)[1] := by simp [Toy.hd]
  rw [h3] at h2
  exact absurd h2 (by decide)

/-- A child in locality 7, derived from the default context, which is retained. -/
def Toy.guest : DeriveCmd Toy.cfg := ⟨Handle.default, Toy.data 1 2, Toy.fRetain ||| Toy.fChangeLoc, 5, 7, 0⟩

/-- The child comes and goes. -/
def Toy.s1a : Toy.R := Toy.s1.step (.derive Toy.guest) 0
@[inherit_doc Toy.s1a] def Toy.s1b : Toy.R := Toy.s1a.step (.destroy (Toy.hd 1)) 7

/-- The states before the child came and after it went hold the same contexts; but the table is not the
same: the slot of the child keeps the all-ones handle. -/
theorem Toy.guest_gone : Alike Toy.s1.st Toy.s1b.st ∧ Toy.s1b.st ≠ Toy.s1.st := by
  constructor
  · have h1 : (exec Toy.env (.derive Toy.guest) 0 Toy.s1.sys).1 = .ok 44 := by decide +kernel
    have h1o : replyHandle (exec Toy.env (.derive Toy.guest) 0 Toy.s1.sys).2.out 0 = (Toy.hd 1).toList := by
      decide +kernel
    have h2 : (exec Toy.env (.destroy (Toy.hd 1)) 7 Toy.s1a.sys).1 = .ok 12 := by decide +kernel
    have e1 : (exec Toy.env (.derive Toy.guest) 0 Toy.s1.sys).2.st = Toy.s1a.st := by
      unfold Toy.s1a Toy.R.step Toy.run; rfl
    have e2 : (exec Toy.env (.destroy (Toy.hd 1)) 7 Toy.s1a.sys).2.st = Toy.s1b.st := by
      unfold Toy.s1b Toy.R.step Toy.run; rfl
    rw [← e2]
    refine C71_derive_destroy (c := Toy.guest) (loc := 0) (loc2 := 7) (h := Toy.hd 1) (env := Toy.env)
      (env2 := Toy.env) (w := Toy.s1.sys.w) (out := Toy.buf) (w2 := Toy.s1a.sys.w) (out2 := Toy.buf)
      (n := 44) (m := 12) (s1 := (exec Toy.env (.derive Toy.guest) 0 Toy.s1.sys).2)
      Toy.s1.reach rfl (by unfold Bit; decide) (by unfold Bit; decide)
      (by unfold Bit; decide) (Prod.ext h1 rfl) h1o (by unfold Bit; decide) ?_ ?_
    · rw [e1]
      exact (tidy_of_table Toy.s1a.reach (by decide +kernel)).names _ _
    · rw [e1]
      exact Prod.ext h2 rfl
  · intro h
    have : (Toy.s1b.st.at 1).handle = (Toy.s1.st.at 1).handle := by rw [h]
    revert this
    decide +kernel

/-- Non-vacuity for C71: a rotation, a derivation, a signature and a destruction, requested before the
guest came and after it went, all accepted, with the same answers. -/
example :
    let reqs : List (Asked Toy.cfg) :=
      [(.rotate ⟨Handle.default, 0⟩, 0, Toy.buf), (Toy.s3cmd, 0, Toy.buf), 
       (.sign (.p256 (Toy.hd 3) (Vector.replicate 32 0) 0 (Vector.replicate 32 0)), 0, Toy.buf),
       (.destroy (Toy.hd 4), 0, Toy.buf)]
    (answers Toy.ops reqs Toy.s1.st 0).map Prod.fst = [.ok 28, .ok 44, .ok 92, .ok 12] ∧
    answers Toy.ops reqs Toy.s1b.st 0 = answers Toy.ops reqs Toy.s1.st 0 := by
  intro reqs
  refine ⟨by decide +kernel, ?_⟩
  refine C71_answers (Toy.never 0) (.reached Toy.s1.reach) (.reached Toy.s1b.reach) Toy.guest_gone.1 reqs ?_
  refine ⟨tidy_of_table Toy.s1.reach (by decide +kernel), tidy_of_table (.step _ _ _ _ _ _ Toy.s1.reach)
    (by decide +kernel), tidy_of_table (.step _ _ _ _ _ _ (.step _ _ _ _ _ _ Toy.s1.reach))
    (by decide +kernel), tidy_of_table (.step _ _ _ _ _ _ (.step _ _ _ _ _ _ (.step _ _ _ _ _ _ Toy.s1.reach)))
    (by decide +kernel), trivial⟩

/-- Non-vacuity for C71: a simulation context comes and goes. -/
example : ∃ s2 : Sys Toy.cfg Nat, Alike Toy.s1.st s2.st ∧ s2.st ≠ Toy.s1.st := by
  have h1 : (exec Toy.env (.init 0x80000000) 3 Toy.s1.sys).1 = .ok 28 := by decide +kernel
  have h1o : replyHandle (exec Toy.env (.init 0x80000000) 3 Toy.s1.sys).2.out 0 = (Toy.hd 1).toList := by
    decide +kernel
  have hr : Reachable (exec Toy.env (.init 0x80000000) 3 Toy.s1.sys).2.st := .step _ _ _ _ _ _ Toy.s1.reach
  have h2 : (exec Toy.env (.destroy (Toy.hd 1)) 3 (exec Toy.env (.init 0x80000000) 3 Toy.s1.sys).2).1 =
    .ok 12 := by decide +kernel
  refine ⟨(exec Toy.env (.destroy (Toy.hd 1)) 3 (exec Toy.env (.init 0x80000000) 3 Toy.s1.sys).2).2, ?_, ?_⟩
  · exact C71_init_destroy (env := Toy.env) (env2 := Toy.env) (f := 0x80000000) (loc := 3) (h := Toy.hd 1)
      (w := Toy.s1.sys.w) (out := Toy.buf) (n := 28) (m := 12)
      (s1 := (exec Toy.env (.init 0x80000000) 3 Toy.s1.sys).2) Toy.s1.reach (by unfold Bit; decide)
      (Prod.ext h1 rfl) h1o ((tidy_of_table hr (by decide +kernel)).names _ _) (Prod.ext h2 rfl)
  · intro h
    have : ((exec Toy.env (.destroy (Toy.hd 1)) 3 (exec Toy.env (.init 0x80000000) 3 Toy.s1.sys).2).2.st.at
      1).handle = (Toy.s1.st.at 1).handle := by rw [h]
    revert this
    decide +kernel

/-- The toy operations with a random source that delivers the reserved handle. -/
def Toy.ones : Ops Nat := { Toy.ops with rand := fun n => (.ok Handle.invalid, n + 1) }

/-- C71 fails for a random source that delivers the handle of destroyed contexts: before the guest came
the default context can be given that handle, after it went it cannot. -/
theorem C71_false_ones :
    Reachable Toy.s1.st ∧ Reachable Toy.s1b.st ∧ Alike Toy.s1.st Toy.s1b.st ∧ Tidy Toy.s1.st ∧
    (exec (Toy.ones.env Toy.cfg) (.rotate ⟨Handle.default, 0⟩) 0 ⟨Toy.s1.st, 0, Toy.buf⟩).1 = .ok 28 ∧
    (exec (Toy.ones.env Toy.cfg) (.rotate ⟨Handle.default, 0⟩) 0 ⟨Toy.s1b.st, 0, Toy.buf⟩).1 ≠ .ok 28 :=
  ⟨Toy.s1.reach, Toy.s1b.reach, Toy.guest_gone.1, tidy_of_table Toy.s1.reach (by decide +kernel),
    by decide +kernel, by decide +kernel⟩

/-- A simulation context in slot 0 that has the default handle, and the default context in slot 1. -/
def Toy.two : Toy.R :=
  ((Toy.s0.step (.init 0x80000000) 0).step (.rotate ⟨Toy.hd 1, 0x80000000⟩) 0).step (.init 0x40000000) 0

/-- The same two the other way round: another context was in slot 0 while the simulation context was
created. -/
def Toy.two' : Toy.R :=
  ((((Toy.s0.step (.init 0x80000000) 1).step (.init 0x80000000) 0).step
    (.rotate ⟨Toy.hd 2, 0x80000000⟩) 0).step (.destroy (Toy.hd 1)) 1).step (.init 0x40000000) 0

/-- The exchange of slots 0 and 1. -/
def Toy.flip : Renumbering Toy.cfg.maxHandles := (Renumbering.id _).swap 0 1 (by decide) (by decide)

/-- C71 fails if a handle names two contexts: the one in the lower slot answers. -/
theorem C71_false_names :
    Reachable Toy.two.st ∧ Reachable Toy.two'.st ∧ Alike Toy.two.st Toy.two'.st ∧
    (exec (Toy.ops.env Toy.cfg) (.sign (.p256 Handle.default (Vector.replicate 32 0) 0 (Vector.replicate 32 0)))
      0 ⟨Toy.two.st, 0, Toy.buf⟩).1 ≠
    (exec (Toy.ops.env Toy.cfg) (.sign (.p256 Handle.default (Vector.replicate 32 0) 0 (Vector.replicate 32 0)))
      0 ⟨Toy.two'.st, 0, Toy.buf⟩).1 := by
  refine ⟨Toy.two.reach, Toy.two'.reach, ?_, by decide +kernel⟩
  refine ⟨Toy.flip, by decide +kernel, by decide +kernel,
    by decide +kernel, by decide +kernel, by decide +kernel, fun i hi => ?_, fun i hi => ?_⟩
  · have hlt : i < 4 := lt_of_live hi
    have key : ∀ k, k < 4 → Live Toy.two.st k → k = 0 ∨ k = 1 := by
      intro k hk hl
      rcases (show k = 0 ∨ k = 1 ∨ k = 2 ∨ k = 3 by omega) with rfl | rfl | rfl | rfl
      · exact .inl rfl
      · exact .inr rfl
      · exact absurd (by decide +kernel) hl
      · exact absurd (by decide +kernel) hl
    have z : ∀ a b : Context Toy.cfg, a.children = 0 → b = { a with parentIdx := ROOT } → a.parentIdx = ROOT →
        Relinked Toy.flip a b := by
      intro a b h1 h2 h3
      subst h2
      refine ⟨⟨a.children, by rw [h3, renumber_root]⟩, fun j => ?_⟩
      show a.children.getLsbD _ = _
      rw [h1]; simp
    rcases key i hlt hi with rfl | rfl
    · exact z _ _ (by decide +kernel) (by decide +kernel) (by decide +kernel)
    · exact z _ _ (by decide +kernel) (by decide +kernel) (by decide +kernel)
  · rcases Nat.lt_or_ge i 4 with hlt | hge
    · rcases (show i = 0 ∨ i = 1 ∨ i = 2 ∨ i = 3 by omega) with rfl | rfl | rfl | rfl
      · exact absurd (by unfold Live; decide +kernel) hi
      · exact absurd (by unfold Live; decide +kernel) hi
      · unfold Spare; decide +kernel
      · unfold Spare; decide +kernel
    · have e : Toy.flip.to i = i := Toy.flip.fixes i hge
      rw [e, at_of_ge hge, at_of_ge hge]
      exact ⟨⟨rfl, .inl rfl⟩, ⟨rfl, .inl rfl⟩⟩

end Dpe
