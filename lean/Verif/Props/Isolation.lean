import Verif.Proofs.Isolation
import Verif.Spec.Isolation
import Verif.Props.Placement
/-
Localities are isolated from each other (C72).  `L` is a set of localities.  As long as nobody derives a
context across the border, what the localities in `L` get to see does not depend on what the others do, up to
four channels that are named: a full table, a handle that is drawn while somebody else has it, the one-time
initialisation of the default context, and trees that reach across the border.
-/
namespace Dpe
variable {cfg : Cfg} {σ : Type} {ops : Ops σ} {env : Env cfg σ} {st st2 : State cfg} {L : U32 → Prop}

/-- C72: a command from inside `L`, executed on two states that hold the same contexts inside `L` and whatever
contexts outside, has the same result and the same effect on the response buffer and on the outside world, and
leaves states that hold the same contexts inside `L` again. -/
theorem C72_same (h1 : InService st) (h2 : InService st2) (ap : Apart L st) (ap2 : Apart L st2)
    (ha : SameInside L st st2) (ht : TidyIn L st) (c : Cmd cfg) (loc : U32)
    (hc : ∀ l, Concerns c loc l → L l) (hroom : TakesSlot c → (NoRoom st ↔ NoRoom st2))
    {w : σ} (hw : Avoids ops (fun h => Foreign L st h ∨ Foreign L st2 h) w) (out : Bytes) :
    let x := exec (ops.env cfg) c loc ⟨st, w, out⟩
    let y := exec (ops.env cfg) c loc ⟨st2, w, out⟩
    y.1 = x.1 ∧ y.2.w = x.2.w ∧ y.2.out = x.2.out ∧ SameInside L x.2.st y.2.st := by
  obtain ⟨ρ, ha⟩ := ha
  obtain ⟨e1, e2, e3, h4, _⟩ := (twin_exec (S := borderOf L ops st st2) (ha.shared ops) h1.wf h2.wf
    ap ap2 ht c (loc := loc) hc hroom).split hw out
  exact ⟨e1, e2, e3, h4.sameInside⟩

/-- C72: a command from outside, whatever its outcome and whatever the outside world does, leaves every context
inside `L` exactly as it was, bit for bit and in its slot, and adds none. -/
theorem C72_outside (h1 : InService st) (ap : Apart L st) (c : Cmd cfg) (loc : U32)
    (hc : ∀ l, Concerns c loc l → ¬ L l) (w : σ) (out : Bytes) :
    let st' := (exec env c loc ⟨st, w, out⟩).2.st
    (∀ i, Inside L st i → st'.at i = st.at i) ∧ (∀ i, Inside L st' i → Inside L st i) := by
  refine ⟨fun i hi => C09_frame h1 rfl fun ht => ?_, fun i hi => ?_⟩
  · rcases ht.side h1.wf ap.not (hc loc (.inl rfl)) with h | h
    · exact h hi.1
    · exact h.2 hi.2
  · by_cases hl : Live st i
    · exact ⟨hl, by rw [← (C20_identity (s := ⟨st, w, out⟩) h1 rfl hl hi.1).2.1]; exact hi.2⟩
    · exact absurd hi.2 (hc _ (exec_born (s := ⟨st, w, out⟩) h1 rfl hl hi.1).1)

/-- C72: in particular the state holds the same contexts inside `L` as before, unless the command initialised
the default context. -/
theorem C72_outside_same (h1 : InService st) (ap : Apart L st) (c : Cmd cfg) (loc : U32)
    (hc : ∀ l, Concerns c loc l → ¬ L l)
    (hd : ∀ f, c = .init f → Bit f IFlag.default → st.hasInitialized = true) (w : σ) (out : Bytes)
    (ha : SameInside L st st2) : SameInside L (exec env c loc ⟨st, w, out⟩).2.st st2 := by
  obtain ⟨h3, h4⟩ := C72_outside (env := env) h1 ap c loc hc w out
  exact ha.left (C21_config (s := ⟨st, w, out⟩) h1 rfl).1 (exec_inited (s := ⟨st, w, out⟩) h1 rfl hd) h3 h4

/-- C72: commands that stay on one side keep the trees on their sides, whatever the outside world does. -/
theorem C72_apart (h1 : InService st) (ap : Apart L st) (c : Cmd cfg) (loc : U32)
    (hc : (∀ l, Concerns c loc l → L l) ∨ (∀ l, Concerns c loc l → ¬ L l)) (w : σ) (out : Bytes) :
    Apart L (exec env c loc ⟨st, w, out⟩).2.st := by
  rcases hc with hc | hc
  · exact apart_exec (s := ⟨st, w, out⟩) h1 ap rfl hc
  · intro i j h
    exact not_iff_not.1 (apart_exec (s := ⟨st, w, out⟩) h1 ap.not rfl hc i j h)

/-- C72: what the localities in `L` get to see of any sequence of requests, their own and those of others, is
what they would have seen had the others never asked for anything, and had had other contexts or none. -/
theorem C72_isolated [DecidablePred L] (h1 : InService st) (h2 : InService st2) (ap : Apart L st)
    (ap2 : Apart L st2) (ha : SameInside L st st2) (turns : List (Turn cfg σ))
    (hl : LeftAlone L ops turns st st2) :
    seen L ops turns st = seen L ops (turns.filter fun r => decide (L r.loc)) st2 := by
  induction turns generalizing st st2 with
  | nil => rfl
  | cons r rest ih =>
    have s1 : InService (r.after ops st) := h1.step (ops.env cfg) r.cmd r.loc st r.w r.out
    by_cases hr : L r.loc
    · simp only [LeftAlone, if_pos hr] at hl
      obtain ⟨hc, ht, hroom, hw, hl⟩ := hl
      have s2 : InService (r.after ops st2) := h2.step (ops.env cfg) r.cmd r.loc st2 r.w r.out
      obtain ⟨e1, _, e3, h4⟩ := C72_same h1 h2 ap ap2 ha ht r.cmd r.loc hc hroom hw r.out
      rw [List.filter_cons_of_pos (by simpa using hr)]
      simp only [seen, if_pos hr]
      have := ih s1 s2 (C72_apart h1 ap _ _ (.inl hc) _ _) (C72_apart h2 ap2 _ _ (.inl hc) _ _) h4 hl
      rw [← this]
      exact congrArg (· :: _) (Prod.ext e1.symm e3.symm)
    · simp only [LeftAlone, if_neg hr] at hl
      obtain ⟨hc, hd, hl⟩ := hl
      rw [List.filter_cons_of_neg (by simpa using hr)]
      simp only [seen, if_neg hr]
      exact ih s1 h2 (C72_apart h1 ap _ _ (.inr hc) _ _) ap2 (C72_outside_same h1 ap _ _ hc hd _ _ ha) hl

/-- C72: two sequences with the same requests from inside `L` look the same there, whatever the others ask for
in between. -/
theorem C72_independent [DecidablePred L] {st1 : State cfg} (h : InService st) (h1 : InService st1)
    (h2 : InService st2) (ap : Apart L st) (ap1 : Apart L st1) (ap2 : Apart L st2) (ha : SameInside L st st2)
    (ha1 : SameInside L st1 st2) (turns turns1 : List (Turn cfg σ))
    (hs : turns.filter (fun r => decide (L r.loc)) = turns1.filter (fun r => decide (L r.loc)))
    (hl : LeftAlone L ops turns st st2) (hl1 : LeftAlone L ops turns1 st1 st2) :
    seen L ops turns st = seen L ops turns1 st1 := by
  rw [C72_isolated h h2 ap ap2 ha turns hl, C72_isolated h1 h2 ap1 ap2 ha1 turns1 hl1, hs]

/-- C72: every state holds the same contexts as itself. -/
theorem C72_self (L : U32 → Prop) (st : State cfg) : SameInside L st st := .rfl' L st

/-! ### Witnesses and non-vacuity -/

/-- The toy operations with a random source that serves two parties: worlds with an even number deliver odd
handles, and the other way round. -/
def Toy.split : Ops Nat := { Toy.ops with rand := fun n => (.ok (Toy.hd (n + 1)), n + 2) }

theorem Toy.split_parity {w w' : Nat} (h : OpCalls Toy.split w w') : w' % 2 = w % 2 := by
  induction h with
  | nil => rfl
  | cons h _ ih => 
    rw [ih]
    cases h with
    | rand => simp [Toy.split]
    | certChain off size =>
      simp only [Toy.split, Toy.ops]
      split <;> rfl
    | _ => rfl

theorem Toy.hd_ones (n : Nat) : Toy.hd n ≠ Handle.invalid := by
  intro h
  have h2 : (Toy.hd n)[1] = (Handle.invalid)[1] := by rw [h]
  have h3 : (Toy.hd n)[1] = (Handle.default)[1] := by simp [Toy.hd]
  rw [h3] at h2
  exact absurd h2 (by decide)

theorem Toy.split_avoids {w : Nat} (hw : w % 2 = 0) {V : Handle → Prop}
    (hV : ∀ h, V h → h = Handle.invalid ∨ h[0].toNat % 2 = 0) : Avoids Toy.split V w := by
  intro w1 hc h h0 hv
  have hp := Toy.split_parity hc
  have h1 : Toy.hd (w1 + 1) = h := by injection h0
  rcases hV h hv with rfl | he
  · exact Toy.hd_ones _ h1
  · subst h1
    have : (Toy.hd (w1 + 1))[0] = UInt8.ofNat (w1 + 1) := by simp [Toy.hd]
    rw [this, UInt8.toNat_ofNat'] at he
    omega

/-- Locality 0. -/
abbrev Toy.zero (l : U32) : Prop := l = 0

/-- Handles outside locality 0 are even. -/
def Toy.evens (st : State Toy.cfg) : Bool :=
  (List.range 4).all fun i => decide ((st.at i).state ≠ .inactive ∧ (st.at i).locality = 0) ||
    decide ((st.at i).handle = Handle.invalid) || decide ((st.at i).handle[0].toNat % 2 = 0)

theorem Toy.foreign_even {st : State Toy.cfg} (h : Toy.evens st = true) {x : Handle}
    (hx : Foreign Toy.zero st x) : x = Handle.invalid ∨ x[0].toNat % 2 = 0 := by
  rcases hx with rfl | ⟨_, i, hi, rfl⟩
  · exact .inl rfl
  · rcases Nat.lt_or_ge i 4 with hlt | hge
    · unfold Toy.evens at h
      simp only [List.all_eq_true, Bool.or_eq_true, decide_eq_true_eq] at h
      rcases h i (List.mem_range.2 hlt) with (h | h) | h
      · exact absurd h hi
      · exact .inl h
      · exact .inr h
    · rw [at_of_ge hge]; exact .inr (by decide)

/-- Slot 3 is free. -/
def Toy.room (st : State Toy.cfg) : Bool := decide ((st.at 3).state = .inactive)

theorem Toy.room_iff {st st2 : State Toy.cfg} (h : Toy.room st = true) (h2 : Toy.room st2 = true) :
    NoRoom st ↔ NoRoom st2 :=
  ⟨fun x => absurd (of_decide_eq_true h) (x 3 (by decide)),
    fun x => absurd (of_decide_eq_true h2) (x 3 (by decide))⟩

/-- A check of `LeftAlone` for locality 0 and operations `Toy.split`. -/
def Toy.alone : List (Turn Toy.cfg Nat) → State Toy.cfg → State Toy.cfg → Bool
  | [], _, _ => true
  | r :: rest, st, st2 =>
    if r.loc = 0 then
      (match r.cmd with
        | .derive d => decide (targetOf d r.loc = 0) && Toy.room st && Toy.room st2
        | .init _ => Toy.room st && Toy.room st2
        | _ => true) && tableTidy st && Toy.evens st && Toy.evens st2 && decide (r.w % 2 = 0) &&
      Toy.alone rest (r.after Toy.split st) (r.after Toy.split st2)
    else
      (match r.cmd with
        | .derive d => decide (targetOf d r.loc ≠ 0)
        | .init f => decide (f = 0x80000000)
        | _ => true) && Toy.alone rest (r.after Toy.split st) st2

theorem Tidy.inside (h : Tidy st) (L : U32 → Prop) : TidyIn L st :=
  ⟨fun _ _ _ _ _ => h.names _ _ _ _, h.sib⟩

theorem Toy.alone_sound {turns : List (Turn Toy.cfg Nat)} {st st2 : State Toy.cfg} (hr : Reachable st)
    (h : Toy.alone turns st st2 = true) : LeftAlone Toy.zero Toy.split turns st st2 := by
  induction turns generalizing st st2 with
  | nil => trivial
  | cons r rest ih =>
    have hr' : Reachable (r.after Toy.split st) := .step (Toy.split.env Toy.cfg) r.cmd r.loc st r.w r.out hr
    unfold Toy.alone at h
    unfold LeftAlone
    by_cases hl : r.loc = 0
    · rw [if_pos hl] at h
      rw [if_pos hl]
      simp only [Bool.and_eq_true, decide_eq_true_eq] at h
      obtain ⟨⟨⟨⟨⟨h1, h2⟩, h3⟩, h4⟩, h5⟩, h6⟩ := h
      refine ⟨?_, (tidy_of_table hr h2).inside _, ?_, Toy.split_avoids h5 ?_, ih hr' h6⟩
      · rintro l (rfl | ⟨d, hd, rfl⟩)
        · exact hl
        · rw [hd] at h1
          simp only [Bool.and_eq_true, decide_eq_true_eq] at h1
          exact h1.1.1
      · intro ht
        cases hcmd : r.cmd with
        | derive d =>
          rw [hcmd] at h1
          simp only [Bool.and_eq_true, decide_eq_true_eq] at h1
          exact Toy.room_iff h1.1.2 h1.2
        | init d =>
          rw [hcmd] at h1
          simp only [Bool.and_eq_true] at h1
          exact Toy.room_iff h1.1 h1.2
        | _ => rw [hcmd] at ht; exact ht.elim
      · rintro x (hx | hx)
        · exact Toy.foreign_even h3 hx
        · exact Toy.foreign_even h4 hx
    · rw [if_neg hl] at h
      rw [if_neg hl]
      simp only [Bool.and_eq_true] at h
      obtain ⟨h1, h6⟩ := h
      refine ⟨?_, ?_, ih hr' h6⟩
      · rintro l (rfl | ⟨d, hd, rfl⟩)
        · exact hl
        · rw [hd] at h1
          exact of_decide_eq_true h1
      · intro f hf hb
        rw [hf] at h1
        rw [of_decide_eq_true h1] at hb
        exact absurd hb (by unfold Bit; decide)

/-- Requests of two parties: locality 0, which has the default context, and locality 3, which creates a
simulation context. -/
def Toy.parties : List (Turn Toy.cfg Nat) :=
  [⟨.init 0x80000000, 3, Toy.buf, 1⟩,
   ⟨.rotate ⟨Handle.default, 0⟩, 0, Toy.buf, 0⟩,
   ⟨.rotate ⟨Toy.hd 2, 0⟩, 3, Toy.buf, 3⟩,
   ⟨Toy.s3cmd, 0, Toy.buf, 2⟩,
   ⟨.derive ⟨Toy.hd 4, Toy.data 1 1, 0, 1, 0, 0⟩, 3, Toy.buf, 5⟩,
   ⟨.sign (.p256 (Toy.hd 5) (Vector.replicate 32 0) 0 (Vector.replicate 32 0)), 0, Toy.buf, 6⟩,
   ⟨.destroy (Toy.hd 6), 3, Toy.buf, 7⟩,
   ⟨.destroy (Toy.hd 7), 0, Toy.buf, 8⟩]

theorem Toy.s1_apart (L : U32 → Prop) : Apart L Toy.s1.st := by
  intro i j h
  have hi := lt_of_live (live_of_lists Toy.s1.reach.wf h)
  have : ∀ i : Fin 4, (Toy.s1.st.at i).children = 0 := by decide +kernel
  have := this ⟨i, hi⟩
  rw [Lists, this] at h
  simp at h

/-- Non-vacuity for C72: all requests of both parties are accepted, and locality 0 sees what it would have
seen alone. -/
example :
    (seen (fun _ => True) Toy.split Toy.parties Toy.s1.st).map Prod.fst =
      [.ok 28, .ok 28, .ok 28, .ok 44, .ok 44, .ok 92, .ok 12, .ok 12] ∧
    (seen Toy.zero Toy.split Toy.parties Toy.s1.st).map Prod.fst = [.ok 28, .ok 44, .ok 92, .ok 12] ∧
    seen Toy.zero Toy.split Toy.parties Toy.s1.st =
      seen Toy.zero Toy.split (Toy.parties.filter fun r => decide (Toy.zero r.loc)) Toy.s1.st :=
  ⟨by decide +kernel, by decide +kernel, C72_isolated (.reached Toy.s1.reach) (.reached Toy.s1.reach)
    (Toy.s1_apart _) (Toy.s1_apart _) (C72_self _ _) Toy.parties
    (Toy.alone_sound Toy.s1.reach (by decide +kernel))⟩

/-- Locality 3 fills the table; then locality 0 wants to derive a child. -/
def Toy.crowd : List (Turn Toy.cfg Nat) :=
  [⟨.init 0x80000000, 3, Toy.buf, 1⟩, ⟨.init 0x80000000, 3, Toy.buf, 3⟩, ⟨.init 0x80000000, 3, Toy.buf, 5⟩,
   ⟨.derive ⟨Handle.default, Toy.data 1 2, Toy.fRetain, 5, 0, 0⟩, 0, Toy.buf, 0⟩]

/-- The first channel: a full table. -/
theorem C72_false_room :
    seen Toy.zero Toy.split Toy.crowd Toy.s1.st ≠
      seen Toy.zero Toy.split (Toy.crowd.filter fun r => decide (Toy.zero r.loc)) Toy.s1.st := by
  decide +kernel

/-- The second channel: locality 3 has the handle that the random source delivers to locality 0, which
therefore gets the next one. -/
theorem C72_false_handle :
    let turns : List (Turn Toy.cfg Nat) :=
      [⟨.init 0x80000000, 3, Toy.buf, 0⟩, ⟨.rotate ⟨Handle.default, 0⟩, 0, Toy.buf, 0⟩]
    seen Toy.zero Toy.split turns Toy.s1.st ≠
      seen Toy.zero Toy.split (turns.filter fun r => decide (Toy.zero r.loc)) Toy.s1.st := by
  decide +kernel

/-- The third channel: the default context can be initialised once, by whoever comes first. -/
theorem C72_false_init :
    let turns : List (Turn Toy.cfg Nat) :=
      [⟨.init 0x40000000, 3, Toy.buf, 1⟩, ⟨.init 0x40000000, 0, Toy.buf, 0⟩]
    seen Toy.zero Toy.split turns Toy.s0.st ≠
      seen Toy.zero Toy.split (turns.filter fun r => decide (Toy.zero r.loc)) Toy.s0.st := by
  decide +kernel

/-- The fourth channel: locality 3 derives a context in locality 5, which finds it there. -/
theorem C72_false_gift :
    let turns : List (Turn Toy.cfg Nat) :=
      [⟨.init 0x80000000, 3, Toy.buf, 1⟩,
       ⟨.derive ⟨Toy.hd 2, Toy.data 1 2, Toy.fChangeLoc, 5, 5, 0⟩, 3, Toy.buf, 3⟩,
       ⟨.rotate ⟨Toy.hd 4, 0⟩, 5, Toy.buf, 0⟩]
    seen (fun l => l = 5) Toy.split turns Toy.s1.st ≠
      seen (fun l => l = 5) Toy.split (turns.filter fun r => decide (r.loc = 5)) Toy.s1.st := by
  decide +kernel

/-- The fourth channel the other way: the context of locality 7 was derived from one of locality 0, and goes
when that is destroyed. -/
theorem C72_false_tree :
    let turns : List (Turn Toy.cfg Nat) :=
      [⟨.destroy Handle.default, 0, Toy.buf, 0⟩, ⟨.rotate ⟨Toy.hd 1, 0⟩, 7, Toy.buf, 2⟩]
    ¬ Apart (fun l => l = 7) Toy.s1a.st ∧
    seen (fun l => l = 7) Toy.split turns Toy.s1a.st ≠
      seen (fun l => l = 7) Toy.split (turns.filter fun r => decide (r.loc = 7)) Toy.s1a.st := by
  refine ⟨fun h => ?_, by decide +kernel⟩
  have := h 0 1 (by unfold Lists; decide +kernel)
  revert this
  decide +kernel

end Dpe
