import Verif.Proofs.Erase
import Verif.Props.Placement
import Verif.Props.Image
/-
What is left of a destroyed context (C83): in the stored state nothing but its type and its permission to
export, and for all later answers nothing at all.
-/
namespace Dpe
variable {cfg : Cfg} {σ : Type} {st st2 : State cfg}

theorem wiped_bytes (c : Context cfg) : Cleared cfg.tciSize (wiped c).image := by
  refine ⟨c.ctype.byte, boolByte c.allowExport, ?_, ?_, blank_image Handle.invalid c.ctype c.allowExport rfl⟩
  · cases c.ctype
    · exact .inl rfl
    · exact .inr rfl
  · cases c.allowExport
    · exact .inl rfl
    · exact .inr rfl

/-- C83: in every reachable state, the stored bytes of a slot without a context are those of a slot that was
never used or those of a cleared slot. -/
theorem C83_slots (h : Reachable st) {i : Nat} (hi : i < cfg.maxHandles) (hn : ¬ Live st i) :
    slotBytes cfg st.image i = unusedSlot cfg.tciSize ∨ Cleared cfg.tciSize (slotBytes cfg st.image i) := by
  rw [slotBytes_image hi]
  rcases h.swept i (Classical.not_not.1 hn) with e | ⟨c, e⟩
  · left
    rw [e]
    exact blank_image Handle.default .normal true rfl
  · right
    rw [e]
    exact wiped_bytes c

/-- C83: whatever command takes a context away, and whatever its result, the stored bytes of the slot are
those of a cleared slot afterwards.  The stored bytes of slots that had no context stay as they were, are
cleared, or hold a new context. -/
theorem C83_step {env : Env cfg σ} {c : Cmd cfg} {loc : U32} {r : Except Err Nat} {s s' : Sys cfg σ}
    (hst : InService s.st) (h : exec env c loc s = (r, s')) {i : Nat} (hi : i < cfg.maxHandles)
    (hn : ¬ Live s'.st i) :
    (Live s.st i → Cleared cfg.tciSize (slotBytes cfg s'.st.image i)) ∧
    (slotBytes cfg s'.st.image i = slotBytes cfg s.st.image i ∨
      Cleared cfg.tciSize (slotBytes cfg s'.st.image i)) := by
  have wf := hst.wf
  have key := Swept.steps wf (exec_steps wf.no_self h) i (Classical.not_not.1 hn)
  rw [slotBytes_image hi, slotBytes_image hi]
  rcases key with e | ⟨c, e⟩
  · refine ⟨fun hl => absurd ?_ hn, .inl (by rw [e])⟩
    rw [Live, e]
    exact hl
  · rw [e]
    exact ⟨fun _ => wiped_bytes c, .inr (wiped_bytes c)⟩

theorem destroyed_at {env : Env cfg σ} {hd : Handle} {loc : U32} {n idx : Nat} {s s' : Sys cfg σ}
    (hst : InService s.st) (hr : Resolves s.st hd loc idx) (h : exec env (.destroy hd) loc s = (.ok n, s')) :
    DestroyEffect s.st idx s'.st := by
  obtain ⟨_, ⟨_, i, h1, h2⟩, _⟩ := C52_success_effect hst (digests_true _) h
  have : i = idx := by
    rcases Nat.lt_trichotomy i idx with e | e | e
    · exact absurd h1.1 (hr.2 i e)
    · exact e
    · exact absurd hr.1 (h1.2 idx e)
  exact this ▸ h2

/-- C83: two instances that differ only in contexts which DestroyContext then takes away have the same stored
state afterwards, byte for byte, if these contexts had the same types and permissions to export.  They may
have had any handles, measurements, types of measurement, security versions, localities and other
permissions, and the two commands may come with different handles and from different localities. -/
theorem C83_same {τ : Type} {env : Env cfg σ} {env2 : Env cfg τ} {h h2 : Handle} {loc loc2 : U32} {n n2 idx : Nat}
    {s s' : Sys cfg σ} {t t' : Sys cfg τ} (hs : InService s.st) (ht : InService t.st)
    (hb : SameBut s.st t.st idx)
    (hk : ∀ i, DestroyedWith s.st idx i → (t.st.at i).ctype = (s.st.at i).ctype ∧
      (t.st.at i).allowExport = (s.st.at i).allowExport)
    (h1 : Resolves s.st h loc idx) (h2r : Resolves t.st h2 loc2 idx)
    (hx : exec env (.destroy h) loc s = (.ok n, s')) (hy : exec env2 (.destroy h2) loc2 t = (.ok n2, t')) :
    t'.st.image = s'.st.image := by
  obtain ⟨hm, ho, hd⟩ := hb.after (destroyed_at hs h1 hx) (destroyed_at ht h2r hy)
  suffices t'.st = s'.st by rw [this]
  refine State.ext_at (fun i => ?_) hm
  by_cases e : DestroyedWith s.st idx i
  · rw [(hd i e).1, (hd i e).2]
    unfold wiped
    rw [(hk i e).1, (hk i e).2]
  · exact ho i e

/-- C83: the same without the condition on types and permissions: from then on the two instances answer
every sequence of requests in the same way. -/
theorem C83_forgotten {ops : Ops σ} {h h2 : Handle} {loc loc2 : U32} {n n2 idx : Nat}
    {w w2 : σ} {out out2 : Bytes} {s' t' : Sys cfg σ} (hs : Reachable st) (ht : Reachable st2)
    (hb : SameBut st st2 idx)
    (h1 : Resolves st h loc idx) (h2r : Resolves st2 h2 loc2 idx)
    (hx : exec (ops.env cfg) (.destroy h) loc ⟨st, w, out⟩ = (.ok n, s'))
    (hy : exec (ops.env cfg) (.destroy h2) loc2 ⟨st2, w2, out2⟩ = (.ok n2, t'))
    (reqs : List (Asked cfg)) {w0 : σ} (hw : NeverAllOnes ops w0) (htd : TidyAlong ops reqs s'.st w0) :
    answers ops reqs t'.st w0 = answers ops reqs s'.st w0 := by
  have hs' : Reachable s'.st := by
    have := Reachable.step (ops.env cfg) (.destroy h) loc st w out hs
    rw [hx] at this; exact this
  have ht' : Reachable t'.st := by
    have := Reachable.step (ops.env cfg) (.destroy h2) loc2 st2 w2 out2 ht
    rw [hy] at this; exact this
  obtain ⟨hm, ho, hd⟩ := hb.after (destroyed_at (.reached hs) h1 hx) (destroyed_at (.reached ht) h2r hy)
  have ha : Alike s'.st t'.st := by
    refine ⟨.id _, hm.1.1, hm.1.2.1, hm.1.2.2.1, hm.1.2.2.2, hm.2, fun i hi => ?_, fun i hi => ?_⟩
    · have e : ¬ DestroyedWith st idx i := fun e => hi (by rw [(hd i e).1]; rfl)
      show Relinked _ _ (t'.st.at i)
      rw [ho i e]
      exact .id _
    · have e1 : (s'.st.at i).state = .inactive := Classical.not_not.1 hi
      have e2 : (t'.st.at i).state = .inactive := by
        by_cases e : DestroyedWith st idx i
        · rw [(hd i e).2]; rfl
        · rw [ho i e]; exact e1
      exact ⟨⟨e1, hs'.spare i e1⟩, ⟨e2, ht'.spare i e2⟩⟩
  exact C71_answers hw (.reached hs') (.reached ht') ha reqs htd

/-! ### Witnesses and non-vacuity -/

/-- A child in slot 1 of the root, which is retained. -/
def Toy.kid (m : BArr Toy.cfg.tciSize) (f ty target svn : U32) : Toy.R :=
  Toy.s2.step (.derive ⟨Toy.hd 1, m, Toy.fRetain ||| f, ty, target, svn⟩) 0

/-- A child in locality 0, and another one in locality 7 with other measurements, type, security version and
permissions. -/
def Toy.kidA : Toy.R := Toy.kid (Toy.data 1 2) (Toy.fAllowExport ||| Toy.fX509) 5 0 9
@[inherit_doc Toy.kidA] def Toy.kidB : Toy.R :=
  Toy.kid (Toy.data 7 8) (Toy.fAllowExport ||| Toy.fAllowRec ||| Toy.fChangeLoc) 6 7 1
/-- The child `kidA` without the permission to export. -/
def Toy.kidC : Toy.R := Toy.kid (Toy.data 1 2) Toy.fX509 5 0 9

theorem at_beyond {i : Nat} (h : cfg.maxHandles ≤ i) (st : State cfg) : st.at i = Context.new := by
  unfold State.at
  rw [List.getElem?_eq_none (by rw [st.len_eq]; exact h)]
  rfl

theorem sameBut_of_table (h1 : SameMeta st st2)
    (h2 : ∀ i, i < cfg.maxHandles → (st2.at i).parentIdx = (st.at i).parentIdx ∧
      (st2.at i).children = (st.at i).children ∧ (st2.at i).state = (st.at i).state ∧
      (i ≠ idx → st2.at i = st.at i)) : SameBut st st2 idx := by
  refine ⟨h1, fun i => ?_, fun i hi => ?_⟩
  · rcases Nat.lt_or_ge i cfg.maxHandles with h | h
    · exact ⟨(h2 i h).1, (h2 i h).2.1, (h2 i h).2.2.1⟩
    · rw [at_beyond h, at_beyond h]; exact ⟨rfl, rfl, rfl⟩
  · rcases Nat.lt_or_ge i cfg.maxHandles with h | h
    · exact (h2 i h).2.2.2 fun e => hi (.inl e)
    · rw [at_beyond h, at_beyond h]

theorem Toy.kids : SameBut Toy.kidA.st Toy.kidB.st 1 ∧ SameBut Toy.kidA.st Toy.kidC.st 1 :=
  ⟨sameBut_of_table ⟨⟨by decide +kernel, by decide +kernel, by decide +kernel, by decide +kernel⟩,
      by decide +kernel⟩ (by decide +kernel),
    sameBut_of_table ⟨⟨by decide +kernel, by decide +kernel, by decide +kernel, by decide +kernel⟩,
      by decide +kernel⟩ (by decide +kernel)⟩

theorem Toy.kidsResolve : Resolves Toy.kidA.st (Toy.hd 3) 0 1 ∧ Resolves Toy.kidB.st (Toy.hd 3) 7 1 ∧
    Resolves Toy.kidC.st (Toy.hd 3) 0 1 := by
  refine ⟨⟨by unfold Names; decide +kernel, ?_⟩, ⟨by unfold Names; decide +kernel, ?_⟩,
    ⟨by unfold Names; decide +kernel, ?_⟩⟩ <;>
  · unfold Names; decide +kernel

/-- The state after the child is destroyed. -/
def Toy.gone (x : Toy.R) (loc : U32) : Sys Toy.cfg Nat := (exec (Toy.ops.env Toy.cfg) (.destroy (Toy.hd 3)) loc x.sys).2

theorem Toy.goes : (exec (Toy.ops.env Toy.cfg) (.destroy (Toy.hd 3)) 0 Toy.kidA.sys).1 = .ok 12 ∧
    (exec (Toy.ops.env Toy.cfg) (.destroy (Toy.hd 3)) 7 Toy.kidB.sys).1 = .ok 12 ∧
    (exec (Toy.ops.env Toy.cfg) (.destroy (Toy.hd 3)) 0 Toy.kidC.sys).1 = .ok 12 := by decide +kernel

/-- Non-vacuity for C83: two children that differ in all that they may; the stored states differ while the
children are there, and are the same once they are destroyed. -/
example : Toy.kidB.st.image ≠ Toy.kidA.st.image ∧
    (Toy.gone Toy.kidB 7).st.image = (Toy.gone Toy.kidA 0).st.image := by
  refine ⟨by decide +kernel, ?_⟩
  refine C83_same (s := Toy.kidA.sys) (t := Toy.kidB.sys) (.reached Toy.kidA.reach) (.reached Toy.kidB.reach)
    Toy.kids.1 (fun i hi => ?_) Toy.kidsResolve.1 Toy.kidsResolve.2.1 (Prod.ext Toy.goes.1 rfl)
    (Prod.ext Toy.goes.2.1 rfl)
  have key : ∀ i, i < 4 → (Toy.kidB.st.at i).ctype = (Toy.kidA.st.at i).ctype ∧
      (Toy.kidB.st.at i).allowExport = (Toy.kidA.st.at i).allowExport := by decide +kernel
  rcases Nat.lt_or_ge i 4 with h | h
  · exact key i h
  · rw [at_beyond (cfg := Toy.cfg) h, at_beyond (cfg := Toy.cfg) h]; exact ⟨rfl, rfl⟩

/-- Non-vacuity for C83: a slot never used, a cleared slot, and the root, in one stored state. -/
example :
    slotBytes Toy.cfg (Toy.gone Toy.kidA 0).st.image 3 = unusedSlot 2 ∧
    slotBytes Toy.cfg (Toy.gone Toy.kidA 0).st.image 1 = clearedSlot 2 0 1 ∧
    slotBytes Toy.cfg Toy.kidA.st.image 1 ≠ clearedSlot 2 0 1 ∧ Live (Toy.gone Toy.kidA 0).st 0 := by
  unfold Live
  decide +kernel

/-- C83: the permission to export is really left, so that the condition of `C83_same` cannot be dropped: two
instances differ in nothing but a permission of a context, the context is destroyed in both, and the stored
states differ afterwards, in the byte of that permission. -/
theorem C83_left_permission :
    SameBut Toy.kidA.st Toy.kidC.st 1 ∧
    slotBytes Toy.cfg (Toy.gone Toy.kidA 0).st.image 1 = clearedSlot 2 0 1 ∧
    slotBytes Toy.cfg (Toy.gone Toy.kidC 0).st.image 1 = clearedSlot 2 0 0 :=
  ⟨Toy.kids.2, by decide +kernel, by decide +kernel⟩

/-- C83: so is the type: the slot of a destroyed simulation context tells that it was one. -/
theorem C83_left_type :
    let x := exec Toy.env (.init 0x80000000) 3 Toy.s1.sys
    let y := exec Toy.env (.destroy (Toy.hd 1)) 3 x.2
    Reachable y.2.st ∧ y.1 = .ok 12 ∧ slotBytes Toy.cfg y.2.st.image 1 = clearedSlot 2 1 1 :=
  ⟨.step _ _ _ _ _ _ (.step _ _ _ _ _ _ Toy.s1.reach), by decide +kernel, by decide +kernel⟩

/-- Non-vacuity for C83: the requests after the children with and without the permission are gone are
accepted, and answered in the same way. -/
example :
    let reqs : List (Asked Toy.cfg) :=
      [(.rotate ⟨Toy.hd 2, 0⟩, 0, Toy.buf), 
       (.derive ⟨Toy.hd 4, Toy.data 5 5, Toy.fRetain ||| Toy.fAllowExport, 5, 0, 0⟩, 0, Toy.buf)]
    (answers Toy.ops reqs (Toy.gone Toy.kidA 0).st 3).map Prod.fst = [.ok 28, .ok 44] ∧
    answers Toy.ops reqs (Toy.gone Toy.kidC 0).st 3 = answers Toy.ops reqs (Toy.gone Toy.kidA 0).st 3 := by
  intro reqs
  refine ⟨by decide +kernel, ?_⟩
  have hr : Reachable (Toy.gone Toy.kidA 0).st := .step _ _ _ _ _ _ Toy.kidA.reach
  exact C83_forgotten Toy.kidA.reach Toy.kidC.reach Toy.kids.2 Toy.kidsResolve.1 Toy.kidsResolve.2.2
    (Prod.ext Toy.goes.1 rfl) (Prod.ext Toy.goes.2.2 rfl) reqs (Toy.never 3)
    ⟨tidy_of_table hr (by decide +kernel), tidy_of_table (.step _ _ _ _ _ _ hr) (by decide +kernel), trivial⟩

end Dpe
