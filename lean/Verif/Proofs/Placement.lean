import Verif.Spec.Isolation
import Verif.Proofs.OpCalls
import Verif.Proofs.Verdict
import Verif.Proofs.X509Chain
import Verif.Proofs.Refine
/-
Commands on two states that hold the same contexts in different slots run in lock step.  This is shown for
commands from a set of localities and states that hold the same contexts in these localities.
-/
namespace Dpe

/-- The parties: the operations of the platform, a set of localities, and a set of handles that the random
source does not deliver. -/
structure Border (σ : Type) where
  ops : Ops σ
  mine : U32 → Prop
  taken : Handle → Prop
  ones : taken Handle.invalid

variable {cfg : Cfg} {σ α β : Type} {S : Border σ} {st st2 : State cfg} {ρ : Renumbering cfg.maxHandles}

/-! ### Renumbering -/

namespace Renumbering
variable {n : Nat} (ρ : Renumbering n)

theorem inj {i j : Nat} (h : ρ.to i = ρ.to j) : i = j := by
  rw [← ρ.back_to i, h, ρ.back_to]

theorem to_eq {i j : Nat} : ρ.to i = ρ.to j ↔ i = j := ⟨ρ.inj, fun h => h ▸ rfl⟩

theorem lt {i : Nat} : ρ.to i < n ↔ i < n := by
  constructor
  · intro h
    by_contra hc
    rw [ρ.fixes i (by omega)] at h
    omega
  · intro h
    by_contra hc
    have := ρ.fixes (ρ.to i) (by omega)
    have := ρ.inj this
    omega

theorem surj (j : Nat) : ∃ i, ρ.to i = j := ⟨ρ.back j, ρ.to_back j⟩

/-- No renumbering. -/
def id (n : Nat) : Renumbering n := ⟨fun i => i, fun i => i, fun _ => rfl, fun _ => rfl, fun _ _ => rfl⟩

/-- The renumbering followed by an exchange of the slots `a` and `b`. -/
def swap (a b : Nat) (ha : a < n) (hb : b < n) : Renumbering n where
  to i := if ρ.to i = a then b else if ρ.to i = b then a else ρ.to i
  back i := if i = a then ρ.back b else if i = b then ρ.back a else ρ.back i
  back_to i := by
    by_cases h1 : ρ.to i = a
    · rw [if_pos h1]
      by_cases h2 : b = a
      · rw [if_pos h2, h2, ← h1, ρ.back_to]
      · rw [if_neg h2, if_pos rfl, ← h1, ρ.back_to]
    · rw [if_neg h1]
      by_cases h2 : ρ.to i = b
      · rw [if_pos h2, if_pos rfl, ← h2, ρ.back_to]
      · rw [if_neg h2, if_neg h1, if_neg h2, ρ.back_to]
  to_back i := by
    by_cases h1 : i = a
    · rw [if_pos h1]
      simp only [ρ.to_back]
      by_cases h2 : b = a
      · rw [if_pos h2, h2, h1]
      · rw [if_neg h2, if_pos trivial, h1]
    · rw [if_neg h1]
      by_cases h2 : i = b
      · rw [if_pos h2]
        simp only [ρ.to_back]
        rw [if_pos trivial, h2]
      · rw [if_neg h2]
        simp only [ρ.to_back]
        rw [if_neg h1, if_neg h2]
  fixes i hi := by
    have := ρ.fixes i hi
    rw [this, if_neg (by omega), if_neg (by omega)]

/-- The inverse. -/
def symm : Renumbering n where
  to := ρ.back
  back := ρ.to
  back_to := ρ.to_back
  to_back := ρ.back_to
  fixes i hi := by
    have := ρ.fixes i hi
    exact ρ.inj (by rw [ρ.to_back, this])

end Renumbering

theorem renumber_root (ρ : Renumbering cfg.maxHandles) : ρ.to ROOT = ROOT :=
  ρ.fixes _ (Nat.le_of_not_lt root_not_lt)

theorem renumber_root_iff {i : Nat} : ρ.to i = ROOT ↔ i = ROOT := by
  constructor
  · intro h; exact ρ.inj (by rw [h, renumber_root])
  · rintro rfl; exact renumber_root ρ

/-! ### Contexts and states -/

namespace Relinked
variable {c c2 : Context cfg}

theorem handle (h : Relinked ρ c c2) : c2.handle = c.handle := by obtain ⟨⟨ch, rfl⟩, _⟩ := h; rfl
theorem tci (h : Relinked ρ c c2) : c2.tci = c.tci := by obtain ⟨⟨ch, rfl⟩, _⟩ := h; rfl
theorem locality (h : Relinked ρ c c2) : c2.locality = c.locality := by obtain ⟨⟨ch, rfl⟩, _⟩ := h; rfl
theorem parent (h : Relinked ρ c c2) : c2.parentIdx = ρ.to c.parentIdx := by
  obtain ⟨⟨ch, rfl⟩, _⟩ := h; rfl
theorem ctype (h : Relinked ρ c c2) : c2.ctype = c.ctype := by obtain ⟨⟨ch, rfl⟩, _⟩ := h; rfl
theorem state (h : Relinked ρ c c2) : c2.state = c.state := by obtain ⟨⟨ch, rfl⟩, _⟩ := h; rfl
theorem info (h : Relinked ρ c c2) : c2.usesInfo = c.usesInfo := by obtain ⟨⟨ch, rfl⟩, _⟩ := h; rfl
theorem dice (h : Relinked ρ c c2) : c2.usesDice = c.usesDice := by obtain ⟨⟨ch, rfl⟩, _⟩ := h; rfl
theorem x509 (h : Relinked ρ c c2) : c2.allowX509 = c.allowX509 := by obtain ⟨⟨ch, rfl⟩, _⟩ := h; rfl
theorem exports (h : Relinked ρ c c2) : c2.allowExport = c.allowExport := by
  obtain ⟨⟨ch, rfl⟩, _⟩ := h; rfl
theorem recursive (h : Relinked ρ c c2) : c2.allowRecursive = c.allowRecursive := by
  obtain ⟨⟨ch, rfl⟩, _⟩ := h; rfl

theorem withHandle (h : Relinked ρ c c2) (x : Handle) :
    Relinked ρ { c with handle := x } { c2 with handle := x } := by
  obtain ⟨⟨ch, rfl⟩, h2⟩ := h; exact ⟨⟨ch, rfl⟩, h2⟩

theorem withTci (h : Relinked ρ c c2) (x : Tci cfg) :
    Relinked ρ { c with tci := x } { c2 with tci := x } := by
  obtain ⟨⟨ch, rfl⟩, h2⟩ := h; exact ⟨⟨ch, rfl⟩, h2⟩

theorem retired (h : Relinked ρ c c2) :
    Relinked ρ { c with state := .retired, handle := Handle.invalid }
      { c2 with state := .retired, handle := Handle.invalid } := by
  obtain ⟨⟨ch, rfl⟩, h2⟩ := h; exact ⟨⟨ch, rfl⟩, h2⟩

end Relinked

theorem Inside.of_active {L : U32 → Prop} {i : Nat} (h : (st.at i).state = .active)
    (hL : L (st.at i).locality) : Inside L st i := ⟨live_of_active h, hL⟩

theorem Inside.lt {L : U32 → Prop} {i : Nat} (h : Inside L st i) : i < cfg.maxHandles := lt_of_live h.1

theorem Inside.parent {L : U32 → Prop} (wf : WF st) (ap : Apart L st) {i : Nat} (h : Inside L st i)
    (hp : (st.at i).parentIdx ≠ ROOT) : Inside L st (st.at i).parentIdx := by
  have := wf.up i h.1 hp
  exact ⟨live_of_lists wf this, (ap _ _ this).2 h.2⟩

theorem Inside.child {L : U32 → Prop} (wf : WF st) (ap : Apart L st) {i j : Nat} (h : Inside L st i)
    (hl : Lists st i j) : Inside L st j := ⟨(wf.down i j hl).1, (ap _ _ hl).1 h.2⟩

/-- A slot that does not count, with a handle that will not be drawn. -/
def Beyond (S : Border σ) (st : State cfg) (i : Nat) : Prop :=
  ¬ Inside S.mine st i ∧ ((st.at i).handle = Handle.default ∨ S.taken (st.at i).handle)

/-- `st2` holds the contexts of `st` that count, each in the slot that `ρ` says. -/
structure Shared (S : Border σ) (ρ : Renumbering cfg.maxHandles) (st st2 : State cfg) : Prop where
  marker : st2.marker = st.marker
  version : st2.version = st.version
  support : st2.support = st.support
  flags : st2.flags = st.flags
  inited : st2.hasInitialized = st.hasInitialized
  live : ∀ i, Inside S.mine st i → Relinked ρ (st.at i) (st2.at (ρ.to i))
  spare : ∀ i, ¬ Inside S.mine st i → Beyond S st i ∧ Beyond S st2 (ρ.to i)

/-- The two states hold the same contexts. -/
def Concur (S : Border σ) (st st2 : State cfg) : Prop := ∃ ρ : Renumbering cfg.maxHandles, Shared S ρ st st2

namespace Shared

theorem live_iff (h : Shared S ρ st st2) {i : Nat} : Inside S.mine st2 (ρ.to i) ↔ Inside S.mine st i := by
  by_cases hi : Inside S.mine st i
  · refine ⟨fun _ => hi, fun _ => ?_⟩
    rw [Inside, Live, (h.live i hi).state, (h.live i hi).locality]; exact hi
  · exact ⟨fun h2 => absurd h2 (h.spare i hi).2.1, fun h2 => absurd h2 hi⟩

theorem at_active (h : Shared S ρ st st2) {i : Nat} (hi : Inside S.mine st i) :
    Relinked ρ (st.at i) (st2.at (ρ.to i)) := h.live i hi

theorem active_iff (h : Shared S ρ st st2) {i : Nat} (hi : Inside S.mine st i) :
    (st2.at (ρ.to i)).state = .active ↔ (st.at i).state = .active := by
  rw [(h.live i hi).state]

/-- Active contexts of a locality that counts. -/
theorem active (h : Shared S ρ st st2) {loc : U32} (hL : S.mine loc) {i : Nat} :
    ((st2.at (ρ.to i)).state = .active ∧ (st2.at (ρ.to i)).locality = loc) ↔
      ((st.at i).state = .active ∧ (st.at i).locality = loc) := by
  constructor
  · rintro ⟨h1, h2⟩
    have hi := h.live_iff.1 (Inside.of_active h1 (h2 ▸ hL))
    exact ⟨(h.active_iff hi).1 h1, by rw [← (h.live i hi).locality, h2]⟩
  · rintro ⟨h1, h2⟩
    have hi : Inside S.mine st i := Inside.of_active h1 (h2 ▸ hL)
    exact ⟨(h.active_iff hi).2 h1, by rw [(h.live i hi).locality, h2]⟩

theorem names (h : Shared S ρ st st2) {hd : Handle} {loc : U32} (hL : S.mine loc) {i : Nat} :
    Names st2 hd loc (ρ.to i) ↔ Names st hd loc i := by
  constructor
  · rintro ⟨h1, h2, h3⟩
    have ha := (h.active hL).1 ⟨h1, h3⟩
    refine ⟨ha.1, ?_, ha.2⟩
    rw [← (h.live i (Inside.of_active ha.1 (ha.2 ▸ hL))).handle, h2]
  · rintro ⟨h1, h2, h3⟩
    have ha := (h.active hL).2 ⟨h1, h3⟩
    refine ⟨ha.1, ?_, ha.2⟩
    rw [(h.live i (Inside.of_active h1 (h3 ▸ hL))).handle, h2]

theorem inUse (h : Shared S ρ st st2) {loc : U32} (hL : S.mine loc) :
    LocalityInUse st2 loc ↔ LocalityInUse st loc := by
  constructor
  · rintro ⟨j, h1, h2⟩
    obtain ⟨i, rfl⟩ := ρ.surj j
    exact ⟨i, (h.active hL).1 ⟨h1, h2⟩⟩
  · rintro ⟨i, h1, h2⟩
    exact ⟨ρ.to i, (h.active hL).2 ⟨h1, h2⟩⟩

theorem resolves (h : Shared S ρ st st2) (ht : TidyIn S.mine st) {hd : Handle} {loc : U32} (hL : S.mine loc)
    {i : Nat} : Resolves st2 hd loc (ρ.to i) ↔ Resolves st hd loc i := by
  constructor
  · intro hr
    have hn := (h.names hL).1 hr.1
    obtain ⟨j, hj⟩ := exists_resolves hn
    rwa [ht.names _ _ _ _ hL hn hj.1]
  · intro hr
    have hn := (h.names hL).2 hr.1
    obtain ⟨j, hj⟩ := exists_resolves hn
    obtain ⟨k, rfl⟩ := ρ.surj j
    rwa [ht.names _ _ _ _ hL hr.1 ((h.names hL).1 hj.1)]

theorem lists (h : Shared S ρ st st2) {i j : Nat} (hi : Inside S.mine st i) :
    Lists st2 (ρ.to i) (ρ.to j) ↔ Lists st i j := by
  unfold Lists; rw [(h.live i hi).2]

theorem path_live (wf : WF st) (ap : Apart S.mine st) {i : Nat} {l : List Nat} (hi : Inside S.mine st i)
    (hp : Path st i l) : ∀ j ∈ l, Inside S.mine st j := by
  induction hp with
  | root h1 h2 => intro j hj; rw [List.mem_singleton.1 hj]; exact hi
  | step h1 h2 _ ih =>
    intro j hj
    rcases List.mem_cons.1 hj with rfl | hj
    · exact hi
    · exact ih (hi.parent wf ap h2) j hj

theorem path (h : Shared S ρ st st2) (wf : WF st) (ap : Apart S.mine st) {i : Nat} {l : List Nat}
    (hi : Inside S.mine st i) (hp : Path st i l) : Path st2 (ρ.to i) (l.map ρ.to) := by
  induction hp with
  | root h1 h2 => exact .root (h.live_iff.2 hi).1 (by rw [(h.live _ hi).parent, h2, renumber_root])
  | step h1 h2 _ ih =>
    refine .step (h.live_iff.2 hi).1 ?_ ?_
    · rw [(h.live _ hi).parent]; exact fun e => h2 (renumber_root_iff.1 e)
    · rw [(h.live _ hi).parent]; exact ih (hi.parent wf ap h2)

end Shared

/-! ### Lock step -/

theorem Avoids.calls {ops : Ops σ} {V : Handle → Prop} {w w' : σ} (h : Avoids ops V w)
    (hc : OpCalls ops w w') : Avoids ops V w' := fun w1 h1 => h w1 (hc.trans h1)

/-- `x` from `st` and `y` from `st2`, with the same world and buffer, both succeed with related results, or
both fail with the same error; and leave the same world and buffer.  The random source is assumed to avoid the
handles that it must not deliver. -/
def Twin (S : Border σ) (R : α → α → State cfg → State cfg → Prop) (x y : M cfg σ α) (st st2 : State cfg) :
    Prop :=
  ∀ w out, Avoids S.ops S.taken w →
    (∃ a b w' out' t t2, x ⟨st, w, out⟩ = (.ok a, ⟨t, w', out'⟩) ∧
      y ⟨st2, w, out⟩ = (.ok b, ⟨t2, w', out'⟩) ∧ OpCalls S.ops w w' ∧ R a b t t2) ∨
    (∃ e w' out' t t2, x ⟨st, w, out⟩ = (.error e, ⟨t, w', out'⟩) ∧
      y ⟨st2, w, out⟩ = (.error e, ⟨t2, w', out'⟩) ∧ OpCalls S.ops w w' ∧ Concur S t t2)

/-- The same result, and the states as they were. -/
abbrev Same (st st2 : State cfg) : α → α → State cfg → State cfg → Prop :=
  fun a b t t2 => a = b ∧ t = st ∧ t2 = st2

/-- The end of a command: the same result, and states that are alike. -/
abbrev Done (S : Border σ) : α → α → State cfg → State cfg → Prop := fun a b t t2 => a = b ∧ Concur S t t2

section
variable {R : α → α → State cfg → State cfg → Prop} {Q : β → β → State cfg → State cfg → Prop}
  {x y : M cfg σ α} {f g : α → M cfg σ β}

theorem Twin.later (hx : Twin S R x y st st2) {w w1 : σ} (hw : Avoids S.ops S.taken w)
    (hc : OpCalls S.ops w w1) (out : Bytes) :
    (∃ a b w' out' t t2, x ⟨st, w1, out⟩ = (.ok a, ⟨t, w', out'⟩) ∧
      y ⟨st2, w1, out⟩ = (.ok b, ⟨t2, w', out'⟩) ∧ OpCalls S.ops w w' ∧ R a b t t2) ∨
    (∃ e w' out' t t2, x ⟨st, w1, out⟩ = (.error e, ⟨t, w', out'⟩) ∧
      y ⟨st2, w1, out⟩ = (.error e, ⟨t2, w', out'⟩) ∧ OpCalls S.ops w w' ∧ Concur S t t2) := by
  rcases hx w1 out (hw.calls hc) with ⟨a, b, w2, out2, t, t2, k1, k2, kc, k3⟩ |
    ⟨e, w2, out2, t, t2, k1, k2, kc, k3⟩
  · exact .inl ⟨a, b, w2, out2, t, t2, k1, k2, hc.trans kc, k3⟩
  · exact .inr ⟨e, w2, out2, t, t2, k1, k2, hc.trans kc, k3⟩

theorem Twin.bind (hx : Twin S R x y st st2) (hf : ∀ a b t t2, R a b t t2 → Twin S Q (f a) (g b) t t2) :
    Twin S Q (x >>= f) (y >>= g) st st2 := by
  intro w out hw
  show (∃ a b w' out' t t2, M.bind x f _ = _ ∧ M.bind y g _ = _ ∧ _) ∨
    (∃ e w' out' t t2, M.bind x f _ = _ ∧ M.bind y g _ = _ ∧ _)
  unfold M.bind
  rcases hx w out hw with ⟨a, b, w', out', t, t2, h1, h2, hc, h3⟩ | ⟨e, w', out', t, t2, h1, h2, hc, h3⟩
  · rw [h1, h2]
    exact (hf a b t t2 h3).later hw hc out'
  · rw [h1, h2]; exact .inr ⟨e, w', out', t, t2, rfl, rfl, hc, h3⟩

theorem Twin.same (hx : Twin S (Same st st2) x y st st2) (hf : ∀ a, Twin S Q (f a) (g a) st st2) :
    Twin S Q (x >>= f) (y >>= g) st st2 :=
  hx.bind fun a _ _ _ ⟨h1, h2, h3⟩ => h1 ▸ h2 ▸ h3 ▸ hf a

theorem Twin.get {f g : State cfg → M cfg σ β} (hf : Twin S Q (f st) (g st2) st st2) :
    Twin S Q (M.get >>= f) (M.get >>= g) st st2 := fun w out hw => hf w out hw

theorem Twin.pure {a b : α} (h : R a b st st2) : Twin S R (pure a : M cfg σ α) (pure b) st st2 :=
  fun w out _ => .inl ⟨a, b, w, out, st, st2, rfl, rfl, .nil _, h⟩

theorem Twin.mono {R' : α → α → State cfg → State cfg → Prop} (hx : Twin S R x y st st2)
    (h : ∀ a b t t2, R a b t t2 → R' a b t t2) : Twin S R' x y st st2 := by
  intro w out hw
  rcases hx w out hw with ⟨a, b, w', out', t, t2, h1, h2, hc, h3⟩ | h1
  · exact .inl ⟨a, b, w', out', t, t2, h1, h2, hc, h _ _ _ _ h3⟩
  · exact .inr h1

theorem Twin.fail (ha : Concur S st st2) (e : Err) : Twin S R (M.fail e) (M.fail e : M cfg σ α) st st2 :=
  fun w out _ => .inr ⟨e, w, out, st, st2, rfl, rfl, .nil _, ha⟩

theorem Twin.failIf (ha : Concur S st st2) {a b : Bool} (h : b = a) (e : Err) :
    Twin S (Same st st2) (M.failIf a e : M cfg σ Unit) (M.failIf b e) st st2 := by
  subst h
  intro w out _
  unfold M.failIf
  cases b
  · exact .inl ⟨(), (), w, out, st, st2, rfl, rfl, .nil _, rfl, rfl, rfl⟩
  · exact .inr ⟨e, w, out, st, st2, rfl, rfl, .nil _, ha⟩

theorem Twin.lift (ha : Concur S st st2) (z : Except Err α) :
    Twin S (Same st st2) (M.lift z : M cfg σ α) (M.lift z) st st2 := by
  intro w out _
  rcases z with e | a
  · exact .inr ⟨e, w, out, st, st2, rfl, rfl, .nil _, ha⟩
  · exact .inl ⟨a, a, w, out, st, st2, rfl, rfl, .nil _, rfl, rfl, rfl⟩

theorem Twin.okOr (ha : Concur S st st2) (z : Option α) (e : Err) :
    Twin S (Same st st2) (M.okOr z e : M cfg σ α) (M.okOr z e) st st2 := by
  intro w out _
  rcases z with _ | a
  · exact .inr ⟨e, w, out, st, st2, rfl, rfl, .nil _, ha⟩
  · exact .inl ⟨a, a, w, out, st, st2, rfl, rfl, .nil _, rfl, rfl, rfl⟩

theorem Twin.crypto (ha : Concur S st st2) (z : σ → Except CryptoErr α × σ)
    (hz : ∀ w, OpCall S.ops w (z w).2 := by op_call) :
    Twin S (Same st st2) (M.crypto z : M cfg σ α) (M.crypto z) st st2 := by
  intro w out _
  unfold M.crypto
  have hc : OpCalls S.ops w (z w).2 := .one (hz w)
  rcases h : z w with ⟨e | a, w'⟩ <;> rw [h] at hc
  · exact .inr ⟨.crypto e, w', out, st, st2, rfl, rfl, hc, ha⟩
  · exact .inl ⟨a, a, w', out, st, st2, rfl, rfl, hc, rfl, rfl, rfl⟩

theorem Twin.platform (ha : Concur S st st2) (z : σ → Except PlatErr α × σ)
    (hz : ∀ w, OpCall S.ops w (z w).2 := by op_call) :
    Twin S (Same st st2) (M.platform z : M cfg σ α) (M.platform z) st st2 := by
  intro w out _
  unfold M.platform
  have hc : OpCalls S.ops w (z w).2 := .one (hz w)
  rcases h : z w with ⟨e | a, w'⟩ <;> rw [h] at hc
  · exact .inr ⟨.platform e, w', out, st, st2, rfl, rfl, hc, ha⟩
  · exact .inl ⟨a, a, w', out, st, st2, rfl, rfl, hc, rfl, rfl, rfl⟩

theorem Twin.writeAt (ha : Concur S st st2) (off : Nat) (d : Bytes) :
    Twin S (Same st st2) (writeAt off d : M cfg σ Unit) (Dpe.writeAt off d) st st2 := by
  intro w out _
  unfold Dpe.writeAt
  rcases h : bufWrite out off d with _ | b
  · exact .inr ⟨.invalidResponseBuf, w, out, st, st2, by simp only [h], by simp only [h], .nil _, ha⟩
  · exact .inl ⟨(), (), w, b, st, st2, by simp only [h], by simp only [h], .nil _, rfl, rfl, rfl⟩

theorem Twin.modify {p q : State cfg → State cfg} {f g : Unit → M cfg σ β}
    (hf : Twin S Q (f ()) (g ()) (p st) (q st2)) : Twin S Q (M.modify p >>= f) (M.modify q >>= g) st st2 :=
  fun w out hw => hf w out hw

/-- The common end of commands. -/
theorem Twin.reply (ha : Concur S st st2) (b : Bytes) (n : β) :
    Twin S (Done S) (do Dpe.writeAt 0 b; Pure.pure n : M cfg σ β) (do Dpe.writeAt 0 b; Pure.pure n) st st2 :=
  (Twin.writeAt ha 0 b).same fun _ => .pure ⟨rfl, ha⟩

theorem Twin.ite {c : Prop} [Decidable c] {x y x' y' : M cfg σ α} (h1 : Twin S R x y st st2)
    (h2 : Twin S R x' y' st st2) : Twin S R (if c then x else x') (if c then y else y') st st2 := by
  split
  · exact h1
  · exact h2

theorem Twin.when {c : Bool} {x y : M cfg σ Unit} (h1 : Twin S (Same st st2) x y st st2) :
    Twin S (Same st st2) (M.when c x ()) (M.when c y ()) st st2 :=
  .ite h1 (.pure ⟨rfl, rfl, rfl⟩)

end

/-! ### Handles -/

theorem Shared.unused (h : Shared S ρ st st2) {hd : Handle} (hno : ¬ S.taken hd) :
    Unused st2 hd ↔ Unused st hd := by
  refine and_congr_right fun h0 => ⟨fun h1 i hi e => ?_, fun h1 j hj e => ?_⟩
  · by_cases hl : Inside S.mine st i
    · exact h1 (ρ.to i) (ρ.lt.2 hi) (by rw [(h.live i hl).handle, e])
    · rcases (h.spare i hl).1.2 with h2 | h2
      · exact h0 (e.symm.trans h2)
      · exact hno (e ▸ h2)
  · obtain ⟨i, rfl⟩ := ρ.surj j
    by_cases hl : Inside S.mine st i
    · exact h1 i (ρ.lt.1 hj) (by rw [← (h.live i hl).handle, e])
    · rcases (h.spare i hl).2.2 with h2 | h2
      · exact h0 (e.symm.trans h2)
      · exact hno (e ▸ h2)

theorem draw_ok_iff {hd : Handle} :
    (!hd.isDefault && !st.contexts.any (fun c => c.handle == hd)) = true ↔ Unused st hd := by
  rw [← fresh_iff]
  unfold Fresh
  simp only [Bool.and_eq_true, Bool.not_eq_true', isDefault_false, List.any_eq_false, beq_iff_eq]

theorem Twin.rand (ha : Concur S st st2) :
    Twin S (fun a b t t2 => a = b ∧ ¬ S.taken a ∧ t = st ∧ t2 = st2) (M.crypto S.ops.rand : M cfg σ Handle)
      (M.crypto S.ops.rand) st st2 := by
  intro w out hw
  unfold M.crypto
  have hc : OpCalls S.ops w (S.ops.rand w).2 := .one (.rand w)
  have hn := hw w (.nil _)
  rcases h : S.ops.rand w with ⟨e | a, w'⟩ <;> rw [h] at hc hn
  · exact .inr ⟨.crypto e, w', out, st, st2, rfl, rfl, hc, ha⟩
  · exact .inl ⟨a, a, w', out, st, st2, rfl, rfl, hc, rfl, hn a rfl, rfl, rfl⟩

theorem twin_gen (h : Shared S ρ st st2) (n : Nat) :
    Twin S (Same st st2) (genHandleLoop S.ops n) (genHandleLoop S.ops n) st st2 := by
  induction n with
  | zero => exact .fail ⟨ρ, h⟩ _
  | succ n ih =>
    unfold genHandleLoop
    refine (Twin.rand ⟨ρ, h⟩).bind ?_
    rintro hd _ t t2 ⟨rfl, hno, rfl, rfl⟩
    refine Twin.get ?_
    have e : (!hd.isDefault && !t2.contexts.any (fun c => c.handle == hd)) =
        (!hd.isDefault && !t.contexts.any (fun c => c.handle == hd)) := by
      rw [Bool.eq_iff_iff, draw_ok_iff, draw_ok_iff, h.unused hno]
    rw [e]
    exact .ite (.pure ⟨rfl, rfl, rfl⟩) ih

theorem twin_generate (h : Shared S ρ st st2) :
    Twin S (Same st st2) (generateNewHandle S.ops) (generateNewHandle S.ops) st st2 := twin_gen h 8

/-- Two contexts that are the same up to links and as alive as `c`, the states as they were. -/
abbrev SameCtx (ρ : Renumbering cfg.maxHandles) (c : Context cfg) (st st2 : State cfg) :
    Context cfg → Context cfg → State cfg → State cfg → Prop :=
  fun a b t t2 => (Relinked ρ a b ∧ a.state = c.state ∧ a.locality = c.locality) ∧ t = st ∧ t2 = st2

theorem Twin.ctx {Q : β → β → State cfg → State cfg → Prop} {x y : M cfg σ (Context cfg)}
    {f g : Context cfg → M cfg σ β} {c : Context cfg} (hx : Twin S (SameCtx ρ c st st2) x y st st2)
    (hf : ∀ a b, Relinked ρ a b → a.state = c.state → a.locality = c.locality → Twin S Q (f a) (g b) st st2) :
    Twin S Q (x >>= f) (y >>= g) st st2 :=
  hx.bind fun a b _ _ ⟨h1, h2, h3⟩ => h2 ▸ h3 ▸ hf a b h1.1 h1.2.1 h1.2.2

theorem twin_roll (h : Shared S ρ st st2) {c c2 : Context cfg}
    (hc : Relinked ρ c c2) : Twin S (SameCtx ρ c st st2) (rollHandle S.ops c) (rollHandle S.ops c2) st st2 := by
  unfold rollHandle
  rw [hc.handle]
  exact .ite (.pure ⟨⟨hc, rfl, rfl⟩, rfl, rfl⟩) ((twin_generate h).same fun x => .pure ⟨⟨hc.withHandle x, rfl, rfl⟩, rfl, rfl⟩)

theorem twin_pick (h : Shared S ρ st st2) (d : Bool) :
    Twin S (Same st st2) (pickHandle S.ops d) (pickHandle S.ops d) st st2 :=
  .ite (.pure ⟨rfl, rfl, rfl⟩) (twin_generate h)

/-! ### Hashing -/

theorem twin_chunks (ha : Concur S st st2) (l : List Bytes) :
    Twin S (Same st st2) (hashChunks S.ops l) (hashChunks S.ops l) st st2 := by
  induction l with
  | nil => exact .pure ⟨rfl, rfl, rfl⟩
  | cons b l ih => exact (Twin.crypto ha _).same fun _ => ih

theorem twin_hashAll (ha : Concur S st st2) (l : List Bytes) :
    Twin S (Same st st2) (hashAll S.ops l) (hashAll S.ops l) st st2 :=
  (Twin.crypto ha _).same fun _ => (Twin.crypto ha _).same fun _ => (twin_chunks ha l).same fun _ =>
    Twin.crypto ha _

theorem twin_addTci (ha : Concur S st st2) {c c2 : Context cfg} (hc : Relinked ρ c c2)
    (m : BArr cfg.tciSize) (loc : U32) :
    Twin S (SameCtx ρ c st st2) (addTci S.ops c m loc) (addTci S.ops c2 m loc) st st2 := by
  obtain ⟨⟨ch, rfl⟩, h2⟩ := hc
  exact (Twin.failIf ha rfl _).same fun _ => (Twin.failIf ha rfl _).same fun _ =>
    (twin_hashAll ha _).same fun d => (Twin.lift ha _).same fun v => .pure ⟨⟨⟨⟨ch, rfl⟩, h2⟩, rfl, rfl⟩, rfl, rfl⟩

theorem twin_profile (ha : Concur S st st2) (x : U32) :
    Twin S (Same st st2) (getProfile S.ops x) (getProfile S.ops x) st st2 :=
  (Twin.platform ha _).same fun _ => (Twin.platform ha _).same fun _ => .pure ⟨rfl, rfl, rfl⟩

theorem twin_nodes (ha : Concur S st st2) {l l2 : List (Context cfg)}
    (hl : l.map (fun c => (c.tci, c.allowX509, c.usesInfo, c.usesDice)) =
      l2.map (fun c => (c.tci, c.allowX509, c.usesInfo, c.usesDice))) : ∀ (i d : Bool),
    Twin S (Same st st2) (hashNodes S.ops (l.map .ok) i d) (hashNodes S.ops (l2.map .ok) i d) st st2 := by
  induction l generalizing l2 with
  | nil =>
    intro i d
    cases l2 with
    | nil => exact .pure ⟨rfl, rfl, rfl⟩
    | cons => simp at hl
  | cons c l ih =>
    intro i d
    cases l2 with
    | nil => simp at hl
    | cons c2 l2 =>
      simp only [List.map_cons, List.cons.injEq, Prod.mk.injEq] at hl
      obtain ⟨⟨h1, h2, h3, h4⟩, hl⟩ := hl
      simp only [List.map_cons]
      unfold hashNodes
      refine Twin.bind (R := fun a b t t2 => a = c ∧ b = c2 ∧ t = st ∧ t2 = st2) ?_ ?_
      · intro w out _
        exact .inl ⟨c, c2, w, out, st, st2, rfl, rfl, .nil _, rfl, rfl, rfl, rfl⟩
      · rintro a b t t2 ⟨rfl, rfl, rfl, rfl⟩
        rw [h1, h2, h3, h4]
        exact (Twin.crypto ha _).same fun _ => (Twin.crypto ha _).same fun _ => ih hl _ _

theorem twin_dice (ha : Concur S st st2) (n : Nat) : ∀ off : U32,
    Twin S (Same st st2) (diceLoop S.ops n off) (diceLoop S.ops n off) st st2 := by
  induction n with
  | zero => intro off; exact .fail ha _
  | succ n ih =>
    intro off w out hw
    unfold diceLoop
    have hc : OpCalls S.ops w (S.ops.certChain off 2048 w).2 := .one (.certChain ..)
    rcases h : S.ops.certChain off 2048 w with ⟨e | ⟨len, ch⟩, w'⟩ <;> rw [h] at hc
    · exact .inl ⟨(), (), w', out, st, st2, rfl, rfl, hc, rfl, rfl, rfl⟩
    · simp only [h]
      exact Twin.later ((Twin.failIf ha rfl _).same fun _ => (Twin.crypto ha _).same fun _ => ih _) hw hc out

theorem twin_measure (h : Shared S ρ st st2) (wf : WF st) (ap : Apart S.mine st) {i : Nat}
    (hi : Inside S.mine st i) :
    Twin S (Same st st2) (computeMeasurementHash S.ops i) (computeMeasurementHash S.ops (ρ.to i)) st st2 := by
  have ha : Concur S st st2 := ⟨ρ, h⟩
  obtain ⟨l, hl⟩ := wf.path i hi.1
  have hl2 := h.path wf ap hi hl
  obtain ⟨it, e1, r1⟩ := ChainIter.new_path hl
  obtain ⟨it2, e2, r2⟩ := ChainIter.new_path hl2
  have n1 := items_rem (cfg.maxHandles + 2) r1 (by have := hl.length_le; omega)
  have n2 := items_rem (cfg.maxHandles + 2) r2 (by have := hl2.length_le; omega)
  refine (Twin.crypto ha _).same fun _ => (Twin.crypto ha _).same fun _ => Twin.get ?_
  refine Twin.bind (R := fun a b t t2 => a = it ∧ b = it2 ∧ t = st ∧ t2 = st2) ?_ ?_
  · intro w out _
    rw [e1, e2]
    exact .inl ⟨it, it2, w, out, st, st2, rfl, rfl, .nil _, rfl, rfl, rfl, rfl⟩
  · rintro a b t t2 ⟨ea, eb, et, et2⟩
    rw [ea, eb, et, et2, n1, n2, h.support]
    have hm : ∀ l : List Nat, l.map (fun i => (Except.ok (st.at i) : Except Err (Context cfg))) =
        (l.map st.at).map .ok := fun l => by rw [List.map_map]; rfl
    have hm2 : ∀ l : List Nat, l.map (fun i => (Except.ok (st2.at i) : Except Err (Context cfg))) =
        (l.map st2.at).map .ok := fun l => by rw [List.map_map]; rfl
    rw [hm, hm2]
    refine Twin.same (twin_nodes ha ?_ _ _) ?_
    · rw [List.map_map, List.map_map, List.map_map]
      refine List.map_congr_left fun j hj => ?_
      have := h.live j (Shared.path_live wf ap hi hl j hj)
      simp only [Function.comp, this.tci, this.x509, this.info, this.dice]
    · rintro ⟨info, dice⟩
      refine Twin.same (Twin.when ?_) fun _ => Twin.same (Twin.when (twin_dice ha _ _)) fun _ => Twin.crypto ha _
      exact Twin.same ((twin_profile ha _).same fun _ => .pure ⟨rfl, rfl, rfl⟩) fun b => Twin.crypto ha _

end Dpe
