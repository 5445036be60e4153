import Verif.Proofs.Calls
import Verif.Examples.Toy
/-
C11 (one-time handles) and the command part of C47 (fresh handles).
-/
namespace Dpe
variable {cfg : Cfg} {σ : Type} {env : Env cfg σ} {D : Bytes → Bytes → Prop} {c : Cmd cfg}
  {loc : U32} {s s' : Sys cfg σ} {r : Except Err Nat}

/-- Commands that keep the named context alive under a successor handle, with the position of
that handle in the reply. -/
def KeepsNamed : Cmd cfg → Nat → Prop
  | .sign _, k => k = 0
  | .certify _, k => k = 0
  | .rotate c, k => ¬ Bit c.flags RFlag.targetIsDefault ∧ k = 0
  | .derive c, k => (Bit c.flags DFlag.recursive ∧ k = 0) ∨
      (¬ Bit c.flags DFlag.recursive ∧ Bit c.flags DFlag.retainParent ∧ k = 1)
  | .update _, k => k = 1
  | _, _ => False

private theorem handle_at {hdr rest : Bytes} (hl : hdr.length = 12) {hs : List Handle} {k : Nat}
    {x : Handle} (hk : hs[k]? = some x) :
    ((hdr ++ (hs.map Vector.toList).flatten ++ rest).drop (12 + 16 * k)).take 16 = x.toList := by
  rw [List.append_assoc, List.drop_append, List.drop_eq_nil_of_le (by omega), hl,
    show 12 + 16 * k - 12 = 16 * k by omega, List.nil_append]
  induction hs generalizing k with
  | nil => cases hk
  | cons a l ih =>
    cases k with
    | zero =>
      cases hk
      simp
    | succ k =>
      have := ih (k := k) (by simpa using hk)
      rw [← this]
      simp only [List.map_cons, List.flatten_cons, List.append_assoc]
      rw [List.drop_append]
      have : (a.toList).length = 16 := by simp
      rw [List.drop_eq_nil_of_le (by omega), List.nil_append, this]
      congr 2

theorem RepliesWith.at {p : Profile} {hs : List Handle} {out : Bytes} (h : RepliesWith p hs out)
    {k : Nat} {x : Handle} (hk : hs[k]? = some x) : replyHandle out k = x.toList := by
  obtain ⟨rest, rfl⟩ := h
  exact handle_at rfl hk

/-- C11: after a successful command that keeps the named context, that context carries a
handle returned in the reply; if the command was addressed through a non-default handle, the
new handle is one no slot carried before — in particular not the used one — and no slot but the
one that already had it (for UpdateContextMeasurement: or the updated child) carries the used
handle. -/
theorem C11_one_time {n i k : Nat} {h : Handle} (hst : InService s.st)
    (hr : exec env c loc s = (.ok n, s')) (hu : c.usesHandle = some h) (hk : KeepsNamed c k)
    (hi : Resolves s.st h loc i) :
    replyHandle s'.out k = (s'.st.at i).handle.toList ∧ (s'.st.at i).state = .active ∧
    (h ≠ Handle.default →
      Unused s.st (s'.st.at i).handle ∧ (s'.st.at i).handle ≠ h ∧
      ∀ j, j < cfg.maxHandles → (s'.st.at j).handle = h →
        j ≠ i ∧ ((s.st.at j).handle = h ∨ ∃ u, c = .update u ∧ ActiveChild s.st i u.tciType j)) ∧
    (h = Handle.default → (∀ x, c ≠ .rotate x) → (s'.st.at i).handle = Handle.default) := by
  obtain ⟨hs, he, hrep⟩ : ∃ hs, Effect (fun _ _ => True) s.st loc c hs s'.st ∧
      RepliesWith cfg.profile hs s'.out := by
    rcases exec_outcome hst.wf (digests_true _) hr with ⟨⟨_, h1⟩, _⟩ | ⟨hs, h1, h2⟩ |
      ⟨_, _, _, h1, _⟩ | ⟨_, _, _, h1, _⟩
    · cases h1
    · rcases h2 with ⟨_, _, h2⟩ | ⟨h2, _⟩
      · exact ⟨hs, h1, h2⟩
      · cases h2
    · cases h1
    · cases h1
  have hact := hi.1.1
  have hh := hi.1.2.1
  -- common shape: slot `i` becomes `x` carrying the handle `h'`
  have fin : ∀ {h' : Handle}, hs[k]? = some h' → (s'.st.at i).handle = h' →
      (s'.st.at i).state = .active →
      ((h = Handle.default ∧ h' = Handle.default) ∨ (h ≠ Handle.default ∧ Unused s.st h')) →
      (h ≠ Handle.default → ∀ j, j < cfg.maxHandles → j ≠ i → (s'.st.at j).handle = h →
        (s.st.at j).handle = h ∨ ∃ u, c = .update u ∧ ActiveChild s.st i u.tciType j) →
      replyHandle s'.out k = (s'.st.at i).handle.toList ∧ (s'.st.at i).state = .active ∧
      (h ≠ Handle.default →
        Unused s.st (s'.st.at i).handle ∧ (s'.st.at i).handle ≠ h ∧
        ∀ j, j < cfg.maxHandles → (s'.st.at j).handle = h →
          j ≠ i ∧ ((s.st.at j).handle = h ∨ ∃ u, c = .update u ∧ ActiveChild s.st i u.tciType j)) ∧
      (h = Handle.default → (∀ x, c ≠ .rotate x) → (s'.st.at i).handle = Handle.default) := by
    intro h' h1 h2 h3 h4 h5
    refine ⟨by rw [h2]; exact hrep.at h1, h3, fun hne => ?_, fun hd _ => ?_⟩
    · rcases h4 with ⟨h4, _⟩ | ⟨_, h4⟩
      · exact absurd h4 hne
      · have hne' : (s'.st.at i).handle ≠ h := by
          rw [h2]
          intro e
          exact h4.2 i hi.lt (by rw [hh, e])
        refine ⟨by rw [h2]; exact h4, hne', fun j hj e => ?_⟩
        have hji : j ≠ i := by rintro rfl; exact hne' e
        exact ⟨hji, h5 hne j hj hji e⟩
    · rcases h4 with ⟨_, h4⟩ | ⟨h4, _⟩
      · rw [h2, h4]
      · exact absurd hd h4
  cases c with
  | getProfile => cases hk
  | chain c => cases hk
  | init f => cases hk
  | destroy h => cases hk
  | rotate c =>
    cases hu
    obtain ⟨h1, rfl⟩ := hk
    obtain ⟨h', rfl, m, hm, hset, hc⟩ := he
    cases hm.unique hi
    rcases hc with ⟨hc, _⟩ | ⟨_, hc⟩
    · exact absurd hc h1
    · have e : (s'.st.at i).handle = h' := by rw [hset.1]
      refine ⟨by rw [e]; exact hrep.at rfl, by rw [hset.1]; exact hact, fun hne => ?_,
        fun _ hx => absurd rfl (hx c)⟩
      have hne' : (s'.st.at i).handle ≠ c.handle := by
        rw [e]; intro e; exact hc.2 i hi.lt (by rw [hh, e])
      refine ⟨by rw [e]; exact hc, hne', fun j hj e2 => ?_⟩
      have hji : j ≠ i := by rintro rfl; exact hne' e2
      rw [hset.2.1 j hji] at e2
      exact ⟨hji, .inl e2⟩
  | sign c =>
    cases hu; cases hk
    obtain ⟨h', rfl, m, hm, hn, hset⟩ := he
    cases hm.unique hi
    refine fin rfl (by rw [hset.1]) (by rw [hset.1]; exact hact) hn fun _ j _ hji e => ?_
    rw [hset.2.1 j hji] at e; exact .inl e
  | certify c =>
    cases hu; cases hk
    obtain ⟨h', rfl, m, hm, hn, hset⟩ := he
    cases hm.unique hi
    refine fin rfl (by rw [hset.1]) (by rw [hset.1]; exact hact) hn fun _ j _ hji e => ?_
    rw [hset.2.1 j hji] at e; exact .inl e
  | derive c =>
    cases hu
    obtain ⟨m, h', hp, rfl, hm, hd⟩ := he
    cases hm.unique hi
    have hpn : ∀ {hp x}, Bit c.flags DFlag.retainParent → ParentNext s.st c (s.st.at i) hp x →
        x = .active ∧ NextHandle s.st c.handle hp := by
      intro hp x h1 h2
      rcases h2 with ⟨_, h2, h3⟩ | ⟨h2, _⟩
      · rw [hh] at h3; exact ⟨h2, h3⟩
      · exact absurd h1 h2
    cases hd with
    | «recursive» hb _ hn hset =>
      rcases hk with ⟨_, rfl⟩ | ⟨h1, _⟩
      · refine fin rfl (by rw [hset.1]) (by rw [hset.1]; exact hact) hn fun _ j _ hji e => ?_
        rw [hset.2.1 j hji] at e; exact .inl e
      · exact absurd hb h1
    | @child _ _ _ _ kk _ _ hb _ hff _ hch hpa _ h2 h3 h4 _ =>
      rcases hk with ⟨h1, _⟩ | ⟨_, h1, rfl⟩
      · exact absurd h1 hb
      · obtain ⟨rfl, hn⟩ := hpn h1 hpa
        refine fin rfl (by rw [h3]) (by rw [h3]) hn fun hne j hj hji e => ?_
        by_cases e' : j = kk
        · subst e'
          rw [h2] at e
          change h' = _ at e
          rcases hch with ⟨_, hch⟩ | ⟨_, hch⟩
          · exact absurd (e ▸ hch) hne
          · exact absurd (by rw [hh, e]) (hch.2 i hi.lt)
        · rw [h4 j e' hji] at e; exact .inl e
    | exported hb _ _ _ hpa hset =>
      rcases hk with ⟨h1, _⟩ | ⟨_, h1, rfl⟩
      · exact absurd h1 hb
      · obtain ⟨rfl, hn⟩ := hpn h1 hpa
        refine fin rfl (by rw [hset.1]) (by rw [hset.1]) hn fun _ j _ hji e => ?_
        rw [hset.2.1 j hji] at e; exact .inl e
    | exportedLast hb _ _ hnr _ _ =>
      rcases hk with ⟨h1, _⟩ | ⟨_, h1, _⟩
      · exact absurd h1 hb
      · exact absurd h1 hnr
  | update c =>
    cases hu; cases hk
    obtain ⟨hc, hp, rfl, m, kk, v, hm, hnd, hac, _, _, hun, _, h1, h2, h3, _⟩ := he
    cases hm.unique hi
    refine fin rfl (by rw [h1]) (by rw [h1]; exact hact) (.inr ⟨hnd, hun⟩) fun _ j _ hji e => ?_
    by_cases e' : j = kk
    · subst e'; exact .inr ⟨c, rfl, hac⟩
    · rw [h3 j hji e'] at e; exact .inl e

/-- The caveat in `C11_one_time` for UpdateContextMeasurement is real: the parent's handle is
replaced before the child's is drawn, so a repeating random source can hand the parent's used
handle to the child. -/
def Toy.reuse : Env Toy.cfg Nat :=
  { Toy.env with rand := fun n => (.ok (if n = 100 then Toy.hd 50 else Toy.hd 2), n + 1) }

theorem C11_update_reuse :
    let u : UpdateCmd Toy.cfg := ⟨Toy.hd 2, Toy.data 9 9, 0, 5, 0⟩
    let s : Sys Toy.cfg Nat := ⟨Toy.s3.st, 100, Toy.buf⟩
    let x := exec Toy.reuse (.update u) 0 s
    Reachable s.st ∧ (∃ n, x.1 = .ok n) ∧ (s.st.at 0).handle = Toy.hd 2 ∧
      (x.2.st.at 0).handle = Toy.hd 50 ∧ (x.2.st.at 1).handle = Toy.hd 2 :=
  ⟨Toy.s3.reach, ⟨44, by decide +kernel⟩, by decide +kernel, by decide +kernel,
    by decide +kernel⟩

/-- Non-vacuity: signing through handle 4 in `s4` gives slot 2 a new handle, returned in the
reply, and handle 4 then names nothing. -/
example : ∃ n s', exec Toy.env (.sign (.p256 (Toy.hd 4) (Vector.replicate 32 0) 0
      (Vector.replicate 32 1))) 0 Toy.s4.sys = (.ok n, s') ∧
    replyHandle s'.out 0 = (s'.st.at 2).handle.toList ∧ (s'.st.at 2).handle ≠ Toy.hd 4 ∧
    ∀ j, j < Toy.cfg.maxHandles → (s'.st.at j).handle ≠ Toy.hd 4 := by
  generalize hx : exec Toy.env (.sign (.p256 (Toy.hd 4) (Vector.replicate 32 0) 0
      (Vector.replicate 32 1))) 0 Toy.s4.sys = x
  obtain ⟨r, s'⟩ := x
  have h0 : ∃ n, r = .ok n := ⟨92, by rw [← show (exec _ _ _ _).1 = r from congrArg Prod.fst hx]; decide +kernel⟩
  obtain ⟨n, rfl⟩ := h0
  have hi : Resolves Toy.s4.sys.st (Toy.hd 4) 0 2 := by
    refine ⟨⟨by decide +kernel, by decide +kernel, by decide +kernel⟩, ?_⟩
    rintro j hj ⟨-, h, -⟩
    revert h
    have : ∀ j, j < 2 → (Toy.s4.st.at j).handle ≠ Toy.hd 4 := by decide +kernel
    exact this j hj
  obtain ⟨h1, _, h3, _⟩ := C11_one_time Toy.s4.sys_reach hx rfl (k := 0) rfl hi
  obtain ⟨_, h4, h5⟩ := h3 (by decide +kernel)
  refine ⟨n, s', rfl, h1, h4, fun j hj e => ?_⟩
  obtain ⟨h6, h7 | ⟨u, hu, _⟩⟩ := h5 j hj e
  · have : ∀ j, j < 4 → j ≠ 2 → (Toy.s4.st.at j).handle ≠ Toy.hd 4 := by decide +kernel
    exact this j hj h6 h7
  · cases hu

end Dpe
