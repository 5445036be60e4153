import Verif.Proofs.Secret
import Verif.Props.Keep
import Verif.Props.Uses
import Verif.Props.Client
/-
Handles are secrets (C78): those who do not use a handle cannot find out anything about it.
Handles are capabilities (C79): those who do not use the handles of a context and of its ancestors cannot change
it, nor use its keys.
-/
namespace Dpe
section
variable {cfg : Cfg} {σ : Type} {ops : Ops σ} {st st' : State cfg} {V : Handle → Prop} {D : Disguise V} {i : Nat}
  {loc : U32}

/-! ### C78 -/

/-- C78: a command that uses no handle in `V` gives the same result, the same response and the same traffic with
the crypto implementation and the platform whatever values in `V` the handles in `V` have, and they keep these
values. -/
theorem C78_step (hp : Private V) {c : Cmd cfg} (hc : Ignorant V c) {w : σ} (hw : Avoids ops V w) (out : Bytes) :
    exec (ops.env cfg) c loc ⟨D.state st, w, out⟩ =
      ((exec (ops.env cfg) c loc ⟨st, w, out⟩).1, ⟨D.state (exec (ops.env cfg) c loc ⟨st, w, out⟩).2.st,
        (exec (ops.env cfg) c loc ⟨st, w, out⟩).2.w, (exec (ops.env cfg) c loc ⟨st, w, out⟩).2.out⟩) :=
  ((blind_exec hp c hc loc).split hw out).1

/-- C78: no sequence of requests that use no handle in `V`, whichever localities they come from, gets an answer
that depends on the values of the handles in `V`. -/
theorem C78_answers (hp : Private V) {l : List (Asked cfg)} (hl : ∀ x ∈ l, Ignorant V x.1) {w : σ}
    (hw : Avoids ops V w) : answers ops l (D.state st) w = answers ops l st w := by
  induction l generalizing st w with
  | nil => rfl
  | cons x l ih =>
    obtain ⟨c, loc, out⟩ := x
    obtain ⟨h1, h2⟩ := (blind_exec (D := D) (st := st) hp c (hl _ List.mem_cons_self) loc).split hw out
    simp only [answers]
    rw [h1]
    simp only [List.cons.injEq, true_and]
    exact ih (fun x hx => hl x (List.mem_cons_of_mem _ hx)) (hw.calls h2)

/-- Another value for one handle. -/
def Disguise.swap (g g' : Handle) : Disguise fun h => h = g ∨ h = g' where
  to h := if h = g then g' else h
  other h hh := if_neg fun e => hh (.inl e)
  within h hh := by
    split
    · exact .inr rfl
    · exact hh

theorem swap_state {g g' : Handle} (hi : i < cfg.maxHandles) (hg : (st.at i).handle = g)
    (hs : ∀ j, (st.at j).handle = g → j = i) : (Disguise.swap g g').state st = st.rehandled i g' := by
  have hlen := st.len_eq
  have : (Disguise.swap g g').state st = ⟨st.marker, st.version, st.contexts.set i { st.at i with handle := g' },
      st.support, st.flags, st.hasInitialized, by rw [List.length_set]; exact hlen⟩ := by
    unfold Disguise.state
    congr 1
    refine List.ext_getElem (by simp) fun j h1 h2 => ?_
    have hj : j < st.contexts.length := by simpa using h1
    have ea : st.at j = st.contexts[j] := by
      unfold State.at
      rw [List.getElem?_eq_getElem hj]; rfl
    rw [List.getElem_map, List.getElem_set]
    by_cases e : i = j
    · subst e
      rw [if_pos rfl, ea]
      rw [ea] at hg
      simp [Disguise.ctx, Disguise.swap, hg]
    · rw [if_neg e]
      have : st.contexts[j].handle ≠ g := fun e' => e (hs j (ea ▸ e')).symm
      simp [Disguise.ctx, Disguise.swap, this]
  rw [this]
  rfl

/-- C78, for one context: if it had another handle, then all requests that use neither of the two would have been
answered in the same way, provided that the random source does not deliver one of the two.  So there is no oracle
for handles other than to use them. -/
theorem C78_one {g g' : Handle} (hi : i < cfg.maxHandles) (hg : (st.at i).handle = g)
    (hs : ∀ j, (st.at j).handle = g → j = i) (h1 : g ≠ Handle.default) (h2 : g ≠ Handle.invalid)
    (h3 : g' ≠ Handle.default) (h4 : g' ≠ Handle.invalid) {l : List (Asked cfg)}
    (hl : ∀ x ∈ l, ∀ h, x.1.usesHandle = some h → h ≠ g ∧ h ≠ g') {w : σ}
    (hw : Avoids ops (fun h => h = g ∨ h = g') w) :
    answers ops l (st.rehandled i g') w = answers ops l st w := by
  rw [← swap_state hi hg hs]
  refine C78_answers ⟨?_, ?_⟩ (fun x hx h hh => ?_) hw
  · rintro (h | h)
    · exact h1 h.symm
    · exact h3 h.symm
  · rintro (h | h)
    · exact h2 h.symm
    · exact h4 h.symm
  · rintro (e | e)
    · exact (hl x hx h hh).1 e
    · exact (hl x hx h hh).2 e

theorem blind_execute (hp : Private V) {c : Cmd cfg} (hc : Ignorant V c) {w : σ} (hw : Avoids ops V w) (out : Bytes) :
    execute (ops.env cfg) c loc ⟨D.state st, w, out⟩ =
      ((execute (ops.env cfg) c loc ⟨st, w, out⟩).1, ⟨D.state (execute (ops.env cfg) c loc ⟨st, w, out⟩).2.st,
        (execute (ops.env cfg) c loc ⟨st, w, out⟩).2.w, (execute (ops.env cfg) c loc ⟨st, w, out⟩).2.out⟩) ∧
    OpCalls ops w (execute (ops.env cfg) c loc ⟨st, w, out⟩).2.w := by
  obtain ⟨h1, h2⟩ := (blind_exec (D := D) (st := st) hp c hc loc).split hw
    (List.replicate ((c.respKind.size cfg + 3) / 4 * 4) 0)
  unfold execute
  simp only
  rw [h1]
  generalize exec (ops.env cfg) c loc ⟨st, w, List.replicate ((c.respKind.size cfg + 3) / 4 * 4) 0⟩ = x at h2 ⊢
  obtain ⟨e | n, s'⟩ := x
  · exact ⟨rfl, h2⟩
  · simp only
    generalize getRespExact c.respKind s'.out = y
    cases y
    · exact ⟨rfl, h2⟩
    · exact ⟨rfl, h2⟩

theorem blind_handle {a : Artifact} (hb : Built cfg a) (hp : Private V) {addr : Nat} {sent : Bytes}
    (hr : ∀ loc, ∀ c : Cmd cfg, IsRequest addr sent loc c → Ignorant V c) {w : σ} (hw : Avoids ops V w) (out : Bytes) :
    handleRequest (ops.env cfg) addr sent ⟨D.state st, w, out⟩ =
      ((handleRequest (ops.env cfg) addr sent ⟨st, w, out⟩).1,
        ⟨D.state (handleRequest (ops.env cfg) addr sent ⟨st, w, out⟩).2.st,
          (handleRequest (ops.env cfg) addr sent ⟨st, w, out⟩).2.w,
          (handleRequest (ops.env cfg) addr sent ⟨st, w, out⟩).2.out⟩) ∧
    OpCalls ops w (handleRequest (ops.env cfg) addr sent ⟨st, w, out⟩).2.w := by
  unfold handleRequest
  rcases hu : getU32 (sent.take 4096) with _ | ⟨loc, b⟩
  · exact ⟨rfl, .nil _⟩
  · unfold executeSerialized
    rcases hd : decode cfg (addr + 4) b with e | c
    · simp only [hd]; exact ⟨trivial, .nil _⟩
    · obtain ⟨h1, h2⟩ := blind_execute (D := D) (st := st) (loc := loc) hp
        (hr loc c ((request_iff hb).2 ⟨b, hu, hd⟩)) hw out
      simp only [hd]
      rw [h1]
      generalize execute (ops.env cfg) c loc ⟨st, w, out⟩ = x at h2 ⊢
      obtain ⟨e | r, s'⟩ := x
      · cases e <;> exact ⟨rfl, h2⟩
      · simp only
        generalize r.asBytesPartial = y
        cases y
        · exact ⟨rfl, h2⟩
        · exact ⟨rfl, h2⟩

/-- C78, on the socket of the simulator: whatever bytes are sent on successive connections, as long as none of the
commands among them uses a handle in `V`, the bytes that come back do not depend on the values of the handles in
`V`; nor does it whether the simulator survives. -/
theorem C78_socket {a : Artifact} (hb : Built cfg a) (hp : Private V) {reqs : List (Nat × Bytes)}
    (hr : ∀ q ∈ reqs, ∀ loc, ∀ c : Cmd cfg, IsRequest q.1 q.2 loc c → Ignorant V c) {w : σ} (hw : Avoids ops V w)
    (out : Bytes) :
    (simLoop (ops.env cfg) reqs ⟨D.state st, w, out⟩).1 = (simLoop (ops.env cfg) reqs ⟨st, w, out⟩).1 ∧
    (simLoop (ops.env cfg) reqs ⟨D.state st, w, out⟩).2.1 = (simLoop (ops.env cfg) reqs ⟨st, w, out⟩).2.1 := by
  induction reqs generalizing st w out with
  | nil => exact ⟨rfl, rfl⟩
  | cons q reqs ih =>
    obtain ⟨addr, sent⟩ := q
    obtain ⟨h1, h2⟩ := blind_handle (D := D) (st := st) hb hp (hr _ List.mem_cons_self) hw out
    simp only [simLoop]
    rw [h1]
    generalize handleRequest (ops.env cfg) addr sent ⟨st, w, out⟩ = x at h2 ⊢
    obtain ⟨_ | b, s'⟩ := x
    · exact ⟨rfl, rfl⟩
    · obtain ⟨h3, h4⟩ := ih (st := s'.st) (fun q hq => hr q (List.mem_cons_of_mem _ hq)) (hw.calls h2) s'.out
      simp only
      exact ⟨congrArg _ h3, h4⟩

/-! ### C79 -/

theorem anc_of_lists (wf : WF st) {a b : Nat} (h : Lists st a b) : Anc st b a := by
  obtain ⟨h1, h2⟩ := wf.down _ _ h
  rw [← h2]
  refine .parent h1 ?_
  rw [h2]
  intro e
  have := live_of_lists wf h
  rw [e] at this
  exact root_not_lt (lt_of_live this)

theorem Anc.live (wf : WF st) {a b : Nat} (h : Anc st a b) : Live st b := by
  cases h with
  | parent h1 h2 => exact live_of_lists wf (wf.up _ h1 h2)
  | step _ h1 h2 => exact live_of_lists wf (wf.up _ h1 h2)

theorem Anc.trans {a b c : Nat} (h : Anc st a b) (h' : Anc st b c) : Anc st a c := by
  induction h' with
  | parent h1 h2 => exact .step h h1 h2
  | step _ h1 h2 ih => exact .step ih h1 h2

theorem Desc.anc (wf : WF st) {a b : Nat} (h : Desc st a b) : Anc st b a := by
  induction h with
  | child h => exact anc_of_lists wf h
  | step _ h ih => exact (anc_of_lists wf h).trans ih

theorem Path.self_mem {l : List Nat} (hp : Path st i l) : i ∈ l := by
  obtain ⟨t, rfl⟩ := hp.head
  exact List.mem_cons_self

theorem Path.parent_mem {l : List Nat} {a : Nat} (hp : Path st i l) (ha : a ∈ l)
    (hn : (st.at a).parentIdx ≠ ROOT) : (st.at a).parentIdx ∈ l := by
  induction hp with
  | root _ h => simp at ha; subst ha; exact absurd h hn
  | @step i l hl hr hp ih =>
    rcases List.mem_cons.1 ha with rfl | ha
    · exact List.mem_cons_of_mem _ hp.self_mem
    · exact List.mem_cons_of_mem _ (ih ha)

theorem Path.anc_mem {l : List Nat} {a : Nat} (hp : Path st i l) (h : a = i ∨ Anc st i a) : a ∈ l := by
  rcases h with rfl | h
  · exact hp.self_mem
  · induction h with
    | parent _ hn => exact hp.parent_mem hp.self_mem hn
    | step _ _ hn ih => exact hp.parent_mem ih hn

/-- The context or an ancestor of it. -/
def Above (st : State cfg) (i j : Nat) : Prop := j = i ∨ Anc st i j

theorem Above.up {a b : Nat} (h : Above st i a) (h' : Anc st a b) : Above st i b := by
  rcases h with rfl | h
  · exact .inr h'
  · exact .inr (h.trans h')

theorem Guarded.unnamed (hg : Guarded V st i) {c : Cmd cfg} (hc : Ignorant V c) {j : Nat} (hj : Above st i j)
    {h : Handle} (hh : c.usesHandle = some h) : ¬ Resolves st h loc j := fun hr =>
  hc h hh (hr.1.2.1 ▸ hg j hj hr.1.1)

theorem Guarded.not_meant (wf : WF st) (hg : Guarded V st i) {c : Cmd cfg} (hc : Ignorant V c) {j : Nat}
    (hj : Above st i j) : ¬ Meant st loc c j := by
  rintro (⟨h, h1, h2⟩ | ⟨h, k, rfl, h2, h3⟩ | ⟨u, k, rfl, h2, h3⟩)
  · exact hg.unnamed hc hj h1 h2
  · exact hg.unnamed hc (hj.up (h3.anc wf)) rfl h2
  · exact hg.unnamed hc (hj.up (anc_of_lists wf h3.1)) rfl h2

theorem Guarded.not_measures (wf : WF st) (ha : (st.at i).state = .active) (hg : Guarded V st i) {c : Cmd cfg}
    (hc : Ignorant V c) {j : Nat} (hj : Above st i j) (m : Bytes) : ¬ Measures st loc c j m := by
  intro hm
  cases c with
  | derive k =>
    obtain ⟨_, hm⟩ := hm
    split at hm
    · exact hg.unnamed hc hj rfl hm
    · have : Live st j := by
        rcases hj with rfl | hj
        · exact live_of_active ha
        · exact hj.live wf
      exact this hm.2.2.1
  | update u =>
    obtain ⟨_, k, h2, h3⟩ := hm
    exact hg.unnamed hc (hj.up (anc_of_lists wf h3.1)) rfl h2
  | _ => exact hm.elim

theorem guarded_exec {env : Env cfg σ} {c : Cmd cfg} {w : σ} {out : Bytes} (hst : InService st)
    (ha : (st.at i).state = .active) (hg : Guarded V st i) (hc : Ignorant V c) :
    Guarded V (exec env c loc ⟨st, w, out⟩).2.st i := by
  rcases hx : exec env c loc ⟨st, w, out⟩ with ⟨r, s'⟩
  obtain ⟨l, hp⟩ := hst.wf.path i (live_of_active ha)
  have kept : ∀ {j}, Above st i j → (st.at j).state = .active → ∃ ch, s'.st.at j = { st.at j with children := ch } :=
    fun hj hja => exec_left (s := ⟨st, w, out⟩) hst hx hja (hg.not_meant hst.wf hc hj)
  obtain ⟨ch, e⟩ := kept (.inl rfl) ha
  obtain ⟨hp', _, hk⟩ := exec_path_kept hst hx hp (live_of_active (by rw [e]; exact ha))
    fun j m hj => hg.not_measures hst.wf ha hc hj m
  intro j hj hja
  have hjl := hp'.anc_mem hj
  have hab : Above st i j := hp.mem_anc hjl
  have hl : Live st j := hp.all_live hjl
  rcases hs : (st.at j).state with _ | _ | _
  · exact absurd hs hl
  · obtain ⟨ch, e⟩ := kept hab hs
    rw [e]; exact hg j hab hs
  · have := (C20_identity (s := ⟨st, w, out⟩) hst hx hl (live_of_active hja)).2.2.2.2.2.2.2.2.2.2.2 hs
    rw [hja] at this; cases this

/-- C79: calls that use no handle in `V` are not about a context whose handle is in `V`, as long as those of its
Active ancestors are in `V` too; nor do they measure into its ancestors.  And this stays so. -/
theorem C79_leaves (hst : InService st) (ha : (st.at i).state = .active) (hg : Guarded V st i)
    (h : CallsWith (fun _ _ c => Ignorant V c) st st') : LeavesAncestry i st st' ∧ Guarded V st' i := by
  induction h with
  | refl => exact ⟨.refl, hg⟩
  | @cmd σ st1 env c loc w out h0 hc ih =>
    obtain ⟨h1, h2⟩ := ih
    have hst1 := CallsWith.inService hst h1
    obtain ⟨ch, e⟩ := C74_kept hst ha (h1.mono fun _ _ _ h => h.1)
    have ha1 : (st1.at i).state = .active := by rw [e]; exact ha
    exact ⟨.cmd env c loc w out h1 ⟨h2.not_meant hst1.wf hc (.inl rfl), fun j m hj =>
      h2.not_measures hst1.wf ha1 hc (.inr hj) m⟩, guarded_exec hst1 ha1 h2 hc⟩
  | @create σ st1 ops w out h0 ih =>
    obtain ⟨h1, h2⟩ := ih
    have hst1 := CallsWith.inService hst h1
    obtain ⟨ch, e⟩ := C74_kept hst ha (h1.mono fun _ _ _ h => h.1)
    have ha1 : (st1.at i).state = .active := by rw [e]; exact ha
    refine ⟨.create ops w out h1, ?_⟩
    rcases hx : dpeNew ops ⟨st1, w, out⟩ with ⟨r, s'⟩
    rcases dpeNew_effect hx with h3 | ⟨loc, k, hk, _, h3, h4, _⟩
    · rw [h3]; exact h2
    · obtain ⟨l, hp⟩ := hst1.wf.path i (live_of_active ha1)
      have hsame : ∀ j ∈ l, s'.st.at j = st1.at j := by
        intro j hj
        refine h3 j ?_
        rintro rfl
        exact hp.all_live hj hk.2.1
      have hp' : Path s'.st i l := hp.kept fun j hj => ⟨by unfold Live; rw [hsame j hj]; exact hp.all_live hj,
        by rw [hsame j hj]⟩
      intro j hj hja
      have hjl := hp'.anc_mem hj
      rw [hsame j hjl] at hja ⊢
      exact h2 j (hp.mem_anc hjl) hja

/-- C79: such calls leave the context as it is (but for which children it has), with the same ancestors, the same
evidence, and the same measurement hash, from which its keys come. -/
theorem C79_kept (hst : InService st) (ha : (st.at i).state = .active) (hg : Guarded V st i)
    (h : CallsWith (fun _ _ c => Ignorant V c) st st') :
    (∃ ch, st'.at i = { st.at i with children := ch }) ∧
    (∀ l, Path st i l → Path st' i l ∧ SameEvidence st l st' l) ∧
    ∀ {σ : Type} (ops : Ops σ) (w : σ) (out : Bytes),
      (computeMeasurementHash ops i ⟨st', w, out⟩).1 = (computeMeasurementHash ops i ⟨st, w, out⟩).1 := by
  obtain ⟨h1, _⟩ := C79_leaves hst ha hg h
  exact ⟨C74_kept hst ha (h1.mono fun _ _ _ h => h.1), fun l hp => C74_ancestry hst ha hp h1,
    fun ops w out => C74_digest hst ha h1 w out⟩

/-- C79: the same goes for its Active ancestors, so that their handles are not replaced either. -/
theorem C79_ancestors (hst : InService st) (hg : Guarded V st i) {j : Nat} (hj : Anc st i j)
    (ha : (st.at j).state = .active) (h : CallsWith (fun _ _ c => Ignorant V c) st st') :
    ∃ ch, st'.at j = { st.at j with children := ch } :=
  (C79_kept hst ha (fun k hk hka => hg k (.inr (hk.elim (fun e => e ▸ hj) hj.trans)) hka) h).1

/-- C79: and those who know the handle can still use it, without ambiguity if there was none. -/
theorem C79_usable {h : Handle} (hst : InService st) (hr : Resolves st h loc i) (hso : Sole st i)
    (hd : h ≠ Handle.default) (hg : Guarded V st i) (hc : CallsWith (fun _ _ c => Ignorant V c) st st') :
    Resolves st' h loc i ∧ ∀ j, Names st' h loc j → j = i :=
  C74_resolves hst hr hso (fun e => absurd e hd) ((C79_leaves hst hr.1.1 hg hc).1.mono fun _ _ _ h => h.1)

/-- C79: a command that uses no handle in `V` touches key material only of a context that is neither the one nor an
ancestor of it. -/
theorem C79_keys (hst : InService st) (hfit : AlgorithmFits cfg ops) (hser : SerialGiven ops) (hg : Guarded V st i)
    {c : Cmd cfg} (hc : Ignorant V c) {w : σ} {out : Bytes} {u : Use ops} (hu : u ∈ usesOf ops c loc st w out)
    (hk : u.keyed) : ∃ j, Entitled st loc j c ∧ j ≠ i ∧ ¬ Anc st i j := by
  obtain ⟨j, hj⟩ := C73_keys hst hfit hser hu hk
  have : ¬ Above st i j := by
    intro hab
    cases c with
    | sign k => exact hg.unnamed hc hab rfl hj.1
    | certify k => exact hg.unnamed hc hab rfl hj.1
    | derive k => exact hg.unnamed hc hab rfl hj.1
    | _ => exact hj.elim
  exact ⟨j, hj, fun e => this (.inl e), fun e => this (.inr e)⟩

end

/-! ### Concrete cases -/

namespace Toy

/-- Another random source, whose handles have an odd second byte. -/
def oddOps : Ops Nat := { ops with rand := fun n => (.ok ((hd 1).set 1 (UInt8.ofNat n ||| 1)), n + 1) }

theorem oddOps_avoids {a b : Handle} (ha : a[1] = 0) (hb : b[1] = 0) (w : Nat) :
    Avoids oddOps (fun h => h = a ∨ h = b) w := by
  intro w1 _ h he hh
  simp only [oddOps, Except.ok.injEq] at he
  have h1 : h[1] = UInt8.ofNat w1 ||| 1 := by rw [← he]; simp
  have h0 : h[1] = 0 := by
    rcases hh with rfl | rfl
    · exact ha
    · exact hb
  rw [h0] at h1
  have : ∀ x : UInt8, (0 : UInt8) ≠ x ||| 1 := by
    intro x e
    have := congrArg (fun y : UInt8 => y.toNat % 2) e
    simp only [UInt8.toNat_or] at this
    have h2 : (x.toNat ||| 1) % 2 = 1 := by rw [Nat.or_mod_two_eq_one]; exact .inr rfl
    exact absurd (this.trans h2) (by decide)
  exact this _ h1

/-- Requests of somebody who knows the root's handle, but not the grandchild's: the root derives another context,
and they try a handle of which they do not know. -/
def stranger : List (Asked Toy.cfg) :=
  [(.derive ⟨hd 2, data 5 6, fRetain, 7, 0, 0⟩, 0, buf), (.rotate ⟨hd 77, 0⟩, 0, buf), (.init 0, 0, buf)]

end Toy

-- The grandchild of `s4` has the handle 4.  With the handle 200 the stranger gets the same answers, and the first
-- one is a success.
example : answers Toy.oddOps Toy.stranger (Toy.s4.st.rehandled 2 (Toy.hd 200)) 0 =
    answers Toy.oddOps Toy.stranger Toy.s4.st 0 := by
  refine C78_one (g := Toy.hd 4) (by decide) (by decide +kernel) ?_ (by decide) (by decide) (by decide) (by decide)
    ?_ (Toy.oddOps_avoids (by decide) (by decide) 0)
  · intro j hj
    rcases Nat.lt_or_ge j 4 with h | h
    · have : ∀ j, j < 4 → (Toy.s4.st.at j).handle = Toy.hd 4 → j = 2 := by decide +kernel
      exact this j h hj
    · rw [at_of_ge (by exact h)] at hj
      exact absurd hj (by decide)
  · intro x hx h hh
    simp only [Toy.stranger, List.mem_cons, List.not_mem_nil, or_false] at hx
    rcases hx with rfl | rfl | rfl <;> simp only [Cmd.usesHandle, Option.some.injEq, reduceCtorEq] at hh
    · subst hh; decide
    · subst hh; decide

example : (answers Toy.oddOps Toy.stranger Toy.s4.st 0).map (·.1.toBool) = [true, false, false] := by decide +kernel

namespace Ref

/-- A rotation of the handle `hd 77` in the locality 3, on the wire. -/
def rotate77 : Cmd std := .rotate ⟨Toy.hd 77, 0⟩

theorem rotate77_request : IsRequest 8 (word 3 ++ wire (wireProfile std.profile) rotate77) 3 rotate77 :=
  ⟨_, [], by simp, .inr rfl, (by show ¬ Bit std.disabled Feature.rotate; decide), .inl (by decide)⟩

/-- An instance with one context, which has the handle `h`. -/
def single (h : Handle) : State std :=
  (State.new std 0xDFFFFFFF 0).setCtx 0 { Context.new with state := .active, handle := h, locality := 3 }

end Ref

-- On the socket: requests for another handle do not tell the handle 4 from the handle 200.
example : (simLoop (Toy.oddOps.env Ref.std) [(8, word 3 ++ wire (wireProfile Ref.std.profile) Ref.rotate77)]
      ⟨(Disguise.swap (Toy.hd 4) (Toy.hd 200)).state (Ref.single (Toy.hd 4)), 0, []⟩).1 =
    (simLoop (Toy.oddOps.env Ref.std) [(8, word 3 ++ wire (wireProfile Ref.std.profile) Ref.rotate77)]
      ⟨Ref.single (Toy.hd 4), 0, []⟩).1 := by
  refine (C78_socket Ref.std_built ⟨by decide, by decide⟩ ?_ (Toy.oddOps_avoids (by decide) (by decide) 0) []).1
  intro q hq loc c hr
  obtain rfl := List.mem_singleton.1 hq
  obtain ⟨rfl, rfl⟩ := Ref.rotate77_request.unique Ref.std_built hr
  rintro h e
  cases e
  decide

/-- C78: the assumption on the random source is needed.  If the random source delivers a handle that is in use,
another one is drawn, and this can be seen. -/
theorem C78_needed : answers Toy.ops [(.rotate ⟨Toy.hd 2, 0⟩, 0, Toy.buf)] (Toy.s4.st.rehandled 2 (Toy.hd 5)) 4 ≠
    answers Toy.ops [(.rotate ⟨Toy.hd 2, 0⟩, 0, Toy.buf)] Toy.s4.st 4 := by decide +kernel

namespace Toy

/-- The handles of the root and of the grandchild in `s4`. -/
def known : Handle → Prop := fun h => h = hd 2 ∨ h = hd 4

theorem guarded : Guarded known s4.st 2 := by
  intro j _ hja
  have hlt : j < 4 := active_at hja
  have : ∀ j, j < 4 → (s4.st.at j).state = .active → (s4.st.at j).handle = hd 2 ∨ (s4.st.at j).handle = hd 4 := by
    decide +kernel
  exact this j hlt hja

/-- A simulation context is created, and a handle is tried that does not exist. -/
def others : R := (s4.step (.init 0x80000000) 0).step (.destroy (hd 77)) 0

theorem others_calls : CallsWith (fun _ _ c => Ignorant known c) s4.st others.st := by
  have h1 := CallsWith.cmd (P := fun _ _ c => Ignorant known c) env (.init 0x80000000) 0 s4.p.2 buf
    (CallsWith.refl (st := s4.st)) (by intro h e; cases e)
  have h2 := CallsWith.cmd env (.destroy (hd 77)) 0 (s4.step (.init 0x80000000) 0).p.2 buf h1 (by
    intro h e
    cases e
    rintro (e | e) <;> exact absurd e (by decide))
  exact h2

end Toy

-- The calls do something, and nothing to the grandchild.
example : (Toy.s4.st.at 3).state = .inactive ∧ (Toy.others.st.at 3).state = .active := by decide +kernel
example : ∃ ch, Toy.others.st.at 2 = { Toy.s4.st.at 2 with children := ch } :=
  (C79_kept (.reached Toy.s4.reach) (by decide +kernel) Toy.guarded Toy.others_calls).1

/-- C79: the handles of the ancestors have to be kept secret as well: with the root's handle alone the grandchild
can be destroyed. -/
theorem C79_ancestors_needed : Reachable Toy.s4.st ∧ (Toy.s4.st.at 2).state = .active ∧
    (Toy.s4.st.at 2).handle = Toy.hd 4 ∧ ∃ st', CallsWith (fun _ _ c => Ignorant (· = Toy.hd 4) c) Toy.s4.st st' ∧
      (st'.at 2).state = .inactive := by
  refine ⟨Toy.s4.reach, by decide +kernel, by decide +kernel, (Toy.s4.step (.destroy (Toy.hd 2)) 0).st, ?_,
    by decide +kernel⟩
  have h1 := CallsWith.cmd (P := fun _ _ c => Ignorant (· = Toy.hd 4) c) Toy.env (.destroy (Toy.hd 2)) 0 Toy.s4.p.2
    Toy.buf (CallsWith.refl (st := Toy.s4.st)) (by
      intro h e
      cases e
      decide)
  exact h1

-- Keys: the stranger's derivation of a context uses no key; their Sign for the root does, and they must name it.
example {V : Handle → Prop} {c : Cmd Toy.cfg} (hg : Guarded V Toy.s4.st 2) (hc : Ignorant V c) {u : Use Toy.certOps}
    (hu : u ∈ usesOf Toy.certOps c 0 Toy.s4.st 4 Toy.buf) (hk : u.keyed) :
    ∃ j, Entitled Toy.s4.st 0 j c ∧ j ≠ 2 ∧ ¬ Anc Toy.s4.st 2 j :=
  C79_keys (.reached Toy.s4.reach) Toy.certOps_fits Toy.certOps_serial hg hc hu hk

end Dpe
