import Verif.Spec.Effects
import Verif.Proofs.Run
/-
The command model refines the abstract effects of `Verif.Spec.Effects`.
-/
namespace Dpe
variable {cfg : Cfg} {σ : Type}

theorem crypto_done {α : Type} {f : σ → Except CryptoErr α × σ} {s s' : Sys cfg σ} {a : α}
    (h : (M.crypto f : M cfg σ α) s = (.ok a, s')) : f s.w = (.ok a, s'.w) := by
  rcases crypto_iff.1 h with ⟨e, w, _, h2, _⟩ | ⟨b, w, h1, h2, rfl⟩
  · cases h2
  · cases h2; exact h1

theorem bind_done {α β : Type} {x : M cfg σ α} {f : α → M cfg σ β} {s s' : Sys cfg σ} {b : β}
    (h : (x >>= f) s = (.ok b, s')) : ∃ a s1, x s = (.ok a, s1) ∧ f a s1 = (.ok b, s') := by
  rcases bind_iff.1 h with ⟨e, _, h2⟩ | h1
  · cases h2
  · exact h1

theorem hashChunks_updated {ops : Ops σ} : ∀ (l : List Bytes) {s s' : Sys cfg σ},
    hashChunks ops l s = (.ok (), s') → Updated ops l s.w s'.w
  | [], s, s', h => by
    obtain ⟨_, rfl⟩ := pure_iff.1 h
    exact rfl
  | b :: bs, s, s', h => by
    obtain ⟨_, s1, h1, h2⟩ := bind_done h
    exact ⟨s1.w, crypto_done h1, hashChunks_updated bs h2⟩

/-- What the model's hash returns is a digest of the chunks. -/
theorem Digests.hashAll {ops : Ops σ} {D : Bytes → Bytes → Prop} (hD : Digests ops D)
    {l : List Bytes} {s s' : Sys cfg σ} {d : Bytes} (h : Dpe.hashAll ops l s = (.ok d, s')) :
    D l.flatten d := by
  obtain ⟨_, s1, h1, h⟩ := bind_done h
  obtain ⟨_, s2, h2, h⟩ := bind_done h
  obtain ⟨_, s3, h3, h⟩ := bind_done h
  exact hD l s.w s'.w d ⟨s1.w, s2.w, s3.w, crypto_done h1, crypto_done h2,
    hashChunks_updated l h3, crypto_done h⟩

theorem bit_eq (w : U32) (n : Nat) : decide (Bit w n) = w.getLsbD n := by
  by_cases h : Bit w n
  · rw [decide_eq_true h]; exact h.symm
  · rw [decide_eq_false h]; unfold Bit at h; rw [Bool.not_eq_true] at h; exact h.symm

theorem not_bit {w : U32} {n : Nat} (h : w.getLsbD n = false) : ¬ Bit w n := by
  unfold Bit; rw [h]; decide

theorem firstFree_iff {st : State cfg} {i : Nat} : st.nextInactive = some i ↔ FirstFree st i := by
  have key : ∀ {i}, st.nextInactive = some i → FirstFree st i := by
    intro i h
    obtain ⟨c, h1, h2, h3⟩ := nextInactive_some h
    refine ⟨lt_of_getElem? h1, by rw [at_of_getElem? h1]; exact h2, fun j hj => ?_⟩
    exact h3 j _ hj (getElem?_of_lt (Nat.lt_trans hj (lt_of_getElem? h1)))
  refine ⟨key, fun h => ?_⟩
  rcases hn : st.nextInactive with _ | j
  · exact absurd h.2.1 (nextInactive_none hn _ (at_mem h.1))
  · have hj := key hn
    rcases Nat.lt_trichotomy i j with h1 | h1 | h1
    · exact absurd h.2.1 (hj.2.2 i h1)
    · rw [h1]
    · exact absurd hj.2.1 (h.2.2 j h1)

theorem noFree_iff {st : State cfg} : st.nextInactive = none ↔ ∀ i, i < cfg.maxHandles → Live st i := by
  constructor
  · intro h i hi; exact nextInactive_none h _ (at_mem hi)
  · intro h
    rcases hn : st.nextInactive with _ | j
    · rfl
    · exact absurd (firstFree_iff.mp hn).2.1 (h j (firstFree_iff.mp hn).1)

theorem sameMeta_setCtx (st : State cfg) (i : Nat) (c : Context cfg) :
    SameMeta st (st.setCtx i c) := ⟨⟨rfl, rfl, rfl, rfl⟩, rfl⟩

theorem setSlot_of {st : State cfg} {i : Nat} (hi : i < cfg.maxHandles) (c : Context cfg) :
    SetSlot st i c (st.setCtx i c) :=
  ⟨at_setCtx_self hi c, fun _ hj => at_setCtx_ne hi c hj, sameMeta_setCtx st i c⟩

theorem Rolled.next {st : State cfg} {a b : Handle} (h : Rolled st a b) : NextHandle st a b :=
  h.imp id fun h => ⟨h.1, fresh_iff.mp h.2⟩

theorem destroyEffect_of {st : State cfg} (wf : WF st) {idx : Nat} {h : Handle} {loc : U32}
    {S : Children} (hs : destroySet st h loc = .ok S) (hf : st.findActive h loc = .ok idx) :
    DestroyEffect st idx (st.clear S) := by
  obtain ⟨S', h1, hS⟩ := destroySet_spec wf hf
  rw [hs] at h1; cases h1
  have hl : Live st idx := (findActive_resolves hf).1.live
  refine ⟨fun i hi => (at_clear_doomed wf hl hS i).1 hi, fun i hi => ?_, ⟨rfl, rfl, rfl, rfl⟩, rfl⟩
  have e := (at_clear_doomed wf hl hS i).2 hi
  refine ⟨⟨_, e⟩, fun j => ?_⟩
  have : ¬ DestroyedWith st idx j ↔ ¬ (S.getLsbD j = true) := not_congr (hS j).symm
  rw [Lists, e, getLsbD_removeChildren, this]
  simp [Lists]

theorem wiped_handle (c : Context cfg) : (wiped c).handle = Handle.invalid := rfl

theorem hasChildren_iff {st : State cfg} {i : Nat} :
    (st.at i).hasChildren = true ↔ ∃ j, Lists st i j := by
  unfold Context.hasChildren
  rw [bne_iff_ne]; exact children_ne_zero

theorem replies_of {p : Profile} {hs : List Handle} {tail rest : Bytes} :
    RepliesWith p hs (hdrBytes p .noError ++ (hs.map Vector.toList).flatten ++ tail ++ rest) := by
  refine ⟨tail ++ rest, ?_⟩
  rw [List.append_assoc]
  congr 2
  cases p <;> rfl

/-- A committed command either replied or the reply did not fit. -/
theorem Responded.replies {s s' : Sys cfg σ} {r : Except Err Nat} {b : Bytes} {n : Nat}
    {hs : List Handle} {tail : Bytes} (h : Responded s s' r b n)
    (hb : b = hdrBytes cfg.profile .noError ++ (hs.map Vector.toList).flatten ++ tail)
    (env : Env cfg σ) (c : Cmd cfg) (hn : b.length ≤ c.replyMax) :
    (∃ n, r = .ok n ∧ RepliesWith cfg.profile hs s'.out) ∨
      (r = .error .invalidResponseBuf ∧ NoFit env s c) := by
  rcases h with ⟨h1, _, h3⟩ | ⟨h1, h2, _⟩
  · refine .inl ⟨n, h1, ?_⟩
    rw [h3, hb]; exact replies_of
  · exact .inr ⟨h1, .inl (by omega)⟩

/-- The same for commands whose reply follows a certificate. -/
theorem Responded.replies_cert {s s' : Sys cfg σ} {r : Except Err Nat} {b win : Bytes} {n base : Nat}
    {hs : List Handle} {tail : Bytes} {env : Env cfg σ} {kind : CertKind} {args : CertArgs} {w : σ}
    {x : Except Err CertResult × σ}
    (h : Responded { s with out := s.out.take base ++ win } s' r b n)
    (hg : env.certGen kind args s.st w (s.out.drop base) = (x, win))
    (hb : b = hdrBytes cfg.profile .noError ++ (hs.map Vector.toList).flatten ++ tail)
    (c : Cmd cfg) (hm : c.makesCert) (hn : b.length ≤ c.replyMax) :
    (∃ n, r = .ok n ∧ RepliesWith cfg.profile hs s'.out) ∨
      (r = .error .invalidResponseBuf ∧ NoFit env s c) := by
  rcases h with ⟨h1, _, h3⟩ | ⟨h1, h2, _⟩
  · refine .inl ⟨n, h1, ?_⟩
    rw [h3, hb]; exact replies_of
  · refine .inr ⟨h1, ?_⟩
    by_cases hw : win.length < (s.out.drop base).length
    · exact .inr ⟨hm, kind, args, w, base, by rw [hg]; exact hw⟩
    · left
      simp only [List.length_append, List.length_take, List.length_drop] at h2 hw
      omega

theorem certifyHdrBytes_length {c : CertifyCmd} {p : Profile} {h : Handle} {n : U32} {k : PubKey}
    {b : Bytes} (hb : certifyHdrBytes c.variant p h n k = some b) :
    b.length ≤ (Cmd.certify c : Cmd cfg).replyMax := by
  cases c <;> cases k <;> simp only [certifyHdrBytes, CertifyCmd.variant] at hb <;> cases hb <;>
    simp [hdrBytes_length, le32_length, Cmd.replyMax]

theorem certifyHdrBytes_none {v p : Profile} {h : Handle} {n : U32} {k : PubKey}
    (hb : certifyHdrBytes v p h n k = none) : k.kind ≠ v := by
  cases k <;> simp only [certifyHdrBytes] at hb <;> split at hb <;> first | cases hb | skip
  all_goals exact fun e => (‹¬ _›) e.symm

theorem signBytes_length (p : Profile) (h : Handle) (g : Sig) : (signBytes p h g).length ≤ 4656 := by
  cases g <;> simp [signBytes, hdrBytes_length]

/-- Outcome of a command in terms of the abstract effects. -/
def Outcome (env : Env cfg σ) (D : Bytes → Bytes → Prop) (s : Sys cfg σ) (loc : U32) (c : Cmd cfg)
    (r : Except Err Nat) (s' : Sys cfg σ) : Prop :=
  ((∃ e, r = .error e) ∧ s'.st = s.st) ∨
  (∃ hs, Effect D s.st loc c hs s'.st ∧
    ((∃ n, r = .ok n ∧ RepliesWith cfg.profile hs s'.out) ∨
      (r = .error .invalidResponseBuf ∧ NoFit env s c))) ∨
  (∃ u e, c = .update u ∧ r = .error e ∧
    (e = .internal .handleGenerationExhausted ∨ ∃ ce, e = .crypto ce) ∧
    HalfUpdate s.st u loc s'.st) ∨
  (∃ k h, c = .certify k ∧ r = .error .invalidArgument ∧ UseEffect s.st k.handle loc h s'.st ∧
    WrongKey env s k)

theorem certifyHdrBytes_form {v p : Profile} {h : Handle} {n : U32} {k : PubKey} {b : Bytes}
    (hb : certifyHdrBytes v p h n k = some b) :
    ∃ tail, b = hdrBytes p .noError ++ ([h].map Vector.toList).flatten ++ tail := by
  cases k <;> simp only [certifyHdrBytes] at hb <;> split at hb <;> cases hb <;>
    exact ⟨_, by simp [List.append_assoc]; rfl⟩

theorem signBytes_form (p : Profile) (h : Handle) (g : Sig) :
    ∃ tail, signBytes p h g = hdrBytes p .noError ++ ([h].map Vector.toList).flatten ++ tail := by
  cases g <;> exact ⟨_, by simp [signBytes, List.append_assoc]; rfl⟩

theorem childOf_eq {c : DeriveCmd cfg} {loc : U32} {idx : Nat} {p : Context cfg} {h : Handle}
    {v : BArr cfg.tciSize} (hidx : idx < cfg.maxHandles) :
    childOf c (c.target loc) idx p h v = childContext c loc idx p h v := by
  have h256 : idx % 256 = idx := Nat.mod_eq_of_lt (by have := cfg.le64; omega)
  simp only [childOf, childContext, deriveArgs, Context.activate, h256, Bool.decide_and, bit_eq,
    Bool.decide_eq_true]
  rfl

theorem rootContext_eq {f loc : U32} {h : Handle} :
    Context.new.activate (cfg := cfg) (initArgs f loc h) = rootContext cfg f loc h := by
  unfold rootContext
  rw [bit_eq]
  rfl

theorem ParentUpd.next {st : State cfg} {c : DeriveCmd cfg} {p p' : Context cfg}
    (h : ParentUpd st c p p') (hp : p.state = .active) :
    ∃ hd s, p' = { p with handle := hd, state := s } ∧ ParentNext st c p hd s := by
  rcases h with ⟨h1, hh, hr, rfl⟩ | ⟨h1, rfl⟩
  · exact ⟨hh, .active, by rw [← hp], .inl ⟨h1, rfl, hr.next⟩⟩
  · exact ⟨Handle.invalid, .retired, rfl, .inr ⟨not_bit h1, rfl, rfl⟩⟩

theorem exec_outcome {env : Env cfg σ} {D : Bytes → Bytes → Prop} {c : Cmd cfg} {loc : U32}
    {s s' : Sys cfg σ} {r : Except Err Nat} (wf : WF s.st) (hD : Digests env.toOps D)
    (h : exec env c loc s = (r, s')) : Outcome env D s loc c r s' := by
  cases c with
  | getProfile =>
    rcases getProfileCmd_inv h with hu | ⟨b, w, h1, hs, hr⟩
    · exact .inl ⟨hu.1, hu.2.1⟩
    · refine .inr (.inl ⟨[], ⟨rfl, hs⟩, ?_⟩)
      have : ∃ t, b = hdrBytes cfg.profile .noError ++ (([] : List Handle).map Vector.toList).flatten ++ t := by
        simp only [getProfile, bind_iff, pure_iff] at h1
        rcases h1 with ⟨_, _, h1⟩ | ⟨_, _, _, h1⟩
        · cases h1
        · rcases h1 with ⟨_, _, h1⟩ | ⟨_, _, _, h1, _⟩
          · cases h1
          · cases h1; exact ⟨_, by simp only [profileBytes, List.append_assoc, List.map, List.flatten]; rfl⟩
      obtain ⟨t, ht⟩ := this
      refine hr.replies ht env _ ?_
      simp only [getProfile, bind_iff, pure_iff] at h1
      rcases h1 with ⟨_, _, h1⟩ | ⟨_, _, _, h1⟩
      · cases h1
      · rcases h1 with ⟨_, _, h1⟩ | ⟨_, _, _, h1, _⟩
        · cases h1
        · cases h1; simp [profileBytes, hdrBytes_length, le32_length, le16, Cmd.replyMax]
  | chain c =>
    rcases getCertChain_inv h with hu | ⟨len, chunk, _, _, _, hs, hr⟩
    · exact .inl ⟨hu.1, hu.2.1⟩
    · refine .inr (.inl ⟨[], ⟨rfl, hs⟩, hr.replies (tail := le32 len ++ chunk.toList) ?_ env _ ?_⟩)
      · simp [certChainBytes]
      · simp [certChainBytes, hdrBytes_length, le32_length, Cmd.replyMax]
  | init f =>
    rcases initCtx_inv h with hu | ⟨idx, hd, h1, h2, h3, h4, h5, hr⟩
    · exact .inl ⟨hu.1, hu.2.1⟩
    · have hff := firstFree_iff.mp h3
      refine .inr (.inl ⟨[hd], ⟨hd, rfl, idx, hff, ?_, ?_, ?_, ?_, ?_⟩,
        hr.replies (tail := []) (by simp [newHandleBytes]) env _
          (by simp [newHandleBytes, hdrBytes_length, Cmd.replyMax])⟩)
      · rw [h5, at_initPost hff.1, if_pos rfl, rootContext_eq]
      · intro j hj; rw [h5, at_initPost hff.1, if_neg hj]
      · rw [h5]; exact ⟨rfl, rfl, rfl, rfl⟩
      · rw [h5]
        show (s.st.hasInitialized || initDefaultFlag f) = true ↔ _
        rw [Bool.or_eq_true]; rfl
      · rw [Bool.or_eq_false_iff] at h1
        rcases h4 with ⟨h4, rfl⟩ | ⟨h4, hf⟩
        · rw [h4] at h1 h2
          left
          refine ⟨h4, ?_, by simpa using h1.1, rfl⟩
          intro hc
          have hc : initSimFlag f = true := hc
          rw [hc] at h2; cases h2
        · rw [h4, Bool.false_xor] at h2
          rw [h2] at h1
          right
          refine ⟨h2, ?_, by show simBit _ = true; simpa using h1.2, fresh_iff.mp hf⟩
          intro hc
          have hc : initDefaultFlag f = true := hc
          rw [hc] at h4; cases h4
  | rotate c =>
    rcases rotateCtx_inv h with hu | ⟨idx, old, hd, h1, h2, h3, h4, h5, hr⟩
    · exact .inl ⟨hu.1, hu.2.1⟩
    · obtain ⟨hres, rfl⟩ := resolves_content h2 h3
      refine .inr (.inl ⟨[hd], ⟨hd, rfl, idx, hres, by rw [h5]; exact setSlot_of hres.lt _, ?_⟩,
        hr.replies (tail := []) (by simp [newHandleBytes]) env _
          (by simp [newHandleBytes, hdrBytes_length, Cmd.replyMax])⟩)
      rcases h4 with ⟨ht, rfl, h6, h7⟩ | ⟨ht, h6⟩
      · refine .inl ⟨ht, rfl, fun j hj hl => nonDefaultExists_false h7 j hj hl (okOpt_none h6 j hj hl),
          okOpt_none h6 idx hres.1.1 hres.1.2.2⟩
      · exact .inr ⟨not_bit ht, fresh_iff.mp h6⟩
  | destroy hd =>
    rcases destroyCtx_inv h with hu | ⟨set, h1, h2, hr⟩
    · exact .inl ⟨hu.1, hu.2.1⟩
    · obtain ⟨idx, hf⟩ := destroySet_ok h1
      refine .inr (.inl ⟨[], ⟨rfl, idx, findActive_resolves hf, ?_⟩,
        hr.replies (tail := []) (by simp) env _ (by simp [hdrBytes_length, Cmd.replyMax])⟩)
      rw [h2]; exact destroyEffect_of wf h1 hf
  | certify c =>
    rcases certifyKey_inv h with hu | ⟨idx, ctx, hd, kind, res, w1, win, h1, h2, _, _, _, hg, hr, hs, hh⟩
    · exact .inl hu
    · obtain ⟨hres, rfl⟩ := resolves_content h1 h2
      have he : UseEffect s.st c.handle loc hd s'.st := by
        refine ⟨idx, hres, ?_, by rw [hs]; exact setSlot_of hres.lt _⟩
        have := hr.next; rwa [hres.1.2.1] at this
      rcases hh with ⟨hb, hh⟩ | ⟨hdr, hb, hh⟩
      · exact .inr (.inr (.inr ⟨c, hd, rfl, hh, he, _, _, _, _, _, _, _, hg, certifyHdrBytes_none hb⟩))
      · obtain ⟨t, ht⟩ := certifyHdrBytes_form hb
        exact .inr (.inl ⟨[hd], ⟨hd, rfl, he⟩, hh.replies_cert hg ht _ trivial (certifyHdrBytes_length hb)⟩)
  | sign c =>
    rcases signCmd_inv h with hu | ⟨data, idx, ctx, hd, sig, w1, _, h1, h2, _, _, hr, hs, hh⟩
    · exact .inl ⟨hu.1, hu.2.1⟩
    · obtain ⟨hres, rfl⟩ := resolves_content h1 h2
      obtain ⟨t, ht⟩ := signBytes_form cfg.profile hd sig
      refine .inr (.inl ⟨[hd], ⟨hd, rfl, idx, hres, ?_, by rw [hs]; exact setSlot_of hres.lt _⟩,
        hh.replies ht env _ (signBytes_length ..)⟩)
      have := hr.next; rwa [hres.1.2.1] at this
  | derive c =>
    rcases deriveCtx_inv h with hu | ⟨idx, p, h1, h2, h3, h4, h5⟩
    · exact .inl hu
    · obtain ⟨hres, rfl⟩ := resolves_content h2 h3
      have hact := hres.1.1
      have hlt := hres.lt
      rcases h5 with ⟨hrec, _, _, v, hd, w1, hv, hr, hs, hh⟩ | ⟨hrec, hu, p', hp, h5⟩
      · refine .inr (.inl ⟨[hd, Handle.default], ⟨idx, hd, _, rfl, hres, ?_⟩,
          hh.replies (tail := []) (by simp [deriveBytes]) env _
            (by simp [deriveBytes, hdrBytes_length, Cmd.replyMax]; split <;> omega)⟩)
        refine .recursive hrec ?_ ?_ (by rw [hs]; exact setSlot_of hlt _)
        · have := hD.hashAll hv; simpa using this
        · have := hr.next; rwa [hres.1.2.1] at this
      · have hrec' : ¬ Bit c.flags DFlag.recursive := not_bit hrec
        obtain ⟨hpd, ps, rfl, hpn⟩ := hp.next hact
        rcases h5 with ⟨hcc, hxc, u, ueid, res, _, _, _, win, st', now, _, _, _, hg, h6, hnow, hs, hh⟩ |
          ⟨hnx, k, hd, v, _, w1, w2, kids, h6, _, _, h7, h8, hv, h9, hs, hh⟩
        · rcases h6 with ⟨hret, hnc, h6⟩ | ⟨h6, rfl⟩
          · unfold destroyContext at h6
            rcases hset : destroySet s.st c.handle loc with e | set
            · rw [hset] at h6; cases h6
            · rw [hset] at h6; cases h6
              have hde := destroyEffect_of wf hset h2
              have hnow' : now.handle = Handle.invalid := by
                rw [← at_of_getElem? hnow, hde.1 idx (.inl rfl)]; rfl
              refine .inr (.inl ⟨[Handle.invalid, Handle.invalid], ⟨idx, _, _, rfl, hres, ?_⟩,
                hh.replies_cert hg (tail := res.exportedCdi.toList ++ le32 res.certSize)
                  (by simp [exportHdrBytes, hnow']) _ hxc
                  (by simp only [Cmd.replyMax]; rw [if_pos (show Bit c.flags DFlag.exportCdi from hxc)]; simp [exportHdrBytes, hdrBytes_length, le32_length])⟩)
              refine .exportedLast hrec' hxc hcc (not_bit hret) ?_
                (by rw [hs]; exact hde)
              intro j hj
              rw [hasChildren_iff.mpr ⟨j, hj⟩] at hnc; cases hnc
          · have hnow' : now.handle = hpd := by
              rw [← at_of_getElem? hnow, at_setCtx_self hlt]
            refine .inr (.inl ⟨[Handle.invalid, hpd], ⟨idx, _, _, rfl, hres, ?_⟩,
                hh.replies_cert hg (tail := res.exportedCdi.toList ++ le32 res.certSize)
                  (by simp [exportHdrBytes, hnow']) _ hxc
                  (by simp only [Cmd.replyMax]; rw [if_pos (show Bit c.flags DFlag.exportCdi from hxc)]; simp [exportHdrBytes, hdrBytes_length, le32_length])⟩)
            refine .exported hrec' hxc hcc (h6.imp id hasChildren_iff.mp) hpn ?_
            rw [hs]; exact setSlot_of hlt _
        · have hff := firstFree_iff.mp h6
          obtain ⟨_, hkids⟩ := addChild_ok h9
          have hki : k ≠ idx := by rintro rfl; rw [hff.2.1] at hact; cases hact
          refine .inr (.inl ⟨[hd, hpd], ⟨idx, _, _, rfl, hres, ?_⟩,
            hh.replies (tail := []) (by simp [deriveBytes]) env _
            (by simp [deriveBytes, hdrBytes_length, Cmd.replyMax]; split <;> omega)⟩)
          have hat := at_child (st := s.st) hlt hff.1 (childOf c (c.target loc) idx (s.st.at idx) hd v)
            { s.st.at idx with handle := hpd, state := ps, children := kids }
          refine .child (v := v) (s := ps) (k := k) (kids := kids) hrec' ?_ hff ?_ ?_ hpn ?_ ?_ ?_ ?_ ?_
          · intro h1
            have h1 : c.exportCdi = true := h1
            simp only [deriveBadArgs, Bool.or_eq_false_iff] at h4
            have h2 := h4.1.1.1.1.1.1.1.2
            rw [h1] at h2 hnx
            simp_all
          · have := hD.hashAll hv; simpa [Tci.new] using this
          · rcases h8 with ⟨h8, h⟩ | ⟨h8, h⟩
            · exact .inl ⟨h8, h⟩
            · exact .inr ⟨not_bit h8, fresh_iff.mp h⟩
          · intro j; rw [hkids, Bool.or_eq_true, decide_eq_true_eq]
            exact or_congr Iff.rfl eq_comm
          · rw [hs, hat, if_neg hki, if_pos rfl, childOf_eq hlt]
          · rw [hs, hat, if_pos rfl]
          · intro j hj1 hj2; rw [hs, hat, if_neg hj2, if_neg hj1]
          · rw [hs]; exact ⟨⟨rfl, rfl, rfl, rfl⟩, rfl⟩
  | update c =>
    rcases updateCtx_inv h with hu | ⟨idx, p, k, ch, v, hp, w1, hnd, h2, h3, h4, h5, hact', hv, hr, h6⟩
    · exact .inl ⟨hu.1, hu.2.1⟩
    · obtain ⟨hres, rfl⟩ := resolves_content h2 h3
      have hlt := hres.lt
      have hk := lt_of_getElem? h5
      have e5 := at_of_getElem? h5
      subst e5
      have hac := findChildOfType_mem h4
      have hne : k ≠ idx := by
        rintro rfl
        exact wf.no_self k hac.1
      have hfr : Unused s.st hp := by
        rcases hr with ⟨h, _⟩ | ⟨_, h⟩
        · rw [hres.1.2.1] at h; exact absurd h hnd
        · exact fresh_iff.mp h
      rcases h6 with ⟨⟨e, he, he2⟩, _, hcd, hs⟩ | ⟨hc, hr2, hs, hh⟩
      · exact .inr (.inr (.inl ⟨c, e, rfl, he, he2, idx, k, hp, hres, hnd, hac, hcd, hfr, by
          rw [hs]; exact setSlot_of hlt _⟩))
      · refine .inr (.inl ⟨[hc, hp], ⟨hc, hp, rfl, idx, k, v, hres, hnd, hac, hne, ?_, hfr, ?_, ?_,
          ?_, ?_, ?_⟩, hh.replies (tail := []) (by simp [updateBytes]) env _
            (by simp [updateBytes, hdrBytes_length, Cmd.replyMax])⟩)
        · have := hD.hashAll hv; simpa using this
        · refine hr2.imp id fun ⟨h1, h2⟩ => ?_
          have h2 := fresh_iff.mp h2
          refine ⟨h1, h2.1, ?_, ?_⟩
          · have := h2.2 idx hlt
            rw [at_setCtx_self hlt] at this
            exact fun e => this e.symm
          · intro j hj hji
            have := h2.2 j hj
            rwa [at_setCtx_ne hlt _ hji] at this
        · rw [hs, at_setCtx_ne hk _ (Ne.symm hne), at_setCtx_self hlt]
        · rw [hs, at_setCtx_self hk]
        · intro j h1 h2; rw [hs, at_setCtx_ne hk _ h2, at_setCtx_ne hlt _ h1]
        · rw [hs]; exact ⟨⟨rfl, rfl, rfl, rfl⟩, rfl⟩

end Dpe
