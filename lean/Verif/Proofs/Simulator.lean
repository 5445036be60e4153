import Verif.Spec.Simulator
import Verif.Proofs.DeviceAble
import Verif.Props.Faults
import Verif.Props.Response
import Verif.Props.Wire
import Verif.Props.Complete
import Verif.Props.Reference
import Verif.Props.Atomic
/-
The simulator's request handler on the reference device.
-/
namespace Dpe
variable {cfg : Cfg} {σ : Type}

/-! ### The chain loop ends -/

theorem device_ends {P : Prims} {a : Artifact} (ha : a.Fit) : ∀ (fuel off : Nat), off ≤ a.chain.length →
    (a.chain.length - off + 2047) / 2048 + 1 ≤ fuel → ∀ {w : Soft P × Unit},
    ¬ ChainGoes (softOps P (defaultPlatform a)) fuel (BitVec.ofNat 32 off) w := by
  have hl := ha.short
  intro fuel
  induction fuel with
  | zero => intro off _ h; omega
  | succ fuel ih =>
    rintro off ho hf ⟨w, v⟩ h
    cases h with
    | @succ _ _ len b _ _ w1 w2 h1 h2 h4 =>
      by_cases hc : off < a.chain.length
      · obtain ⟨chunk, g1, g2⟩ := defaultChain_in (size := 2048) hl hc (Nat.le_refl _)
        change defaultChain a.chain (BitVec.ofNat 32 off) 2048 = _ at g1
        have g1 := servesChain_default a _ _ v _ g1
        simp only [softOps, g1] at h1
        have e : BitVec.ofNat 32 (min 2048 (a.chain.length - off)) = len :=
          (Prod.mk.inj (Except.ok.inj (Prod.mk.inj h1).1)).1
        rw [← e, ← BitVec.ofNat_add] at h4
        by_cases hlast : a.chain.length - off ≤ 2048
        · have hfin : off + min 2048 (a.chain.length - off) = a.chain.length := by omega
          rw [hfin] at h4
          refine ih a.chain.length (Nat.le_refl _) ?_ h4
          omega
        · refine ih _ (by omega) ?_ h4
          have : min 2048 (a.chain.length - off) = 2048 := by omega
          rw [this]
          have : a.chain.length - (off + 2048) = (a.chain.length - off) - 2048 := by omega
          rw [this]
          omega
      · have : off = a.chain.length := by omega
        subst this
        have hout := default_outside ha (off := BitVec.ofNat 32 a.chain.length) (size := 2048)
          (Nat.le_of_eq (Nat.mod_eq_of_lt (by omega)).symm)
        have h1 := congrArg Prod.fst h1
        simp only [softOps, hout] at h1
        cases h1

/-! ### The bytes of an answer -/

theorem le32_toNat_inj {x y : U32} {a b : Bytes} (h : le32 x ++ a = le32 y ++ b) : x = y ∧ a = b := by
  have h1 := getU32_iff.2 h
  rw [getU32_iff.2 rfl] at h1
  exact Prod.mk.inj (Option.some.inj h1)

theorem partial_cut {A B C t z : Bytes} {n : U32} {f : Nat} {e : Internal} (hA : A.length = f)
    (hB : B.length = f) (ht : t.length ≤ 65539)
    (h : A ++ le32 n ++ C = B ++ le32 (BitVec.ofNat 32 t.length) ++ t ++ z) :
    partialBytes (A ++ le32 n ++ C) (f + 4) n e = .ok (B ++ le32 (BitVec.ofNat 32 t.length) ++ t) := by
  have h0 := h
  simp only [List.append_assoc] at h
  obtain ⟨_, h2⟩ := List.append_inj h (by omega)
  obtain ⟨rfl, _⟩ := le32_toNat_inj h2
  have e1 : (BitVec.ofNat 32 t.length).toNat = t.length := Nat.mod_eq_of_lt (by omega)
  have e2 : (B ++ le32 (BitVec.ofNat 32 t.length) ++ t).length = f + 4 + t.length := by
    simp only [List.length_append, le32_length, hB]
  rw [h0, partialBytes, e1, if_pos (by rw [List.length_append, e2]; omega), ← e2, List.take_left']
  rfl

theorem plain_partial {r : Resp cfg} {k : RespKind} (h : r.kind = some k) (hk : k ≠ .exported ∧ k ≠ .certify256 ∧
    k ≠ .certify384 ∧ k ≠ .certifyMl) : r.asBytesPartial = .ok r.asBytes := by
  cases r <;> first | rfl | (simp only [Resp.kind, Option.some.injEq] at h; subst h; simp at hk)

theorem full_partial {r : Resp cfg} {k : RespKind} {reply : Bytes} (h : r.kind = some k)
    (hk : k ≠ .exported ∧ k ≠ .certify256 ∧ k ≠ .certify384 ∧ k ≠ .certifyMl)
    (hl : reply.length = k.size cfg)
    (ho : r.asBytes = reply ++ (List.replicate (k.size cfg) 0).drop reply.length) :
    r.asBytesPartial = .ok reply := by
  rw [plain_partial h hk, ho, hl, List.drop_of_length_le (by simp), List.append_nil]

theorem partial_reply {ops : Ops σ} {st st' : State cfg} {loc : U32} {w w' : σ} {c : Cmd cfg} {reply : Bytes}
    {r : Resp cfg} (hg : Genuine cfg.profile ops) (hin : InProfile cfg c) (hno : NoRefusal (rules st loc c))
    (hs : Serves ops st loc w c reply st' w') (hk : r.kind = some c.respKind)
    (ho : r.asBytes = reply ++ (List.replicate (c.respKind.size cfg) 0).drop reply.length) :
    r.asBytesPartial = .ok reply := by
  cases c with
  | getProfile =>
    obtain ⟨vid, sku, _, _, _, _, rfl⟩ := hs
    exact full_partial hk (by simp [Cmd.respKind]) rfl ho
  | chain c =>
    obtain ⟨_, _, _, _, rfl⟩ := hs
    refine full_partial hk (by simp [Cmd.respKind]) ?_ ho
    simp [successBytes, le32, Cmd.respKind, RespKind.size]
  | init f =>
    obtain ⟨_, _, _, _, _, _, _, _, rfl⟩ := hs
    exact full_partial hk (by simp [Cmd.respKind]) (by rw [handlesReply_length]; rfl) ho
  | rotate c =>
    obtain ⟨_, _, _, _, _, rfl⟩ := hs
    exact full_partial hk (by simp [Cmd.respKind]) (by rw [handlesReply_length]; rfl) ho
  | destroy c =>
    obtain ⟨_, _, _, _, rfl⟩ := hs
    exact full_partial hk (by simp [Cmd.respKind]) (by rw [handlesReply_length]; rfl) ho
  | update c =>
    obtain ⟨_, _, _, _, _, _, _, _, _, _, _, _, _, _, _, rfl⟩ := hs
    exact full_partial hk (by simp [Cmd.respKind]) (by rw [handlesReply_length]; rfl) ho
  | sign c =>
    obtain ⟨_, _, key, sig, w1, w2, _, _, _, _, hsig, _, _, rfl⟩ := hs
    have hk' := hg.sign _ _ _ _ _ hsig
    refine full_partial hk ?_ ?_ ho
    · cases c <;> simp [Cmd.respKind]
    · cases c <;> simp only [InProfile] at hin
      case p256 => rw [hin] at hk'; cases sig <;> first | exact hk'.elim | simp [signReply, sigFields, successBytes, Cmd.respKind, RespKind.size]
      case p384 => rw [hin] at hk'; cases sig <;> first | exact hk'.elim | simp [signReply, sigFields, successBytes, Cmd.respKind, RespKind.size]
      all_goals rw [hin.1] at hk'; cases sig <;> first | exact hk'.elim | simp [signReply, sigFields, successBytes, Cmd.respKind, RespKind.size]
  | certify c =>
    obtain ⟨kind, D, w1, t, w2, hd, hf, hD, hI, hw, ht, _, _, rfl⟩ := hs
    have hB := keyFields_length hw
    cases c <;> cases r <;> simp only [Resp.kind, Cmd.respKind, Option.some.injEq, reduceCtorEq] at hk
    all_goals
      simp only [CertifyCmd.keyBytes] at hB
      refine partial_cut ?_ ?_ ht ho <;> simp [RespHdr.asBytes_length, successBytes, hB]
  | derive c =>
    obtain ⟨i, hr, hs⟩ := hs
    split at hs
    · rename_i hrec
      have hx : ¬ Bit c.flags DFlag.exportCdi := by
        intro hx
        simp only [NoRefusal, rules, earlyRules, lateRules, lookupRules, List.cons_append, List.nil_append,
          List.append_nil, List.mem_cons, List.not_mem_nil, or_false, forall_eq_or_imp, forall_eq] at hno
        exact hno.2.2.2.1 ⟨i, hr, .inr (.inl ⟨hx, .inr (.inl hrec)⟩)⟩
      obtain ⟨_, _, _, _, _, _, rfl⟩ := hs
      have hx : c.exportCdi = false := Bool.eq_false_iff.2 hx
      simp only [Cmd.respKind, hx] at hk ho
      exact full_partial hk (by simp) (by rw [handlesReply_length]; rfl) ho
    · split at hs
      · rename_i hx
        obtain ⟨_, _, _, u, k, w1, D, w2, t, cdi, _, _, hk', _, hD, hI, ht, _, _, rfl⟩ := hs
        have hx : c.exportCdi = true := hx
        simp only [Cmd.respKind, hx, if_true] at hk ho
        cases r <;> simp only [Resp.kind, Option.some.injEq, reduceCtorEq] at hk
        refine partial_cut ?_ ?_ ht ho <;> simp [RespHdr.asBytes_length, successBytes]
      · rename_i hx
        have hx : c.exportCdi = false := Bool.eq_false_iff.2 hx
        obtain ⟨_, _, _, _, _, _, _, _, _, _, _, _, _, _, _, _, _, rfl⟩ := hs
        simp only [Cmd.respKind, hx] at hk ho
        exact full_partial hk (by simp) (by rw [handlesReply_length]; rfl) ho

/-! ### Reading a request -/

theorem wire_short {a : Artifact} (hb : Built cfg a) {c : Cmd cfg} {prof : U32} : (wire prof c).length ≤ 2000 := by
  have h : cfg.tciSize ≤ 48 := by rw [hb.tci]; cases cfg.profile <;> decide
  cases c with
  | certify c => cases c <;> simp [wire, wireHeader, wireBody, word]
  | sign c => cases c <;> simp [wire, wireHeader, wireBody, word]
  | _ => simp [wire, wireHeader, wireBody, word] <;> omega

theorem aligned_four {addr : Nat} {c : Cmd cfg} : Aligned (addr + 4) c ↔ Aligned addr c := by
  unfold Aligned
  rw [Nat.add_mod_right]

/-- A request is a word and bytes that decode. -/
theorem request_iff {a : Artifact} (hb : Built cfg a) {addr : Nat} {sent : Bytes} {loc : U32} {c : Cmd cfg} :
    IsRequest addr sent loc c ↔ ∃ b, getU32 (sent.take 4096) = some (loc, b) ∧ decode cfg (addr + 4) b = .ok c := by
  constructor
  · rintro ⟨prof, rest, rfl, h1, h2, h3⟩
    have hl := wire_short (prof := prof) (c := c) hb
    have hw : (word loc ++ wire prof c).length = 4 + (wire prof c).length := by simp [word]; omega
    refine ⟨wire prof c ++ rest.take (4092 - (wire prof c).length), ?_, ?_⟩
    · rw [getU32_iff, List.take_append, List.take_of_length_le (by omega), hw, List.append_assoc, word_eq]
      congr 3
      omega
    · exact (C34_accepts _ _ _).2 ⟨prof, _, rfl, h1, h2, aligned_four.2 h3⟩
  · rintro ⟨b, h1, h2⟩
    obtain ⟨prof, rest, rfl, h3, h4, h5⟩ := (C34_accepts _ _ _).1 h2
    rw [getU32_iff] at h1
    refine ⟨prof, rest ++ sent.drop 4096, ?_, h3, h4, aligned_four.1 h5⟩
    have e := List.take_append_drop 4096 sent
    rw [h1] at e
    rw [word_eq, ← List.append_assoc, List.append_assoc (le32 loc)]
    exact e.symm

theorem IsRequest.unique {a : Artifact} (hb : Built cfg a) {addr : Nat} {sent : Bytes} {loc loc' : U32}
    {c c' : Cmd cfg} (h : IsRequest addr sent loc c) (h' : IsRequest addr sent loc' c') : loc = loc' ∧ c = c' := by
  obtain ⟨b, h1, h2⟩ := (request_iff hb).1 h
  obtain ⟨b', h1', h2'⟩ := (request_iff hb).1 h'
  rw [h1] at h1'
  obtain ⟨rfl, rfl⟩ := Prod.mk.inj (Option.some.inj h1')
  rw [h2] at h2'
  exact ⟨rfl, Except.ok.inj h2'⟩

/-! ### Errors -/

theorem FirstRefusal.left {l l' : List Rule} {e : Err} (h : FirstRefusal l e) : FirstRefusal (l ++ l') e := by
  induction l with
  | nil => exact h.elim
  | cons x l ih =>
    rcases h with h | ⟨h1, h2⟩
    · exact .inl h
    · exact .inr ⟨h1, ih h2⟩

theorem FirstRefusal.right {l l' : List Rule} {e : Err} (hn : NoRefusal l) (h : FirstRefusal l' e) :
    FirstRefusal (l ++ l') e := by
  induction l with
  | nil => exact h
  | cons x l ih =>
    exact .inr ⟨hn x (List.mem_cons_self ..), ih fun y hy => hn y (List.mem_cons_of_mem _ hy)⟩

theorem blame {ops : Ops σ} {c : Cmd cfg} {loc : U32} {s s' : Sys cfg σ} {e : Err} (hst : InService s.st)
    (hd : c.makesCert → AlgorithmFits cfg ops ∧ SerialGiven ops)
    (h : exec (ops.env cfg) c loc s = (.error e, s')) : Blamed ops s loc c e := by
  rcases exec_verdict hst.wf h with ⟨e', h1, h2, _⟩ | ⟨h0, ⟨e', h1, _, _, h2⟩ | ⟨h1, h2⟩⟩
  · cases h2; exact .inl h1.left
  · rcases h2 with h2 | ⟨d, e', h4, h5, h6, h2, h3⟩
    · cases h2; exact .inl (h1.right h0)
    · cases h2; exact .inr (.inl ⟨d, h4, h5, h6, h0, h3⟩)
  · rcases h2 with ⟨n, h2⟩ | ⟨e', h2, h3⟩
    · cases h2
    · cases h2
      exact .inr (.inr ⟨NoRefusal.append.mpr ⟨h0, h1⟩, env_fault hst hd h3⟩)

/-! ### What a failure leaves behind -/

theorem signReply_length {p : Profile} {h : Handle} {sig : Sig} {c : SignCmd} (hp : p = cfg.profile)
    (hk : SigOf p sig) (hin : InProfile cfg (.sign c)) :
    (signReply p h sig).length = (Cmd.respKind (cfg := cfg) (.sign c)).size cfg := by
  subst hp
  cases c <;> simp only [InProfile] at hin
  case p256 => rw [hin] at hk ⊢; cases sig <;> first | exact hk.elim | simp [signReply, sigFields, successBytes, Cmd.respKind, RespKind.size]
  case p384 => rw [hin] at hk ⊢; cases sig <;> first | exact hk.elim | simp [signReply, sigFields, successBytes, Cmd.respKind, RespKind.size]
  all_goals rw [hin.1] at hk ⊢; cases sig <;> first | exact hk.elim | simp [signReply, sigFields, successBytes, Cmd.respKind, RespKind.size]

theorem failure_keeps {ops : Ops σ} {c : Cmd cfg} {loc : U32} {s s' : Sys cfg σ} {e : Err} (hst : InService s.st)
    (hf : AlgorithmFits cfg ops) (hser : SerialGiven ops) (hg : Genuine cfg.profile ops) (hin : InProfile cfg c)
    (hout : s.out.length = c.respKind.size cfg) (h : exec (ops.env cfg) c loc s = (.error e, s')) :
    s'.st = s.st ∨ ∃ u, c = .update u ∧ HalfUpdate s.st u loc s'.st := by
  have hfits : ∀ (hc : ∀ k, c ≠ .sign k), ¬ NoFit (ops.env cfg) s c := by
    rintro hc (h1 | ⟨_, kind, args, w, base, h1⟩)
    · rw [hout] at h1
      cases c with
      | sign k => exact hc k rfl
      | certify k => cases k <;> simp [Cmd.replyMax, Cmd.respKind, RespKind.size] at h1 <;> omega
      | derive k =>
        by_cases hx : Bit k.flags DFlag.exportCdi
        · have hx' : k.exportCdi = true := hx
          simp [Cmd.replyMax, Cmd.respKind, RespKind.size, hx, hx'] at h1
          omega
        · have hx' : k.exportCdi = false := Bool.eq_false_iff.2 hx
          simp [Cmd.replyMax, Cmd.respKind, RespKind.size, hx, hx'] at h1
      | _ => simp [Cmd.replyMax, Cmd.respKind, RespKind.size] at h1
    · rcases hg : (ops.env cfg).certGen kind args s.st w (s.out.drop base) with ⟨x, win'⟩
      have := env_keeps cfg ops kind args s.st w (s.out.drop base) x win' hg
      rw [hg] at h1
      simp only at h1
      omega
  by_cases hc : ∃ k, c = .sign k
  · obtain ⟨k, rfl⟩ := hc
    left
    rcases signCmd_inv (show signCmd ops k loc s = _ from h) with h1 | ⟨data, i, ctx, hd, sig, w1, _, h2, _, _, h3, _, _, h4⟩
    · exact h1.2.1
    · exfalso
      have hr := findActive_iff.1 h2
      obtain ⟨l, hp⟩ := hst.wf.links.path i (live_of_active hr.1.1)
      obtain ⟨key, _, _, _, h5, _⟩ := (signWith_iff hp).1 h3
      have hl := signReply_length (h := hd) rfl (hg.sign _ _ _ _ _ h5) hin
      rcases h4 with ⟨h4, _⟩ | ⟨_, h4, _⟩
      · cases h4
      · rw [signBytes_eq, hl] at h4
        omega
  · rcases C10_partial hst (digests_true _) h with h1 | ⟨_, h1, _⟩ | ⟨_, u, h0, h1⟩ | ⟨_, k, hd, h0, _, h1⟩
    · exact .inl h1
    · exact absurd h1 (hfits fun k hk => hc ⟨k, hk⟩)
    · exact .inr ⟨u, h0, h1⟩
    · exfalso
      subst h0
      obtain ⟨kind, a, w, D, w', hD, hk⟩ := wrongKey_drafted hst hf hser h1
      have hk' := Drafted.keyOf hg hD
      cases k <;> simp only [InProfile] at hin <;> rw [hin] at hk' <;> cases hkey : D.key <;> rw [hkey] at hk hk' <;>
        first | exact hk'.elim | exact hk rfl

theorem Serves.begins {ops : Ops σ} {st st' : State cfg} {loc : U32} {w w' : σ} {c : Cmd cfg} {reply : Bytes}
    (h : Serves ops st loc w c reply st' w') : ∃ rest, reply = successBytes cfg.profile ++ rest := by
  cases c with
  | getProfile => obtain ⟨_, _, _, _, _, _, rfl⟩ := h; simp only [profileReply, List.append_assoc]; exact ⟨_, rfl⟩
  | chain c => obtain ⟨_, _, _, _, rfl⟩ := h; simp only [List.append_assoc]; exact ⟨_, rfl⟩
  | init f => obtain ⟨_, _, _, _, _, _, _, _, rfl⟩ := h; exact ⟨_, rfl⟩
  | rotate c => obtain ⟨_, _, _, _, _, rfl⟩ := h; exact ⟨_, rfl⟩
  | destroy c => obtain ⟨_, _, _, _, rfl⟩ := h; exact ⟨_, rfl⟩
  | update c => obtain ⟨_, _, _, _, _, _, _, _, _, _, _, _, _, _, _, rfl⟩ := h; exact ⟨_, rfl⟩
  | sign c => obtain ⟨_, _, _, sig, _, _, _, _, _, _, _, _, _, rfl⟩ := h; simp only [signReply, List.append_assoc]; exact ⟨_, rfl⟩
  | certify c =>
    obtain ⟨kind, D, w1, t, w2, hd, hf, hD, hI, hw, _, _, _, rfl⟩ := h
    simp only [certifyReply, List.append_assoc]; exact ⟨_, rfl⟩
  | derive c =>
    obtain ⟨i, _, h⟩ := h
    split at h
    · obtain ⟨_, _, _, _, _, _, rfl⟩ := h; exact ⟨_, rfl⟩
    · split at h
      · obtain ⟨_, _, _, u, k, w1, D, w2, t, _, _, _, hk, _, hD, hI, _, _, _, rfl⟩ := h
        simp only [exportReply, List.append_assoc]; exact ⟨_, rfl⟩
      · obtain ⟨_, _, _, _, _, _, _, _, _, _, _, _, _, _, _, _, _, rfl⟩ := h; exact ⟨_, rfl⟩

/-! ### Starting -/

theorem setFlag_bit {n : Nat} (x : BitVec n) (k i : Nat) (v : Bool) (hi : i < n) :
    (setFlag x (BitVec.twoPow n k) v).getLsbD i = if i = k then v else x.getLsbD i := by
  by_cases h : i = k
  · subst h
    rw [if_pos rfl]
    cases v <;> simp [setFlag, hi]
  · rw [if_neg h]
    cases v <;> simp [setFlag, hi, h]

theorem support_bit (args : SimArgs) {f : Nat} (hf : f < 32) : Bit args.support f ↔ args.asks f := by
  unfold Bit SimArgs.support SimArgs.asks
  simp only [show (0x80000000 : U32) = BitVec.twoPow 32 31 by decide,
    show (0x20000000 : U32) = BitVec.twoPow 32 29 by decide, show (0x04000000 : U32) = BitVec.twoPow 32 26 by decide,
    show (0x02000000 : U32) = BitVec.twoPow 32 25 by decide, show (0x40000000 : U32) = BitVec.twoPow 32 30 by decide,
    show (0x08000000 : U32) = BitVec.twoPow 32 27 by decide, show (0x00200000 : U32) = BitVec.twoPow 32 21 by decide,
    show (0x00400000 : U32) = BitVec.twoPow 32 22 by decide, show (0x00080000 : U32) = BitVec.twoPow 32 19 by decide,
    show (0x00040000 : U32) = BitVec.twoPow 32 18 by decide, setFlag_bit _ _ _ _ hf, Feature.simulation,
    Feature.recursive, Feature.autoInit, Feature.rotate, Feature.x509, Feature.csr, Feature.internalInfo,
    Feature.internalDice, Feature.retainParent, Feature.cdiExport, List.mem_cons, Prod.mk.injEq, List.not_mem_nil, or_false]
  have e0 : (0 : U32).getLsbD f = false := by simp
  rw [e0]
  split_ifs <;> simp_all

theorem flags_eq (args : SimArgs) : args.flags = if args.critical then 0x8000 else 0 := by
  unfold SimArgs.flags
  cases args.critical <;> decide

/-! ### Handling a request -/

theorem handle_cases {L : Lib} {a : Artifact} (hL : L.Total) (ha : a.Fit) (hb : Built cfg a)
    (hm : cfg.maxCertSize % 4 = 0) {addr : Nat} {sent : Bytes} {ans : Option Bytes}
    {s s' : Sys cfg (Soft (L.crypto cfg.profile) × Unit)} (hst : InService s.st)
    (h : handleRequest ((device L a cfg.profile).env cfg) addr sent s = (ans, s')) :
    ((¬ ∃ loc, ∃ c : Cmd cfg, IsRequest addr sent loc c) ∧ ans = none ∧ s' = s) ∨
    ∃ loc c b, IsRequest addr sent loc c ∧ ans = some b ∧ s'.out = s.out ∧ InService s'.st ∧
      (Succeeds (device L a cfg.profile) s.st loc s.w c b s'.st s'.w ∨
        ((¬ ∃ reply st' w', Succeeds (device L a cfg.profile) s.st loc s.w c reply st' w') ∧
          ∃ e, b = errorAnswer cfg.profile e ∧ statusWord e ≠ 0 ∧
            Blamed (device L a cfg.profile) { s with out := List.replicate (c.respKind.size cfg) 0 } loc c e ∧
            (s'.st = s.st ∨ ∃ u, c = .update u ∧ HalfUpdate s.st u loc s'.st))) := by
  obtain ⟨hfit, hser, _, hg, _⟩ := C58_meets (cfg := cfg) (L := L) hL ha 0
  have hd : ∀ c : Cmd cfg, c.makesCert → _ := fun _ _ => And.intro hfit hser
  unfold handleRequest at h
  rcases hu : getU32 (sent.take 4096) with _ | ⟨loc, cmd⟩
  · rw [hu] at h
    cases h
    refine .inl ⟨?_, rfl, rfl⟩
    rintro ⟨loc, c, hr⟩
    obtain ⟨b, h1, _⟩ := (request_iff hb).1 hr
    rw [hu] at h1; cases h1
  · rw [hu] at h
    simp only at h
    rcases hx : executeSerialized ((device L a cfg.profile).env cfg) loc (addr + 4) cmd s with ⟨res, s1⟩
    rw [hx] at h
    rcases C35_reports hst (env_keeps cfg _) (env_names cfg _) hm hx with
      ⟨e, rfl, hdec, _, rfl⟩ | ⟨c, y, s2, hdec, hex, rfl, hout⟩
    · cases h
      refine .inl ⟨?_, rfl, rfl⟩
      rintro ⟨loc', c, hr⟩
      obtain ⟨b, h1, h2⟩ := (request_iff hb).1 hr
      rw [hu] at h1
      cases h1
      rw [hdec] at h2; cases h2
    · have hreq : IsRequest addr sent loc c := (request_iff hb).2 ⟨cmd, hu, hdec⟩
      have hin : InProfile cfg c := by obtain ⟨_, _, _, _, h, _⟩ := hreq; exact h
      have hreach : InService s2.st := by
        have := InService.step ((device L a cfg.profile).env cfg) c loc s.st s.w
          (List.replicate (c.respKind.size cfg) 0) hst
        rw [show exec ((device L a cfg.profile).env cfg) c loc ⟨s.st, s.w, List.replicate (c.respKind.size cfg) 0⟩ =
          (y, s2) from hex] at this
        exact this
      right
      rcases hout with ⟨n, r, rfl, rfl, hb1, ⟨k, hk, hkc⟩, _⟩ | ⟨e, rfl, rfl, hcode⟩ | ⟨rfl, rfl⟩
      · rw [respondsIn_iff] at hkc
        subst hkc
        obtain ⟨hno, reply, st', w', hs, hl, rfl, rfl⟩ := (C57_exact
          (s := { s with out := List.replicate (c.respKind.size cfg) 0 }) hst (hd c)).1 hex
        have hp := partial_reply hg hin hno hs hk hb1
        simp only [hp] at h
        cases h
        exact ⟨loc, c, reply, hreq, rfl, rfl, hreach, .inl ⟨hno, hs, by simpa using hl⟩⟩
      · have hp : (Resp.error (cfg := cfg) ⟨0x44504552, statusWord e, cfg.profile⟩).asBytesPartial =
            .ok (errorAnswer cfg.profile e) := by
          show Except.ok (le32 0x44504552 ++ le32 (statusWord e) ++ le32 cfg.profile.code) = _
          rw [errorAnswer, word_eq, word_eq, show le32 0x44504552 = [0x52, 0x45, 0x50, 0x44] by decide]
          cases cfg.profile <;> rfl
        simp only [hp] at h
        cases h
        refine ⟨loc, c, _, hreq, rfl, rfl, hreach, .inr ⟨?_, e, rfl, hcode, blame hst (hd c) hex,
          failure_keeps (s := { s with out := List.replicate (c.respKind.size cfg) 0 }) hst hfit hser hg hin
            (List.length_replicate ..) (s' := s2) hex⟩⟩
        rintro ⟨reply, st', w', hno, hs, hl⟩
        have := (C57_exact (s := { s with out := List.replicate (c.respKind.size cfg) 0 }) hst (hd c)).2
          ⟨hno, reply, st', w', hs, by simpa using hl, rfl, rfl⟩
        rw [hex] at this
        cases (Prod.mk.inj this).1
      · exfalso
        obtain ⟨_, w, hgo⟩ := C49_no_panic_all
          (s := { s with out := List.replicate (c.respKind.size cfg) 0 }) hst (hd c) hex
        have hf := hb.fuel
        exact device_ends ha cfg.diceFuel 0 (Nat.zero_le _) (by omega) hgo

end Dpe
