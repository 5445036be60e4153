import Verif.Proofs.Client
/-
C61 to C65: the Go client, connected to the simulator.
-/
namespace Dpe

section
variable {cfg : Cfg} {L : Lib} {a : Artifact} {addr : Nat} {loc : U32} {c : Client} {k : GoCall} {cmd : Cmd cfg}
  {s : Sys cfg (Soft (L.crypto cfg.profile) × Unit)}

/-! ### C62: connecting -/

theorem newClient_cases {τ : Type} {t : Transport τ} {x : τ} {q : Profile} {n f : U32}
    (hg : goGetProfile t x = (.ok ⟨wireProfile q, 0, 13, 0, 0, n, f⟩, x)) (p : U32) :
    (p = wireProfile q → newClient t p x = (.ok ⟨clientKind q, codesV09, p, 0, 13, 0, 0, 0, f⟩, x)) ∧
    (p ≠ wireProfile q → (1 ≤ p.toNat ∧ p.toNat ≤ 5) → newClient t p x = (.error .wrongProfile, x)) := by
  constructor
  · rintro rfl
    unfold newClient newDPEABI
    rw [hg]
    cases q <;> rfl
  · intro hne hp
    have : p = 1 ∨ p = 2 ∨ p = 3 ∨ p = 4 ∨ p = 5 := by
      have : p.toNat = 1 ∨ p.toNat = 2 ∨ p.toNat = 3 ∨ p.toNat = 4 ∨ p.toNat = 5 := by omega
      rcases this with h | h | h | h | h <;> rw [← u32_eta p, h] <;> simp
    unfold newClient newDPEABI
    rw [hg]
    cases q <;> rcases this with rfl | rfl | rfl | rfl | rfl <;> first | rfl | exact absurd rfl hne

theorem newClient_none {τ : Type} {t : Transport τ} {x : τ} {p : U32} (hp : ¬ (1 ≤ p.toNat ∧ p.toNat ≤ 5)) :
    newClient t p x = (.error .noClient, x) := by
  unfold newClient
  rw [if_neg (by rintro rfl; exact hp (by decide)), if_neg (by rintro rfl; exact hp (by decide)),
    if_neg (by rintro rfl; exact hp (by decide)), if_neg (by rintro rfl; exact hp (by decide)),
    if_neg (by rintro rfl; exact hp (by decide))]

/-- C62: asked for a profile, the client connects exactly if it is the profile of the instance.  It then
knows the instance's profile, version, vendor and features, and the instance has not changed.  For another
profile of the five it reports that; for any other number it has no client, and sends nothing. -/
theorem C62_connects_partial (hL : L.Total) (ha : a.Fit) (hb : Built cfg a) (hs : cfg.Standard)
    (hst : InService s.st) (hal : addr % 4 = 0) (p : U32) :
    (p = wireProfile cfg.profile →
      ∃ c, newClient (simSend ((device L a cfg.profile).env cfg) loc addr) p (some s) = (.ok c, some s) ∧
        c.profile = p ∧ c.major = 0 ∧ c.minor = 13 ∧ c.vendorId = 0 ∧ c.vendorSku = 0 ∧
        c.flags = s.st.support) ∧
    (p ≠ wireProfile cfg.profile → (1 ≤ p.toNat ∧ p.toNat ≤ 5) →
      newClient (simSend ((device L a cfg.profile).env cfg) loc addr) p (some s) = (.error .wrongProfile, some s)) ∧
    (¬ (1 ≤ p.toNat ∧ p.toNat ≤ 5) →
      ∀ (τ : Type) (t : Transport τ) (x : τ), newClient t p x = (.error .noClient, x)) := by
  have hg := getProfile_sim (loc := loc) hL ha hb hs.rounded hst hal
  obtain ⟨h1, h2⟩ := newClient_cases hg p
  refine ⟨fun h => ⟨_, h1 h, rfl, rfl, rfl, rfl, rfl, rfl⟩, h2, fun hp τ t x => newClient_none hp⟩

theorem Connected.fits (hL : L.Total) (ha : a.Fit) (hb : Built cfg a) (hs : cfg.Standard)
    (h : Connected L a cfg c) : c.Fits cfg ∧ c.maxTci = 0 := by
  obtain ⟨p, loc, addr, s, x, hst, hal, h⟩ := h
  have hg := getProfile_sim (loc := loc) hL ha hb hs.rounded hst hal
  obtain ⟨h1, h2⟩ := newClient_cases hg p
  by_cases hp : p = wireProfile cfg.profile
  · rw [h1 hp] at h
    cases h
    exact ⟨⟨rfl, rfl, hp⟩, rfl⟩
  · by_cases hr : 1 ≤ p.toNat ∧ p.toNat ≤ 5
    · rw [h2 hp hr] at h; cases h
    · rw [newClient_none hr] at h; cases h

/-- C62 fails for the number of contexts: no client that connects has it right. -/
theorem C62_count_wrong (hL : L.Total) (ha : a.Fit) (hb : Built cfg a) (hs : cfg.Standard)
    (h : Connected L a cfg c) : c.maxTci.toNat ≠ cfg.maxHandles := by
  rw [(h.fits hL ha hb hs).2]
  have := cfg.pos
  show (0 : Nat) ≠ _
  omega

/-! ### C61: calls -/

/-- C61: every call has arguments that the client rejects, or stands for exactly one command of the
instance, or is one of the two that are sent although the instance has no such command. -/
theorem C61_means (hs : cfg.Standard) (k : GoCall) :
    Malformed cfg.profile k ∨ Deadly cfg k ∨ ∃ cmd : Cmd cfg, Means k cmd ∧ InProfile cfg cmd := by
  have arr : ∀ {n : Nat} (l : Bytes), l.length = n → ∃ v : BArr n, v.toList = l := fun l h =>
    ⟨⟨l.toArray, by simpa using h⟩, by simp⟩
  cases k with
  | «initialize» f => exact .inr (.inr ⟨_, .initialize f, trivial⟩)
  | getProfile => exact .inr (.inr ⟨_, .getProfile, trivial⟩)
  | destroy h => exact .inr (.inr ⟨_, .destroy h, trivial⟩)
  | rotate h f =>
    by_cases hd : Bit cfg.disabled Feature.rotate
    · exact .inr (.inl hd)
    · exact .inr (.inr ⟨_, .rotate h f, hd⟩)
  | certifyKey h l y f =>
    by_cases hl : l.length = labelSize cfg.profile
    · right; right
      cases hp : cfg.profile <;> rw [hp] at hl <;> obtain ⟨v, rfl⟩ := arr l hl
      · exact ⟨_, .certify256 h v y f, hp⟩
      · exact ⟨_, .certify384 h v y f, hp⟩
      · exact ⟨_, .certifyMl h v y f, hp⟩
    · exact .inl hl
  | derive h d f y l =>
    by_cases hl : d.length = digestLength cfg.profile
    · obtain ⟨v, rfl⟩ := arr d (hl.trans hs.tci.symm)
      exact .inr (.inr ⟨_, .derive h v f y l, trivial⟩)
    · exact .inl hl
  | update h d y =>
    by_cases hl : d.length = digestLength cfg.profile
    · obtain ⟨v, rfl⟩ := arr d (hl.trans hs.tci.symm)
      exact .inr (.inr ⟨_, .update h v y, trivial⟩)
    · exact .inl hl
  | sign h l f d =>
    by_cases hl : l.length = labelSize cfg.profile
    · by_cases hd : d.length = signDataSize cfg.profile
      · right
        cases hp : cfg.profile <;> rw [hp] at hl hd <;> obtain ⟨v, rfl⟩ := arr l hl <;>
          obtain ⟨u, rfl⟩ := arr d hd
        · exact .inr ⟨_, .sign256 h v f u, hp⟩
        · exact .inr ⟨_, .sign384 h v f u, hp⟩
        · by_cases hf : Bit f 0
          · exact .inl ⟨hp, hf⟩
          · exact .inr ⟨_, .signMl h v f u, hp, hf⟩
      · exact .inl (.inr hd)
    · exact .inl (.inl hl)
  | signRaw h l m =>
    by_cases hp : cfg.profile = .mldsa87
    · by_cases hl : l.length = labelSize cfg.profile
      · by_cases hm : m.length ≤ 1024
        · right; right
          rw [hp] at hl
          obtain ⟨v, rfl⟩ := arr l hl
          obtain ⟨d, hd⟩ := arr (n := 1024) (m ++ List.replicate (1024 - m.length) 0) (by simp; omega)
          refine ⟨_, .signRaw h v m d ⟨_, hd⟩, hp, by decide, ?_⟩
          rw [BitVec.toNat_ofNat, Nat.mod_eq_of_lt (by omega)]
          exact hm
        · exact .inl (.inr (.inr (by omega)))
      · exact .inl (.inr (.inl hl))
    · exact .inl (.inl hp)

theorem means_one {k' : GoCall} {cmd' : Cmd cfg} (h : Means k cmd) (h' : Means k' cmd') (e : k = k')
    (hin : InProfile cfg cmd) (hin' : InProfile cfg cmd') : cmd = cmd' := by
  cases h <;> cases h' <;> (try simp only [reduceCtorEq] at e) <;> simp_all [InProfile, Vector.toList_inj]
  exact Vector.toList_inj.1 ((newDigest_padded (by assumption)).symm.trans (newDigest_padded (by assumption)))

/-- C61: the command that a call stands for is unique in the instance. -/
theorem C61_means_one {cmd' : Cmd cfg} (h : Means k cmd) (h' : Means k cmd') (hin : InProfile cfg cmd)
    (hin' : InProfile cfg cmd') : cmd = cmd' := means_one h h' rfl hin hin'

variable (hL : L.Total) (ha : a.Fit) (hb : Built cfg a) (hs : cfg.Standard) (hc : Connected L a cfg c)
  (hst : InService s.st)
include hL ha hb hs hc

/-- C61: a call whose command succeeds returns what the command's reply says, and the instance is left as
the command leaves it. -/
theorem C61_served (hst : InService s.st) (hal : addr % 4 = 0) (hm : Means k cmd) (hin : InProfile cfg cmd)
    {reply : Bytes} {st' : State cfg} {w' : Soft (L.crypto cfg.profile) × Unit}
    (h : Succeeds (device L a cfg.profile) s.st loc s.w cmd reply st' w') :
    ∃ v, c.call (simSend ((device L a cfg.profile).env cfg) loc addr) k (some s) =
        (.ok v, some ⟨st', w', s.out⟩) ∧ Answer cfg k reply v := by
  have hf := (hc.fits hL ha hb hs).1
  obtain ⟨_, _, _, hg, _⟩ := C58_meets (cfg := cfg) (L := L) hL ha 0
  obtain ⟨prof, post, hp, hcall, _, _, hpost⟩ := exchange (ops := device L a cfg.profile) hf hs hg hm hin
  obtain ⟨v, hv, hans⟩ := hpost _ _ _ _ _ _ h
  refine ⟨v, ?_, hans⟩
  rw [hcall, send_served hL ha hb hs.rounded hst hal hp hin h]
  simp only [hv]

/-- C61: a call whose command fails returns the command's error, which has a proper cause; the instance is
left as it was, apart from an update that was cut short. -/
theorem C61_failed (hst : InService s.st) (hal : addr % 4 = 0) (hm : Means k cmd) (hin : InProfile cfg cmd)
    (h : ¬ ∃ reply st' w', Succeeds (device L a cfg.profile) s.st loc s.w cmd reply st' w') :
    ∃ e s', c.call (simSend ((device L a cfg.profile).env cfg) loc addr) k (some s) =
        (.error (.status (statusWord e)), some s') ∧ statusWord e ≠ 0 ∧
      Blamed (device L a cfg.profile) ⟨s.st, s.w, List.replicate (cmd.respKind.size cfg) 0⟩ loc cmd e ∧
      (s'.st = s.st ∨ ∃ u, cmd = .update u ∧ HalfUpdate s.st u loc s'.st) := by
  have hf := (hc.fits hL ha hb hs).1
  obtain ⟨_, _, _, hg, _⟩ := C58_meets (cfg := cfg) (L := L) hL ha 0
  obtain ⟨prof, post, hp, hcall, herr, _, _⟩ := exchange (ops := device L a cfg.profile) hf hs hg hm hin
  obtain ⟨e, s', h1, h2, h3⟩ := send_failed hL ha hb hs.rounded hst hal hp hin h
  refine ⟨e, s', ?_, h2, h3⟩
  rw [hcall, h1]
  simp only [herr e h2]

/-- C61: a call with arguments of a wrong size, or that the profile does not have, is rejected before
anything is sent, over any transport. -/
theorem C61_malformed {τ : Type} (t : Transport τ) (x : τ) (h : Malformed cfg.profile k) :
    ∃ e, (e = .length ∨ e = .notImplemented) ∧ c.call t k x = (.error e, x) := by
  have hf := (hc.fits hL ha hb hs).1
  have hd := hf.digest
  have hlab : labelSize cfg.profile = c.kind.digest := by rw [hd]; cases cfg.profile <;> rfl
  have hsd : signDataSize cfg.profile = c.kind.signData := by rw [hf.kind]; cases cfg.profile <;> rfl
  cases k <;> simp only [Malformed, hlab, hsd, ← hd] at h
  · exact ⟨.length, .inl rfl, by simp only [Client.call, Client.certifyKey]; rw [if_pos h]⟩
  · exact ⟨.length, .inl rfl, by simp only [Client.call, Client.derive]; rw [if_pos h]⟩
  · refine ⟨.length, .inl rfl, ?_⟩
    simp only [Client.call, Client.sign]
    split
    · rfl
    · rw [if_pos (h.resolve_left ‹_›)]
  · simp only [Client.call, Client.signRaw]
    have hp : c.profile = 5 ↔ cfg.profile = .mldsa87 := by
      rw [hf.profile]; cases cfg.profile <;> simp [wireProfile]
    split
    · exact ⟨_, .inr rfl, rfl⟩
    · rename_i h5
      rcases h with h | h | h
      · exact absurd (hp.1 (Decidable.not_not.1 h5)) h
      · exact ⟨.length, .inl rfl, by rw [if_pos h]⟩
      · refine ⟨.length, .inl rfl, ?_⟩
        split <;> rfl
  · exact ⟨.length, .inl rfl, by simp only [Client.call, Client.update]; rw [if_pos h]⟩

/-- C61: the two calls that are sent although the instance has no such command end the simulator. -/
theorem C61_deadly (hst : InService s.st) (hm : ¬ Malformed cfg.profile k) (h : Deadly cfg k) :
    c.call (simSend ((device L a cfg.profile).env cfg) loc addr) k (some s) = (.error .short, none) := by
  have hf := (hc.fits hL ha hb hs).1
  obtain ⟨_, _, _, hg, _⟩ := C58_meets (cfg := cfg) (L := L) hL ha 0
  cases k with
  | rotate hd f =>
    obtain ⟨prof, post, _, hcall, _, hnil, _⟩ := exchange_rotate (ops := device L a cfg.profile) hf hd f
    rw [hcall, send_none hL ha hb hs.rounded hst (rotate_none h)]
    simp only [hnil]
  | sign hd l f d =>
    obtain ⟨hp, hbit⟩ := h
    simp only [Malformed, hp, labelSize, signDataSize, not_or, Decidable.not_not] at hm
    obtain ⟨v, rfl⟩ : ∃ v : BArr 48, v.toList = l := ⟨⟨l.toArray, by simpa using hm.1⟩, by simp⟩
    obtain ⟨u, rfl⟩ : ∃ u : BArr 64, u.toList = d := ⟨⟨d.toArray, by simpa using hm.2⟩, by simp⟩
    obtain ⟨prof, post, _, hcall, _, hnil, _⟩ := exchange_signMl (ops := device L a cfg.profile) hf hg hp hd v f u
    rw [hcall, send_none hL ha hb hs.rounded hst (sign_none hp hbit)]
    simp only [hnil]
  | _ => exact h.elim

/-- C61: when the simulator has ended, calls that are sent fail. -/
theorem C61_ended (hm : ¬ Malformed cfg.profile k) :
    c.call (simSend ((device L a cfg.profile).env cfg) loc addr) k none = (.error .transport, none) := by
  have hf := (hc.fits hL ha hb hs).1
  obtain ⟨_, _, _, hg, _⟩ := C58_meets (cfg := cfg) (L := L) hL ha 0
  have key : ∀ cmd : Cmd cfg, Exchange cfg (device L a cfg.profile) c k cmd →
      c.call (simSend ((device L a cfg.profile).env cfg) loc addr) k none = (.error .transport, none) := by
    rintro cmd ⟨prof, post, _, hcall, _⟩
    rw [hcall]; rfl
  rcases C61_means hs k with h | h | ⟨cmd, h1, h2⟩
  · exact absurd h hm
  · cases k with
    | rotate hd f => exact key _ (exchange_rotate hf hd f)
    | sign hd l f d =>
      obtain ⟨hp, hbit⟩ := h
      simp only [Malformed, hp, labelSize, signDataSize, not_or, Decidable.not_not] at hm
      obtain ⟨v, rfl⟩ : ∃ v : BArr 48, v.toList = l := ⟨⟨l.toArray, by simpa using hm.1⟩, by simp⟩
      obtain ⟨u, rfl⟩ : ∃ u : BArr 64, u.toList = d := ⟨⟨d.toArray, by simpa using hm.2⟩, by simp⟩
      exact key _ (exchange_signMl hf hg hp hd v f u)
    | _ => exact h.elim
  · exact key _ (exchange hf hs hg h1 h2)

/-! ### C63: the certificate chain -/

omit hs hc in
theorem chain_within (hst : InService s.st) (hal : addr % 4 = 0) (hf : c.Fits cfg) (hm : cfg.maxCertSize % 4 = 0)
    {off : Nat} (ho : off < a.chain.length) :
    ∃ chunk : BArr 2048, chunk.toList.take (min 2048 (a.chain.length - off)) = (a.chain.drop off).take 2048 ∧
      execCommand (simSend ((device L a cfg.profile).env cfg) loc addr) c.codes.chain c.profile
        (le32 (BitVec.ofNat 32 off) ++ le32 2048) getChainFields (some s) =
      (.ok (⟨0x44504552, 0, wireProfile cfg.profile⟩,
        (BitVec.ofNat 32 (min 2048 (a.chain.length - off)), chunk), []), some s) := by
  obtain ⟨chunk, h1, h2⟩ := defaultChain_in (size := 2048) ha.short ho (Nat.le_refl _)
  change defaultChain a.chain (BitVec.ofNat 32 off) 2048 = _ at h1
  refine ⟨chunk, h2, ?_⟩
  have hsucc : Succeeds (device L a cfg.profile) s.st loc s.w (.chain ⟨BitVec.ofNat 32 off, 2048⟩)
      (successBytes cfg.profile ++ le32 (BitVec.ofNat 32 (min 2048 (a.chain.length - off))) ++ chunk.toList) s.st s.w := by
    refine ⟨?_, ⟨_, _, ?_, rfl, rfl⟩, ?_⟩
    · simp [NoRefusal, rules, earlyRules, lateRules]
    · have := servesChain_default a _ _ s.w.2 _ h1
      show (((defaultPlatform a).certChain _ _ s.w.2).1, (s.w.1, ((defaultPlatform a).certChain _ _ s.w.2).2)) = _
      rw [this]
    · have hsb : (successBytes cfg.profile).length = 12 := by cases cfg.profile <;> rfl
      simp [hsb, le32_length, Cmd.respKind, RespKind.size]
  have h := send_served (prof := c.profile) (cmd := .chain ⟨BitVec.ofNat 32 off, 2048⟩) hL ha hb hm hst hal (.inr hf.profile) trivial hsucc
  unfold execCommand
  rw [wire_request (code := c.codes.chain) (body := le32 (BitVec.ofNat 32 off) ++ le32 2048)
    (cmd := (.chain ⟨BitVec.ofNat 32 off, 2048⟩ : Cmd cfg)) (by rw [hf.codes]; rfl) rfl, h]
  simp only [List.append_assoc, goResponse_success, getChainFields]
  simp only [getU32_le, getArr_end, bind, Option.bind, pure]

omit hs hc in
theorem chain_past (hst : InService s.st) (hal : addr % 4 = 0) (hf : c.Fits cfg) (hm : cfg.maxCertSize % 4 = 0)
    {off : Nat} (ho : a.chain.length ≤ off) (ho' : off < 2 ^ 32) :
    ∃ s', s'.st = s.st ∧
      execCommand (simSend ((device L a cfg.profile).env cfg) loc addr) c.codes.chain c.profile
        (le32 (BitVec.ofNat 32 off) ++ le32 2048) getChainFields (some s) =
      (.error (.status 0x01000001), some s') := by
  have hout : ∀ w, ((device L a cfg.profile).certChain (BitVec.ofNat 32 off) 2048 w).1 =
      .error .certificateChainError := fun w =>
    default_outside ha (by rw [BitVec.toNat_ofNat, Nat.mod_eq_of_lt ho']; exact ho)
  have hno : ¬ ∃ reply st' w', Succeeds (device L a cfg.profile) s.st loc s.w
      (.chain ⟨BitVec.ofNat 32 off, 2048⟩) reply st' w' := by
    rintro ⟨_, _, _, _, ⟨_, _, h, _⟩, _⟩
    have := hout s.w
    rw [h] at this
    cases this
  obtain ⟨e, s', h1, h2, h3, h4⟩ := send_failed (prof := c.profile) (cmd := .chain ⟨BitVec.ofNat 32 off, 2048⟩) hL ha hb hm hst hal (.inr hf.profile) trivial hno
  have he : e = .platform .certificateChainError := by
    rcases h3 with h3 | ⟨_, h3, _⟩ | ⟨_, h3⟩
    · simp [rules, earlyRules, lateRules, FirstRefusal] at h3
    · cases h3
    · cases h3 with
      | crypto h => obtain ⟨w, h⟩ := h; simp [Cmd.draws, Cmd.measures, Cmd.signs] at h
      | platform h =>
        obtain ⟨w, ⟨h, _⟩ | ⟨k, h, h'⟩ | ⟨⟨_, h, _⟩, _⟩⟩ := h
        · rcases h with h | h
          · cases h
          · exact h.elim
        · cases h
          rw [hout] at h'
          cases h'
          rfl
        · cases h
      | stuck h => exact h.elim
      | digest h => exact h.elim
      | chunk h => exact h.elim
      | endless h => exact h.elim
      | ueid h => cases h
      | cert h => obtain ⟨_, h, _⟩ := h; exact h.elim
      | buffer h => simp only [Cmd.respKind, RespKind.size, Cmd.replyMax, List.length_replicate] at h; omega
      | wrongKey h => cases h
  refine ⟨s', h4.resolve_right (by rintro ⟨_, h, _⟩; cases h), ?_⟩
  unfold execCommand
  rw [wire_request (code := c.codes.chain) (body := le32 (BitVec.ofNat 32 off) ++ le32 2048)
    (cmd := (.chain ⟨BitVec.ofNat 32 off, 2048⟩ : Cmd cfg)) (by rw [hf.codes]; rfl) rfl, h1]
  subst he
  simp only [goResponse_error _ _ h2]
  rfl

omit hs hc in
theorem chainLoop_sim (hst : InService s.st) (hal : addr % 4 = 0) (hf : c.Fits cfg) (hm : cfg.maxCertSize % 4 = 0) :
    ∀ (fuel j : Nat), 2048 * j ≤ a.chain.length → a.chain.length / 2048 + 1 ≤ j + fuel →
    ∃ s', s'.st = s.st ∧ (a.chain.length % 2048 ≠ 0 → s' = s) ∧
      c.chainLoop (simSend ((device L a cfg.profile).env cfg) loc addr) fuel (BitVec.ofNat 32 (2048 * j))
        (a.chain.take (2048 * j)) (some s) =
      some (if a.chain.length % 2048 = 0 then .error (.status 0x01000001) else .ok a.chain, some s') := by
  have hl := ha.short
  intro fuel
  induction fuel with
  | zero => intro j h1 h2; omega
  | succ fuel ih =>
    intro j h1 h2
    by_cases ho : 2048 * j < a.chain.length
    · obtain ⟨chunk, h3, h4⟩ := chain_within (loc := loc) hL ha hb hst hal hf hm ho
      simp only [Client.chainLoop, h4]
      have e : (BitVec.ofNat 32 (min 2048 (a.chain.length - 2048 * j))).toNat = min 2048 (a.chain.length - 2048 * j) := by
        rw [BitVec.toNat_ofNat, Nat.mod_eq_of_lt (by omega)]
      rw [e, h3, if_neg (by omega)]
      have hcat : a.chain.take (2048 * j) ++ (a.chain.drop (2048 * j)).take 2048 = a.chain.take (2048 * (j + 1)) := by
        rw [show 2048 * (j + 1) = 2048 * j + 2048 by omega, List.take_add]
      rw [hcat]
      split
      · rename_i h5
        refine ⟨s, rfl, fun _ => rfl, ?_⟩
        rw [if_neg (by omega), List.take_of_length_le (by omega)]
      · rename_i h5
        obtain ⟨s', g1, g2, g3⟩ := ih (j + 1) (by omega) (by omega)
        refine ⟨s', g1, g2, ?_⟩
        rw [← g3, show BitVec.ofNat 32 (2048 * (j + 1)) = BitVec.ofNat 32 (2048 * j) + 2048 by
          rw [Nat.mul_add, BitVec.ofNat_add]; rfl]
    · obtain ⟨s', h3, h4⟩ := chain_past (loc := loc) hL ha hb hst hal hf hm (off := 2048 * j) (by omega) (by omega)
      refine ⟨s', h3, fun h => by omega, ?_⟩
      simp only [Client.chainLoop, h4]
      rw [if_neg (by decide), if_pos (by omega)]

/-- C63: GetCertificateChain returns the platform's chain, if the chain's length is no multiple of 2048.
It makes at most one turn for each 2048 bytes, and one more. -/
theorem C63_chain_partial (hst : InService s.st) (hal : addr % 4 = 0) (hn : a.chain.length % 2048 ≠ 0) {fuel : Nat}
    (hfu : a.chain.length / 2048 + 1 ≤ fuel) :
    c.getChain (simSend ((device L a cfg.profile).env cfg) loc addr) fuel (some s) = some (.ok a.chain, some s) := by
  have hf := (hc.fits hL ha hb hs).1
  obtain ⟨s', _, h1, h2⟩ := chainLoop_sim (loc := loc) hL ha hb hst hal hf hs.rounded fuel 0 (by omega) (by omega)
  rw [Nat.mul_zero, List.take_zero, if_neg hn, h1 hn] at h2
  unfold Client.getChain
  rw [show (0 : U32) = BitVec.ofNat 32 0 from rfl, h2]
  simp only
  rw [if_neg]
  intro h
  have := congrArg List.length h
  simp at this
  rw [this] at hn
  exact hn rfl

/-- C63 fails for the other chains: all their bytes arrive, but then GetCertificateChain asks once more, and
returns the platform's error. -/
theorem C63_multiple (hst : InService s.st) (hal : addr % 4 = 0) (hn : a.chain.length % 2048 = 0) {fuel : Nat}
    (hfu : a.chain.length / 2048 + 1 ≤ fuel) :
    ∃ s', s'.st = s.st ∧ c.getChain (simSend ((device L a cfg.profile).env cfg) loc addr) fuel (some s) =
      some (.error (.status 0x01000001), some s') := by
  have hf := (hc.fits hL ha hb hs).1
  obtain ⟨s', h0, _, h2⟩ := chainLoop_sim (loc := loc) hL ha hb hst hal hf hs.rounded fuel 0 (by omega) (by omega)
  refine ⟨s', h0, ?_⟩
  rw [Nat.mul_zero, List.take_zero, if_pos hn] at h2
  unfold Client.getChain
  rw [show (0 : U32) = BitVec.ofNat 32 0 from rfl, h2]

end

/-! ### C64: features -/
section
variable {cfg : Cfg} {L : Lib} {a : Artifact} {addr : Nat} {loc : U32}

theorem or_bit {n : Nat} (b : Bool) (x : BitVec n) (k i : Nat) (hi : i < n) :
    (if b = true then x ||| BitVec.twoPow n k else x).getLsbD i = (x.getLsbD i || (b && decide (i = k))) := by
  cases b
  · simp
  · simp [hi]

/-- C64: `ToFlags` has the bits of the features that the simulator is started with, and bit 24 for
IsSymmetric. -/
theorem C64_toFlags (g : GoSupport) {f : Nat} (hf : f < 32) :
    Bit g.toFlags f ↔ g.args.asks f ∨ (f = 24 ∧ g.isSymmetric = true) := by
  unfold Bit GoSupport.toFlags SimArgs.asks GoSupport.args
  simp only [show (0x80000000 : U32) = BitVec.twoPow 32 31 by decide,
    show (0x20000000 : U32) = BitVec.twoPow 32 29 by decide, show (0x04000000 : U32) = BitVec.twoPow 32 26 by decide,
    show (0x02000000 : U32) = BitVec.twoPow 32 25 by decide, show (0x40000000 : U32) = BitVec.twoPow 32 30 by decide,
    show (0x08000000 : U32) = BitVec.twoPow 32 27 by decide, show (0x00200000 : U32) = BitVec.twoPow 32 21 by decide,
    show (0x00400000 : U32) = BitVec.twoPow 32 22 by decide, show (0x00080000 : U32) = BitVec.twoPow 32 19 by decide,
    show (0x01000000 : U32) = BitVec.twoPow 32 24 by decide,
    show (0x00040000 : U32) = BitVec.twoPow 32 18 by decide, or_bit _ _ _ _ hf, Feature.simulation,
    Feature.recursive, Feature.autoInit, Feature.rotate, Feature.x509, Feature.csr, Feature.internalInfo,
    Feature.internalDice, Feature.retainParent, Feature.cdiExport, List.mem_cons, Prod.mk.injEq, List.not_mem_nil, or_false]
  have e0 : (0 : U32).getLsbD f = false := by simp
  rw [e0]
  simp only [Bool.false_or, Bool.or_eq_true, Bool.and_eq_true, decide_eq_true_eq,
    show ∀ b : Bool, (true = b) = (b = true) from fun b => propext eq_comm]
  simp only [or_assoc, and_comm, or_left_comm, or_comm]

/-- C64: a client of a simulator that was just started with a set of features sees exactly the features of
`ToFlags` if and only if IsSymmetric is not among them and the build has disabled none of them. -/
theorem C64_features (hL : L.Total) (ha : a.Fit) (hb : Built cfg a) (hs : cfg.Standard) (hal : addr % 4 = 0)
    (g : GoSupport) : ∃ c, newClient (simSend ((device L a cfg.profile).env cfg) loc addr) (wireProfile cfg.profile)
        (some (simStart cfg L a g.args).2) = (.ok c, some (simStart cfg L a g.args).2) ∧
      (c.flags = g.toFlags ↔ g.isSymmetric = false ∧ ∀ f, g.args.asks f → ¬ Bit cfg.disabled f) := by
  obtain ⟨s, h1, h2, h3, _⟩ := C59_start (cfg := cfg) (L := L) (a := a) g.args
  rw [h1]
  obtain ⟨c, h4, _, _, _, _, _, h5⟩ := (C62_connects_partial (loc := loc) hL ha hb hs (.reached h2) hal _).1 rfl
  refine ⟨c, h4, ?_⟩
  rw [h5]
  have small : ∀ f, g.args.asks f → f < 32 ∧ f ≠ 24 := by
    intro f h
    simp only [SimArgs.asks, List.mem_cons, Prod.mk.injEq, List.not_mem_nil, or_false, Feature.simulation,
      Feature.recursive, Feature.autoInit, Feature.rotate, Feature.x509, Feature.csr, Feature.internalInfo,
      Feature.internalDice, Feature.retainParent, Feature.cdiExport] at h
    omega
  have key : ∀ f, f < 32 → ((Bit s.st.support f ↔ Bit g.toFlags f) ↔
      ¬ (f = 24 ∧ g.isSymmetric = true) ∧ (g.args.asks f → ¬ Bit cfg.disabled f)) := by
    intro f hf
    rw [C64_toFlags g hf, show Bit s.st.support f ↔ g.args.asks f ∧ ¬ Bit cfg.disabled f from h3 f]
    have := small f
    tauto
  constructor
  · intro h
    refine ⟨?_, fun f hf => ?_⟩
    · have := ((key 24 (by omega)).1 (by rw [h])).1
      cases hg : g.isSymmetric
      · rfl
      · exact absurd ⟨rfl, hg⟩ this
    · exact ((key f (small f hf).1).1 (by rw [h])).2 hf
  · rintro ⟨h6, h7⟩
    apply BitVec.eq_of_getLsbD_eq
    intro i hi
    have := (key i hi).2 ⟨by simp [h6], h7 i⟩
    unfold Bit at this
    exact Bool.eq_iff_iff.2 this

end

/-! ### C65: the texts of errors -/

theorem platform_text (e : PlatErr) : statusText (Err.platform e).code = none := by
  have h : ∀ n : Fin 12, statusText (0x01000000 ||| BitVec.ofNat 32 (n.1 + 1)) = none := by decide
  cases e
  all_goals first | decide | exact h 2 | exact h 3 | exact h 4 | exact h 5 | exact h 6 | exact h 7 | exact h 8

theorem crypto_text (e : CryptoErr) : statusText (Err.crypto e).code = none := by
  have h : ∀ n : Fin 12, statusText (0x02000000 ||| BitVec.ofNat 32 (n.1 + 1)) = none := by decide
  cases e
  all_goals first | exact h 0 | exact h 1 | decide | exact h 4

/-- C65: the client describes an error by its kind, or calls it unrecognized; no description is wrong. -/
theorem C65_text_partial (e : Err) (he : e ≠ .panic) : statusText e.code = none ∨ statusText e.code = e.kindText := by
  cases e with
  | platform e => left; exact platform_text e
  | crypto e => left; exact crypto_text e
  | validation e => cases e <;> decide
  | internal e => right; rfl
  | panic => exact absurd rfl he
  | _ => decide

/-- C65 fails: the errors that go undescribed are those of platform and crypto implementation, of the
validation except one, of the certificate writer and of buffers. -/
theorem C65_unrecognized (e : Err) : statusText e.code = none ↔ e = .noError ∨ (∃ p, e = .platform p) ∨
    (∃ p, e = .crypto p) ∨ (∃ v, e = .validation v ∧ v ≠ .multipleNormalConnectedComponents) ∨
    e ∈ [.x509CsrUnset, .x509InvalidState, .x509SkipsExhausted, .x509InvalidWidth, .x509AlgorithmMismatch,
      .invalidMutRefBuf, .invalidResponseBuf, .uninitializedResponseHeader] := by
  cases e with
  | platform e =>
    refine ⟨fun _ => .inr (.inl ⟨e, rfl⟩), fun _ => platform_text e⟩
  | crypto e =>
    refine ⟨fun _ => .inr (.inr (.inl ⟨e, rfl⟩)), fun _ => crypto_text e⟩
  | validation e =>
    simp only [reduceCtorEq, exists_false, false_or, List.mem_cons, List.not_mem_nil, or_false, Err.validation.injEq,
      exists_eq_left']
    cases e <;> decide
  | internal e => simp [statusText, Err.code]
  | _ => simp [statusText, Err.code]

namespace Ref

/-- The build of `Ref.cfg` with the certificate buffer that goes with four slots. -/
def std : Cfg := { cfg with maxCertSize := 1148 }

theorem std_standard : std.Standard := ⟨rfl, by decide⟩

theorem std_built : Built std cert := ⟨rfl, by decide⟩

/-- All features of the tests, without automatic initialisation. -/
def features : GoSupport := ⟨true, true, false, true, true, true, false, true, true, true, true, false⟩

/-- The transport to a simulator of this build, from locality 3. -/
def wires : Transport (Option (Sys std (Soft (lib.crypto std.profile) × Unit))) :=
  simSend ((device lib cert std.profile).env std) 3 8

/-- Calls one after another on a client that has connected for a profile; what each returns. -/
def session (p : U32) (ks : List GoCall) : List (Except ClErr GoValue) × Option ClErr :=
  match newClient wires p (some (simStart std lib cert features.args).2) with
  | (.error e, _) => ([], some e)
  | (.ok c, x) => ((ks.foldl (fun (r, x) k => let (v, x') := c.call wires k x; (r ++ [v], x')) ([], x)).1, none)

/-- The bytes of a result. -/
def digits : Except ClErr GoValue → ClErr ⊕ List Bytes
  | .error e => .inl e
  | .ok .nothing => .inr []
  | .ok (.handle h) => .inr [h.toList]
  | .ok (.profile p) => .inr [le32 p.profile, le32 p.maxTci, le32 p.flags]
  | .ok (.key h x y c) => .inr [h.toList, x, y, c.take 2]
  | .ok (.derived h p _ _ c) => .inr [h.toList, p.toList, c]
  | .ok (.signature h r s b) => .inr [h.toList, r, s, b]
  | .ok (.updated h p) => .inr [h.toList, p.toList]

/-- Nothing but a client for the instance's profile is to be had. -/
example : (session 3 []).2 = none ∧ (session 4 []).2 = some .wrongProfile ∧
    (session 9 []).2 = some .noClient := by decide +kernel

/-- A session: the default context is created, refused a second time, a digest of a wrong size is rejected,
a digest is signed, a handle is unknown, and the context is destroyed. -/
example : (session 3 [.initialize 0x40000000, .initialize 0x40000000,
      .sign Handle.default (List.replicate 32 1) 0 [9], .sign Handle.default (List.replicate 32 1) 0 (List.replicate 32 2),
      .update (Toy.hd 9) (List.replicate 32 0) 0, .destroy Handle.default]).1.map digits =
    [.inr [Handle.default.toList], .inl (.status 0x83), .inl .length,
      .inr [Handle.default.toList, List.replicate 32 1, List.replicate 32 2, []], .inl (.status 0x85), .inr []] := by
  decide +kernel

/-- A client for which C61 and C63 hold exists. -/
theorem dialed : ∃ c, Connected lib cert std c := by
  obtain ⟨s, _, h, _⟩ := C59_start (cfg := std) (L := lib) (a := cert) features.args
  obtain ⟨c, hc, _⟩ := (C62_connects_partial (loc := 3) (addr := 8) lib_total cert_fit std_built std_standard (.reached h)
    (by decide) _).1 rfl
  exact ⟨c, _, _, _, _, _, h, by decide, hc⟩

/-- The chain, which is four bytes long, is retrieved. -/
example : ∃ c : Client, c.getChain wires 1 (some (simStart std lib cert features.args).2) =
    some (.ok cert.chain, some (simStart std lib cert features.args).2) := by
  obtain ⟨c, hc⟩ := dialed
  obtain ⟨s, h1, h, _⟩ := C59_start (cfg := std) (L := lib) (a := cert) features.args
  rw [h1]
  exact ⟨c, C63_chain_partial (loc := 3) (addr := 8) lib_total cert_fit std_built std_standard hc h (by decide) (by decide) (by decide)⟩

/-- A chain of 2048 bytes. -/
def longCert : Artifact := { cert with chain := 0x30 :: List.replicate 2047 1 }

theorem longCert_length : longCert.chain.length = 2048 := by
  show (List.replicate 2047 1).length + 1 = 2048
  rw [List.length_replicate]

theorem longCert_fit : longCert.Fit where
  der := rfl
  short := by rw [longCert_length]; omega
  issuer := cert_fit.issuer
  issuerDer := cert_fit.issuerDer
  issuerSeq := cert_fit.issuerSeq
  serial := cert_fit.serial
  serialShort := cert_fit.serialShort
  keyId := cert_fit.keyId

/-- It is not retrieved. -/
example : ∃ (c : Client) (x : _) (e : ClErr), c.getChain (simSend ((device lib longCert std.profile).env std) 3 8) 2
    (some (simStart std lib longCert features.args).2) = some (.error e, x) := by
  have hb : Built std longCert := ⟨rfl, by rw [longCert_length]; decide⟩
  obtain ⟨s, h1, h, _⟩ := C59_start (cfg := std) (L := lib) (a := longCert) features.args
  obtain ⟨c, hc, _⟩ := (C62_connects_partial (loc := 3) (addr := 8) lib_total longCert_fit hb std_standard (.reached h)
    (by decide) _).1 rfl
  obtain ⟨s', _, h'⟩ := C63_multiple (loc := 3) (addr := 8) lib_total longCert_fit hb std_standard
    ⟨_, _, _, _, _, h, by decide, hc⟩ (.reached h) (by decide) (by rw [longCert_length]) (fuel := 2) (by rw [longCert_length]; decide)
  rw [h1]
  exact ⟨c, _, _, h'⟩

/-- The flags of the features are seen by the client; with IsSymmetric among them they are not. -/
example : features.toFlags = 0xce6c0000 ∧
    (match newClient wires 3 (some (simStart std lib cert features.args).2) with
      | (.ok c, _) => c.flags
      | _ => 0) = 0xce6c0000 := by
  decide +kernel

example : { features with isSymmetric := true }.toFlags = 0xcf6c0000 := by decide

end Ref

/-- Two errors whose kinds the client does not tell: a platform's and a validation error. -/
example : statusText (Err.platform .certificateChainError).code = none ∧
    (Err.platform .certificateChainError).kindText = some "error internal to platform" ∧
    statusText (Err.validation .cyclesInTree).code = none ∧
    statusText (Err.validation .multipleNormalConnectedComponents).code = some "validation error" := by decide

end Dpe
