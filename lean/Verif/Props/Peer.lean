import Verif.Proofs.Peer
/-
C70: the Go client, connected to anything.
-/
namespace Dpe
variable {τ : Type} {c : Client} {k : GoCall}

/-! ### Connecting -/

theorem readProfile_iff {profile : U32} {payload : Bytes} {g : GoProfile} :
    readBody goProfileFields (fun (h, (ma, mi, v, k, n, f), _) => Except.ok (⟨h.profile, ma, mi, v, k, n, f⟩ : GoProfile))
      profile payload = .ok g ↔ ProfileReply profile payload g := by
  unfold readBody ProfileReply
  constructor
  · intro h
    rcases h1 : goProfileFields payload with _ | ⟨⟨ma, mi, v', k, n, f⟩, r⟩ <;> rw [h1] at h
    · cases h
    · cases h
      exact ⟨rfl, r, by rw [goProfileFields_iff.1 h1]; simp⟩
  · obtain ⟨q, ma, mi, v, k, n, f⟩ := g
    rintro ⟨h2, rest, h1⟩
    simp only at h1 h2
    subst h2
    rw [(goProfileFields_iff (r := rest) (ma := ma) (mi := mi) (v := v) (k := k) (t := n) (f := f)).2
      (by rw [h1]; simp only [List.append_assoc, word_eq, word16_eq])]

theorem goGetProfile_received {t : Transport τ} {x x' : τ} {r : Except ClErr GoProfile} :
    goGetProfile t x = (r, x') ↔
      match t (goMessage 1 0 []) x with
      | (.error e, y) => r = .error e ∧ x' = y
      | (.ok resp, y) => Received ProfileReply (fun _ => False) resp r ∧ x' = y := by
  have e : goGetProfile t x = andThen (execCommand t 1 0 [] goProfileFields x)
      fun (h, (ma, mi, v, k, n, f), _) => .ok ⟨h.profile, ma, mi, v, k, n, f⟩ := by
    unfold goGetProfile andThen
    rcases execCommand t 1 0 [] goProfileFields x with ⟨_ | ⟨_, ⟨_, _, _, _, _, _⟩, _⟩, _⟩ <;> rfl
  rw [e, andThen_exec, show le32 0x44504543 ++ le32 1 ++ le32 0 ++ [] = goMessage 1 0 [] from rfl]
  rcases t (goMessage 1 0 []) x with ⟨_ | resp, y⟩
  · simp only [Prod.mk.injEq]
    exact ⟨fun h => ⟨h.1.symm, h.2.symm⟩, fun h => ⟨h.1.symm, h.2.symm⟩⟩
  · simp only [Prod.mk.injEq]
    rw [received_iff (Big := fun _ => False) (fun _ _ _ => readProfile_iff), eq_comm (a := y)]
    · intro profile payload e h
      unfold readBody at h
      rcases h1 : goProfileFields payload with _ | ⟨⟨ma, mi, v', k, n, f⟩, r⟩ <;> rw [h1] at h <;> cases h
      exact .inl rfl
    · intro profile payload
      unfold readBody
      rcases h1 : goProfileFields payload with _ | ⟨⟨ma, mi, v', k, n, f⟩, r⟩ <;> simp

theorem newClient_eq {t : Transport τ} {p : U32} {x : τ} : newClient t p x =
    if 1 ≤ p.toNat ∧ p.toNat ≤ 5 then
      match goGetProfile t x with
      | (.error e, x') => (.error e, x')
      | (.ok g, x') => (if g.profile ≠ p then .error .wrongProfile
          else if g.major = 0 ∧ 8 ≤ g.minor.toNat then
            .ok ⟨if p = 1 then .min256 else if p = 2 then .min384 else if p = 3 then .p256 else if p = 4 then .p384
              else .mldsa87, if g.minor.toNat = 8 then codesV08 else codesV09, p, 0, g.minor, g.vendorId, g.vendorSku, 0, g.flags⟩
          else .error .unknownVersion, x')
    else (.error .noClient, x) := by
  have key : ∀ (kind : ClKind) (g : GoProfile), clientOf kind g =
      if g.profile ≠ kind.target then .error .wrongProfile
      else if g.major = 0 ∧ 8 ≤ g.minor.toNat then
        .ok ⟨kind, if g.minor.toNat = 8 then codesV08 else codesV09, kind.target, 0, g.minor, g.vendorId, g.vendorSku, 0, g.flags⟩
      else .error .unknownVersion := by
    intro kind g
    obtain ⟨gp, ma, mi, v, s, n, f⟩ := g
    unfold clientOf
    by_cases h : gp = kind.target
    · subst h
      simp only [ne_eq, not_true_eq_false, if_false]
      by_cases h0 : ma = 0
      · subst h0
        by_cases h8 : mi.toNat = 8
        · have : mi = 8 := by apply BitVec.eq_of_toNat_eq; rw [h8]; rfl
          subst this
          simp
        · have : ¬ mi = 8 := by rintro rfl; exact h8 rfl
          simp only [true_and, this, if_false, h8]
          by_cases h9 : 9 ≤ mi.toNat
          · rw [if_pos h9, if_pos (by omega)]
          · rw [if_neg h9, if_neg (by omega)]
      · rw [if_neg (fun h => h0 h.1), if_neg (fun h => h0 h.1), if_neg (fun h => h0 h.1)]
    · simp [h]
  by_cases hp : 1 ≤ p.toNat ∧ p.toNat ≤ 5
  · rw [if_pos hp]
    have : p = 1 ∨ p = 2 ∨ p = 3 ∨ p = 4 ∨ p = 5 := by
      have : p.toNat = 1 ∨ p.toNat = 2 ∨ p.toNat = 3 ∨ p.toNat = 4 ∨ p.toNat = 5 := by omega
      rcases this with h | h | h | h | h <;> rw [← u32_eta p, h] <;> simp
    unfold newClient newDPEABI
    rcases goGetProfile t x with ⟨_ | g, x'⟩
    · rcases this with rfl | rfl | rfl | rfl | rfl <;> rfl
    · simp only [key]
      rcases this with rfl | rfl | rfl | rfl | rfl <;> rfl
  · rw [if_neg hp]
    unfold newClient
    rw [if_neg (by rintro rfl; exact hp (by decide)), if_neg (by rintro rfl; exact hp (by decide)),
      if_neg (by rintro rfl; exact hp (by decide)), if_neg (by rintro rfl; exact hp (by decide)),
      if_neg (by rintro rfl; exact hp (by decide))]

/-- C70: connecting asks for the profile and version, and nothing else.  The client reports what went wrong,
or that the answer's profile is not the one it was asked for, or that it does not know the version; otherwise
it knows what the answer says. -/
theorem C70_connects (t : Transport τ) (p : U32) (x : τ) :
    (¬ (1 ≤ p.toNat ∧ p.toNat ≤ 5) → newClient t p x = (.error .noClient, x)) ∧
    ((1 ≤ p.toNat ∧ p.toNat ≤ 5) →
      match t (goMessage 1 0 []) x with
      | (.error e, x') => newClient t p x = (.error e, x')
      | (.ok resp, x') =>
        (∃ e, Received ProfileReply (fun _ => False) resp (.error e) ∧ newClient t p x = (.error e, x')) ∨
        ∃ g, Received ProfileReply (fun _ => False) resp (.ok g) ∧
          (g.profile ≠ p → newClient t p x = (.error .wrongProfile, x')) ∧
          (g.profile = p → ¬ (g.major = 0 ∧ 8 ≤ g.minor.toNat) → newClient t p x = (.error .unknownVersion, x')) ∧
          (g.profile = p → g.major = 0 → 8 ≤ g.minor.toNat → ∃ c, newClient t p x = (.ok c, x') ∧
            c.profile = p ∧ c.major = 0 ∧ c.minor = g.minor ∧ c.vendorId = g.vendorId ∧ c.vendorSku = g.vendorSku ∧
            c.flags = g.flags)) := by
  refine ⟨fun hp => by rw [newClient_eq, if_neg hp], fun hp => ?_⟩
  rcases hg : goGetProfile t x with ⟨r, x1⟩
  have h := goGetProfile_received.1 hg
  rw [newClient_eq, if_pos hp, hg]
  generalize t (goMessage 1 0 []) x = ans at h ⊢
  rcases ans with ⟨e | resp, x'⟩
  · obtain ⟨rfl, rfl⟩ := h
    rfl
  · obtain ⟨h, rfl⟩ := h
    rcases r with e | g
    · exact .inl ⟨e, h, rfl⟩
    · refine .inr ⟨g, h, ?_, ?_, ?_⟩
      · intro h1
        simp only [if_pos h1]
      · intro h1 h2
        simp only [ne_eq, h1, not_true_eq_false, if_false, if_neg h2]
      · intro h1 h2 h3
        simp only [ne_eq, h1, not_true_eq_false, if_false, if_pos (And.intro h2 h3)]
        exact ⟨_, rfl, rfl, rfl, rfl, rfl, rfl, rfl⟩

/-- What all clients have in common. -/
theorem Made.facts (h : Made c) : (1 ≤ c.profile.toNat ∧ c.profile.toNat ≤ 5) ∧
    c.kind = (if c.profile = 1 then .min256 else if c.profile = 2 then .min384 else if c.profile = 3 then .p256
      else if c.profile = 4 then .p384 else .mldsa87) ∧
    c.codes = if c.minor.toNat = 8 then codesV08 else codesV09 := by
  obtain ⟨τ, t, p, x, x', h⟩ := h
  rw [newClient_eq] at h
  split at h
  · rename_i hp
    generalize goGetProfile t x = ans at h
    rcases ans with ⟨e | g, y⟩
    · cases h
    · simp only [Prod.mk.injEq] at h
      replace h := h.1
      split at h
      · cases h
      · split at h
        · cases h
          exact ⟨hp, rfl, rfl⟩
        · cases h
  · cases h

theorem Made.cases (h : Made c) :
    (c.profile = 1 ∧ c.kind = .min256) ∨ (c.profile = 2 ∧ c.kind = .min384) ∨ (c.profile = 3 ∧ c.kind = .p256) ∨
    (c.profile = 4 ∧ c.kind = .p384) ∨ (c.profile = 5 ∧ c.kind = .mldsa87) := by
  obtain ⟨hp, hk, _⟩ := h.facts
  rw [hk]
  have : c.profile = 1 ∨ c.profile = 2 ∨ c.profile = 3 ∨ c.profile = 4 ∨ c.profile = 5 := by
    have : c.profile.toNat = 1 ∨ c.profile.toNat = 2 ∨ c.profile.toNat = 3 ∨ c.profile.toNat = 4 ∨ c.profile.toNat = 5 := by
      omega
    rcases this with h | h | h | h | h <;> rw [← u32_eta c.profile, h] <;> simp
  rcases this with h | h | h | h | h <;> rw [h] <;> decide

theorem Made.sizes (h : Made c) : c.kind.digest = (goSizes c.profile).digest ∧
    c.kind.signData = (goSizes c.profile).signData ∧ c.kind.curve = (goSizes c.profile).key ∧
    c.kind.certLen = (goSizes c.profile).cert ∧ (c.kind = .mldsa87 ↔ c.profile = goMldsa) := by
  rcases h.cases with ⟨h, k⟩ | ⟨h, k⟩ | ⟨h, k⟩ | ⟨h, k⟩ | ⟨h, k⟩ <;> rw [h, k] <;> decide

/-! ### Calls -/

/-- C70: arguments of a wrong size, and calls that the profile does not have, are rejected before anything is
sent. -/
theorem C70_unfit (hc : Made c) (t : Transport τ) (x : τ) (h : Unfit c.profile k) :
    ∃ e, (e = .length ∨ e = .notImplemented) ∧ c.call t k x = (.error e, x) := by
  obtain ⟨hd, hs, _, _, _⟩ := hc.sizes
  cases k <;> simp only [Unfit, ← hd, ← hs] at h
  · exact ⟨.length, .inl rfl, by simp only [Client.call, Client.certifyKey]; rw [if_pos h]⟩
  · exact ⟨.length, .inl rfl, by simp only [Client.call, Client.derive]; rw [if_pos h]⟩
  · refine ⟨.length, .inl rfl, ?_⟩
    simp only [Client.call, Client.sign]
    split
    · rfl
    · rw [if_pos (h.resolve_left ‹_›)]
  · simp only [Client.call, Client.signRaw]
    split
    · exact ⟨_, .inr rfl, rfl⟩
    · rename_i h5
      rcases h with h | h | h
      · exact absurd h h5
      · exact ⟨.length, .inl rfl, by rw [if_pos h]⟩
      · refine ⟨.length, .inl rfl, ?_⟩
        split <;> rfl
  · exact ⟨.length, .inl rfl, by simp only [Client.call, Client.update]; rw [if_pos h]⟩

/-- The call is one exchange. -/
def Talks (c : Client) (k : GoCall) : Prop :=
  ∃ post : Bytes → Except ClErr GoValue,
    (∀ (τ : Type) (t : Transport τ) (x : τ), c.call t k x =
      match t (goRequest c k) x with
      | (.error e, x') => (.error e, x')
      | (.ok resp, x') => (post resp, x')) ∧
    ∀ resp r, post resp = r ↔ Received (GoReply c.profile k) (Oversized c.profile k) resp r

theorem Talks.of {α : Type} {code prof : U32} {body : Bytes} {rsp : Bytes → Option (α × Bytes)}
    {f : GoHdr × α × Bytes → Except ClErr GoValue}
    (hcall : ∀ (τ : Type) (t : Transport τ) (x : τ), c.call t k x = andThen (execCommand t code prof body rsp x) f)
    (hreq : goMessage code prof body = goRequest c k)
    (hv : ∀ profile payload v, readBody rsp f profile payload = .ok v ↔ GoReply c.profile k profile payload v)
    (he : ∀ profile payload e, readBody rsp f profile payload = .error e → e = .short ∨ e = .certTooLarge)
    (hb : ∀ profile payload, readBody rsp f profile payload = .error .certTooLarge ↔ Oversized c.profile k payload) :
    Talks c k := by
  refine ⟨fun resp => andThen' (goResponse rsp resp) f, fun τ t x => ?_, fun resp r => received_iff hv he hb resp r⟩
  rw [hcall, andThen_exec, ← hreq]
  rfl

/-- The same for calls without a certificate's limit: reading fails only for want of bytes. -/
theorem Talks.small {α : Type} {code prof : U32} {body : Bytes} {rsp : Bytes → Option (α × Bytes)}
    {f : GoHdr × α × Bytes → Except ClErr GoValue}
    (hcall : ∀ (τ : Type) (t : Transport τ) (x : τ), c.call t k x = andThen (execCommand t code prof body rsp x) f)
    (hreq : goMessage code prof body = goRequest c k)
    (hv : ∀ profile payload v, readBody rsp f profile payload = .ok v ↔ GoReply c.profile k profile payload v)
    (he : ∀ h a r e, f (h, a, r) = .error e → e = .short)
    (hb : ∀ payload, ¬ Oversized c.profile k payload) : Talks c k := by
  have he' : ∀ profile payload e, readBody rsp f profile payload = .error e → e = .short := by
    intro profile payload e h
    unfold readBody at h
    generalize rsp payload = ans at h
    rcases ans with _ | ⟨a, r⟩
    · cases h; rfl
    · exact he _ _ _ _ h
  exact .of hcall hreq hv (fun _ _ _ h => .inl (he' _ _ _ h))
    (fun _ _ => ⟨fun h => (nomatch he' _ _ _ h), fun h => absurd h (hb _)⟩)

theorem arr_of {n : Nat} (l : Bytes) (h : l.length = n) : ∃ v : BArr n, v.toList = l :=
  ⟨⟨l.toArray, by simpa using h⟩, by simp⟩

theorem talks_getProfile : Talks c .getProfile := by
  refine .small (code := 1) (prof := 0) (body := []) (rsp := goProfileFields)
    (f := fun (h, (ma, mi, v, k, n, f), _) => .ok (.profile ⟨h.profile, ma, mi, v, k, n, f⟩)) ?_ rfl ?_
    (by rintro _ ⟨_, _, _, _, _, _⟩ _ _ h; cases h) (fun _ h => h)
  · intro τ t x
    simp only [Client.call, goGetProfile]
    rcases execCommand t 1 0 [] goProfileFields x with ⟨_ | ⟨_, ⟨_, _, _, _, _, _⟩, _⟩, _⟩ <;> rfl
  · intro profile payload v
    have := fun g => readProfile_iff (profile := profile) (payload := payload) (g := g)
    simp only [GoReply, ← this]
    unfold readBody
    rcases h1 : goProfileFields payload with _ | ⟨⟨ma, mi, v', k, n, f⟩, r⟩
    · simp
    · simp only [Except.ok.injEq, exists_eq_left']
      exact eq_comm

theorem talks_init (hc : Made c) (f : U32) : Talks c (.initialize f) := by
  refine .small (fun τ t x => rfl) (by rw [hc.facts.2.2]; split <;> simp_all [goRequest, goCode, goArgs, codesV08, codesV09]) ?_
    (by rintro _ _ _ _ h; cases h) (fun _ h => h)
  intro profile payload v
  unfold readBody
  simp only [GoReply]
  constructor
  · intro h
    rcases h1 : getHandle payload with _ | ⟨a, r⟩ <;> rw [h1] at h <;> cases h
    exact ⟨_, _, getHandle_iff.1 h1, rfl⟩
  · rintro ⟨h, r, h1, rfl⟩
    rw [getHandle_iff.2 h1]

theorem talks_rotate (hc : Made c) (h : Handle) (f : U32) : Talks c (.rotate h f) := by
  refine .small (fun τ t x => rfl) (by rw [hc.facts.2.2]; split <;> simp_all [goRequest, goCode, goArgs, codesV08, codesV09]) ?_
    (by rintro _ _ _ _ h; cases h) (fun _ h => h)
  intro profile payload v
  unfold readBody
  simp only [GoReply]
  constructor
  · intro h
    rcases h1 : getHandle payload with _ | ⟨a, r⟩ <;> rw [h1] at h <;> cases h
    exact ⟨_, _, getHandle_iff.1 h1, rfl⟩
  · rintro ⟨h, r, h1, rfl⟩
    rw [getHandle_iff.2 h1]

theorem talks_destroy (hc : Made c) (h : Handle) : Talks c (.destroy h) := by
  refine .small (fun τ t x => rfl) (by rw [hc.facts.2.2]; split <;> simp_all [goRequest, goCode, goArgs, codesV08, codesV09]) ?_
    (by rintro _ _ _ _ h; cases h) (fun _ h => h)
  intro profile payload v
  simp only [readBody, GoReply, Except.ok.injEq]
  exact eq_comm

theorem talks_update (hc : Made c) (h : Handle) (d : Bytes) (y : U32) (hf : ¬ Unfit c.profile (.update h d y)) :
    Talks c (.update h d y) := by
  have hd : ¬ d.length ≠ c.kind.digest := by rw [hc.sizes.1]; exact hf
  refine .small (fun τ t x => by simp only [Client.call, Client.update]; rw [if_neg hd])
    (by rw [hc.facts.2.2, newDigest_self _ (Decidable.not_not.1 hd)]
        split <;> simp_all [goRequest, goCode, goArgs, codesV08, codesV09]) ?_
    (by rintro _ ⟨_, _⟩ _ _ h; cases h) (fun _ h => h)
  intro profile payload v
  unfold readBody
  simp only [GoReply]
  constructor
  · intro h
    rcases h1 : getHandles payload with _ | ⟨⟨a, b⟩, r⟩ <;> rw [h1] at h <;> cases h
    exact ⟨_, _, _, by rw [getHandles_iff.1 h1, List.append_assoc], rfl⟩
  · rintro ⟨h, p, r, h1, rfl⟩
    rw [getHandles_iff.2 (by rw [h1, List.append_assoc])]

theorem flag23 (f : U32) : f &&& 0x00800000 = 0x00800000 ↔ Bit f 23 := by
  unfold Bit
  constructor
  · intro h
    have := congrArg (fun w : U32 => w.getLsbD 23) h
    simpa using this
  · intro h
    apply BitVec.eq_of_getLsbD_eq
    intro i hi
    rw [show (0x00800000 : U32) = BitVec.twoPow 32 23 by decide, BitVec.getLsbD_and, BitVec.getLsbD_twoPow]
    by_cases e : 23 = i
    · subst e; simp [h]
    · simp [e]

theorem talks_derive (hc : Made c) (h : Handle) (d : Bytes) (f y l : U32) (hf : ¬ Unfit c.profile (.derive h d f y l)) :
    Talks c (.derive h d f y l) := by
  have hd : ¬ d.length ≠ c.kind.digest := by rw [hc.sizes.1]; exact hf
  have hreq : goMessage c.codes.derive c.profile (h.toList ++ newDigest c.kind.digest d ++ le32 f ++ le32 y ++ le32 l ++ le32 0) =
      goRequest c (.derive h d f y l) := by
    rw [hc.facts.2.2, newDigest_self _ (Decidable.not_not.1 hd)]
    split <;> simp_all [goRequest, goCode, goArgs, codesV08, codesV09]
  by_cases hb : Bit f 23
  · refine .small (fun τ t x => by
      simp only [Client.call, Client.derive, Client.deriveABI]; rw [if_neg hd, if_pos ((flag23 f).2 hb)]) hreq ?_ ?_ (fun _ h => h)
    · intro profile payload v
      unfold readBody
      simp only [GoReply, if_pos hb]
      constructor
      · intro h
        rcases h1 : getExportFields payload with _ | ⟨⟨a, b, cdi, n⟩, r⟩ <;> rw [h1] at h
        · cases h
        simp only at h
        rcases h2 : goSlice n.toNat r with e | cert <;> rw [h2] at h <;> cases h
        obtain ⟨rest, h3, h4⟩ := goSlice_iff.1 h2
        exact ⟨a, b, cdi, n, cert, rest, by rw [getExportFields_iff.1 h1, h3]; simp only [List.append_assoc, word_eq, word16_eq], h4, rfl⟩
      · rintro ⟨a, b, cdi, n, cert, rest, h1, h2, rfl⟩
        rw [(getExportFields_iff (r := cert ++ rest) (h := a) (p := b) (c := cdi) (k := n)).2 (by rw [h1]; simp only [List.append_assoc, word_eq, word16_eq])]
        simp only
        rw [goSlice_iff.2 ⟨rest, rfl, h2⟩]
    · rintro _ ⟨a, b, cdi, n⟩ r e h
      simp only at h
      rcases h2 : goSlice n.toNat r with e | cert <;> rw [h2] at h <;> cases h
      exact goSlice_error h2
  · refine .small (fun τ t x => by
      simp only [Client.call, Client.derive, Client.deriveABI]; rw [if_neg hd, if_neg (fun h => hb ((flag23 f).1 h))]) hreq ?_
      (by rintro _ ⟨_, _⟩ _ _ h; cases h) (fun _ h => h)
    intro profile payload v
    unfold readBody
    simp only [GoReply, if_neg hb]
    constructor
    · intro h
      rcases h1 : getHandles payload with _ | ⟨⟨a, b⟩, r⟩ <;> rw [h1] at h <;> cases h
      exact ⟨_, _, _, by rw [getHandles_iff.1 h1, List.append_assoc], rfl⟩
    · rintro ⟨h, p, r, h1, rfl⟩
      rw [getHandles_iff.2 (by rw [h1, List.append_assoc])]

theorem talks_sign (hc : Made c) (h : Handle) (l : Bytes) (f : U32) (d : Bytes) (hf : ¬ Unfit c.profile (.sign h l f d)) :
    Talks c (.sign h l f d) := by
  simp only [Unfit, not_or, ← hc.sizes.1, ← hc.sizes.2.1] at hf
  have hreq : goMessage c.codes.sign c.profile (h.toList ++ newDigest c.kind.digest l ++ le32 f ++ newDigest c.kind.signData d) =
      goRequest c (.sign h l f d) := by
    rw [hc.facts.2.2, newDigest_self _ (Decidable.not_not.1 hf.1), newDigest_self _ (Decidable.not_not.1 hf.2)]
    split <;> simp_all [goRequest, goCode, goArgs, codesV08, codesV09]
  by_cases hb : c.kind = .mldsa87
  · have hp := hc.sizes.2.2.2.2.1 hb
    refine .small (fun τ t x => by
      simp only [Client.call, Client.sign, Client.signABI]; rw [if_neg hf.1, if_neg hf.2, if_pos hb]) hreq ?_
      (by rintro _ ⟨_, _⟩ _ _ h; cases h) (fun _ h => h)
    intro profile payload v
    unfold readBody
    simp only [GoReply, if_pos hp]
    constructor
    · intro h
      rcases h1 : getMlSigFields payload with _ | ⟨⟨a, b⟩, r⟩ <;> rw [h1] at h <;> cases h
      exact ⟨a, b.toList, r, by simp, by rw [getMlSigFields_iff.1 h1, List.append_assoc], rfl⟩
    · rintro ⟨a, s, r, h0, h1, rfl⟩
      obtain ⟨s, rfl⟩ := arr_of s h0
      rw [getMlSigFields_iff.2 (by rw [h1, List.append_assoc])]
  · have hp : ¬ c.profile = goMldsa := fun h => hb (hc.sizes.2.2.2.2.2 h)
    refine .small (fun τ t x => by
      simp only [Client.call, Client.sign, Client.signABI]; rw [if_neg hf.1, if_neg hf.2, if_neg hb]) hreq ?_
      (by rintro _ ⟨_, _, _⟩ _ _ h; cases h) (fun _ h => h)
    intro profile payload v
    unfold readBody
    simp only [GoReply, if_neg hp, ← hc.sizes.1]
    constructor
    · intro h
      rcases h1 : getSigFields c.kind.digest payload with _ | ⟨⟨a, b, b'⟩, r⟩ <;> rw [h1] at h <;> cases h
      exact ⟨a, b.toList, b'.toList, r, by simp, by simp, by rw [getSigFields_iff.1 h1]; simp only [List.append_assoc, word_eq, word16_eq], rfl⟩
    · rintro ⟨a, s, s', r, h0, h0', h1, rfl⟩
      obtain ⟨s, rfl⟩ := arr_of s h0
      obtain ⟨s', rfl⟩ := arr_of s' h0'
      rw [(getSigFields_iff (h := a) (x := s) (y := s') (r := r)).2 (by rw [h1]; simp only [List.append_assoc, word_eq, word16_eq])]

theorem talks_signRaw (hc : Made c) (h : Handle) (l m : Bytes) (hf : ¬ Unfit c.profile (.signRaw h l m)) :
    Talks c (.signRaw h l m) := by
  simp only [Unfit, not_or, ← hc.sizes.1] at hf
  obtain ⟨h5, hl, hm⟩ := hf
  replace h5 : ¬ c.profile ≠ 5 := h5
  refine .small (fun τ t x => by
    simp only [Client.call, Client.signRaw]; rw [if_neg h5, if_neg hl, if_neg hm]) ?_ ?_
    (by rintro _ ⟨_, _, _⟩ _ _ h; cases h) (fun _ h => h)
  · rw [hc.facts.2.2, newDigest_self _ (Decidable.not_not.1 hl)]
    have : newDigest 1024 m = m ++ List.replicate (1024 - m.length) 0 := by
      rw [newDigest, List.take_of_length_le (by omega)]
    rw [this]
    split <;> simp_all [goRequest, goCode, goArgs, codesV08, codesV09]
  · intro profile payload v
    unfold readBody
    simp only [GoReply]
    constructor
    · intro h
      rcases h1 : getRawSigFields payload with _ | ⟨⟨a, b, p⟩, r⟩ <;> rw [h1] at h <;> cases h
      refine ⟨a, b.toList, p[0], r, by simp, ?_, rfl⟩
      have : p.toList = [p[0]] := by
        rcases p with ⟨⟨_ | ⟨q, _ | _⟩⟩, hq⟩ <;> simp at hq ⊢
      rw [getRawSigFields_iff.1 h1, this]
      simp only [List.append_assoc, word_eq, word16_eq]
    · rintro ⟨a, s, p, r, h0, h1, rfl⟩
      obtain ⟨s, rfl⟩ := arr_of s h0
      rw [(getRawSigFields_iff (h := a) (x := s) (p := #v[p]) (r := r)).2 (by rw [h1]; simp [List.append_assoc])]

theorem goCert_iff {limit : Nat} {n : U32} {b c : Bytes} :
    goCert limit n b = .ok c ↔ n.toNat ≤ limit ∧ ∃ r, b = c ++ r ∧ c.length = n.toNat := by
  unfold goCert
  split
  · simp; omega
  · rw [goSlice_iff]
    exact ⟨fun h => ⟨by omega, h⟩, fun h => h.2⟩

theorem goCert_big {limit : Nat} {n : U32} {b : Bytes} : goCert limit n b = .error .certTooLarge ↔ limit < n.toNat := by
  unfold goCert
  split
  · simp; omega
  · constructor
    · intro h; cases goSlice_error h
    · intro h; omega

theorem goCert_error {limit : Nat} {n : U32} {b : Bytes} {e : ClErr} (h : goCert limit n b = .error e) :
    e = .short ∨ e = .certTooLarge := by
  unfold goCert at h
  split at h
  · cases h; exact .inr rfl
  · exact .inl (goSlice_error h)

theorem talks_certify (hc : Made c) (h : Handle) (l : Bytes) (y f : U32) (hf : ¬ Unfit c.profile (.certifyKey h l y f)) :
    Talks c (.certifyKey h l y f) := by
  simp only [Unfit, ← hc.sizes.1] at hf
  obtain ⟨_, _, hkey, hcert, hml⟩ := hc.sizes
  have hreq : goMessage c.codes.certify c.profile (h.toList ++ le32 f ++ le32 y ++ newDigest c.kind.digest l) =
      goRequest c (.certifyKey h l y f) := by
    rw [hc.facts.2.2, newDigest_self _ (Decidable.not_not.1 hf)]
    split <;> simp_all [goRequest, goCode, goArgs, codesV08, codesV09]
  by_cases hb : c.profile = goMldsa
  · have hz : c.kind.curve = 2592 := by rw [hml.2 hb]; rfl
    refine .of (fun τ t x => by
      simp only [Client.call, Client.certifyKey, Client.certifyABI]; rw [if_neg hf, if_pos (show c.profile = 5 from hb)]) hreq ?_ ?_ ?_
    · intro profile payload v
      unfold readBody
      simp only [GoReply, if_pos hb, ← hkey, ← hcert]
      constructor
      · intro h
        rcases h1 : getMlKeyFields c.kind.curve payload with _ | ⟨⟨a, k, n⟩, r⟩ <;> rw [h1] at h
        · cases h
        simp only at h
        rcases h2 : goCert c.kind.certLen n r with e | cert <;> rw [h2] at h <;> cases h
        obtain ⟨h3, rest, h4, h5⟩ := goCert_iff.1 h2
        exact ⟨a, k.toList, _, n, cert, rest, by simp, by simp,
          ⟨by rw [getMlKeyFields_iff.1 h1, h4]; simp only [List.append_assoc, word_eq, word16_eq], by rw [hz]⟩, h5, h3, rfl⟩
      · rintro ⟨a, k, z, n, cert, rest, h0, h0', ⟨h1, rfl⟩, h2, h3, rfl⟩
        obtain ⟨k, rfl⟩ := arr_of k h0
        rw [(getMlKeyFields_iff (b := payload) (r := cert ++ rest) (h := a) (x := k) (k := n)).2 (by rw [h1]; simp only [List.append_assoc, word_eq, word16_eq])]
        simp only
        rw [goCert_iff.2 ⟨h3, rest, rfl, h2⟩]
        have : List.replicate c.kind.curve (0 : UInt8) = List.replicate 2592 0 := by rw [hz]
        simp only [this]
    · intro profile payload e h
      unfold readBody at h
      rcases h1 : getMlKeyFields c.kind.curve payload with _ | ⟨⟨a, k, n⟩, r⟩ <;> rw [h1] at h
      · cases h; exact .inl rfl
      simp only at h
      rcases h2 : goCert c.kind.certLen n r with e | cert <;> rw [h2] at h <;> cases h
      exact goCert_error h2
    · intro profile payload
      unfold readBody
      simp only [Oversized, if_pos hb, ← hkey, ← hcert]
      constructor
      · intro h
        rcases h1 : getMlKeyFields c.kind.curve payload with _ | ⟨⟨a, k, n⟩, r⟩ <;> rw [h1] at h
        · cases h
        simp only at h
        rcases h2 : goCert c.kind.certLen n r with e | cert <;> rw [h2] at h <;> cases h
        exact ⟨a.toList ++ k.toList, n, r, by rw [getMlKeyFields_iff.1 h1]; simp only [List.append_assoc, word_eq, word16_eq], by simp,
          goCert_big.1 h2⟩
      · rintro ⟨front, n, r, h1, h2, h3⟩
        obtain ⟨a, ha⟩ := arr_of (n := 16) (front.take 16) (by simp; omega)
        obtain ⟨k, hk⟩ := arr_of (n := c.kind.curve) (front.drop 16) (by simp; omega)
        rw [(getMlKeyFields_iff (b := payload) (h := a) (x := k) (k := n) (r := r)).2
          (by rw [h1, ha, hk, ← List.append_assoc, List.take_append_drop, List.append_assoc, word_eq])]
        simp only
        rw [goCert_big.2 h3]
  · refine .of (fun τ t x => by
      simp only [Client.call, Client.certifyKey, Client.certifyABI]; rw [if_neg hf, if_neg (show ¬ c.profile = 5 from hb)]) hreq ?_ ?_ ?_
    · intro profile payload v
      unfold readBody
      simp only [GoReply, if_neg hb, ← hkey, ← hcert]
      constructor
      · intro h
        rcases h1 : getKeyFields c.kind.curve payload with _ | ⟨⟨a, k, k', n⟩, r⟩ <;> rw [h1] at h
        · cases h
        simp only at h
        rcases h2 : goCert c.kind.certLen n r with e | cert <;> rw [h2] at h <;> cases h
        obtain ⟨h3, rest, h4, h5⟩ := goCert_iff.1 h2
        exact ⟨a, k.toList, k'.toList, n, cert, rest, by simp, by simp,
          by rw [getKeyFields_iff.1 h1, h4]; simp only [List.append_assoc, word_eq, word16_eq], h5, h3, rfl⟩
      · rintro ⟨a, k, k', n, cert, rest, h0, h0', h1, h2, h3, rfl⟩
        obtain ⟨k, rfl⟩ := arr_of k h0
        obtain ⟨k', rfl⟩ := arr_of k' h0'
        rw [(getKeyFields_iff (b := payload) (r := cert ++ rest) (h := a) (x := k) (y := k') (k := n)).2 (by rw [h1]; simp only [List.append_assoc, word_eq, word16_eq])]
        simp only
        rw [goCert_iff.2 ⟨h3, rest, rfl, h2⟩]
    · intro profile payload e h
      unfold readBody at h
      rcases h1 : getKeyFields c.kind.curve payload with _ | ⟨⟨a, k, k', n⟩, r⟩ <;> rw [h1] at h
      · cases h; exact .inl rfl
      simp only at h
      rcases h2 : goCert c.kind.certLen n r with e | cert <;> rw [h2] at h <;> cases h
      exact goCert_error h2
    · intro profile payload
      unfold readBody
      simp only [Oversized, if_neg hb, ← hkey, ← hcert]
      constructor
      · intro h
        rcases h1 : getKeyFields c.kind.curve payload with _ | ⟨⟨a, k, k', n⟩, r⟩ <;> rw [h1] at h
        · cases h
        simp only at h
        rcases h2 : goCert c.kind.certLen n r with e | cert <;> rw [h2] at h <;> cases h
        exact ⟨a.toList ++ k.toList ++ k'.toList, n, r, by rw [getKeyFields_iff.1 h1]; simp only [List.append_assoc, word_eq, word16_eq],
          by simp; omega, goCert_big.1 h2⟩
      · rintro ⟨front, n, r, h1, h2, h3⟩
        obtain ⟨a, ha⟩ := arr_of (n := 16) (front.take 16) (by simp; omega)
        obtain ⟨k, hk⟩ := arr_of (n := c.kind.curve) ((front.drop 16).take c.kind.curve) (by simp; omega)
        obtain ⟨k', hk'⟩ := arr_of (n := c.kind.curve) ((front.drop 16).drop c.kind.curve) (by simp; omega)
        rw [(getKeyFields_iff (b := payload) (h := a) (x := k) (y := k') (k := n) (r := r)).2
          (by rw [h1, ha, hk, hk', ← List.append_assoc (List.take _ (List.drop _ _)), List.take_append_drop,
                ← List.append_assoc, List.take_append_drop, List.append_assoc, word_eq])]
        simp only
        rw [goCert_big.2 h3]

theorem talks (hc : Made c) (hf : ¬ Unfit c.profile k) : Talks c k := by
  cases k with
  | «initialize» f => exact talks_init hc f
  | getProfile => exact talks_getProfile
  | certifyKey h l y f => exact talks_certify hc h l y f hf
  | destroy h => exact talks_destroy hc h
  | derive h d f y l => exact talks_derive hc h d f y l hf
  | rotate h f => exact talks_rotate hc h f
  | sign h l f d => exact talks_sign hc h l f d hf
  | signRaw h l m => exact talks_signRaw hc h l m hf
  | update h d y => exact talks_update hc h d y hf

/-- C70: any other call sends exactly one message, with its arguments in their places, and its result is what
the answer holds: for any answer exactly one result, and none of them a crash. -/
theorem C70_call (hc : Made c) (hf : ¬ Unfit c.profile k) (t : Transport τ) (x : τ) :
    ∃ r, c.call t k x = (r, (t (goRequest c k) x).2) ∧ Result c k (t (goRequest c k) x).1 r ∧
      (∀ r', Result c k (t (goRequest c k) x).1 r' → r' = r) ∧ ((t (goRequest c k) x).1 ≠ .error .panic → r ≠ .error .panic) := by
  obtain ⟨post, h1, h2⟩ := talks hc hf
  rw [h1]
  rcases t (goRequest c k) x with ⟨e | resp, x'⟩
  · exact ⟨.error e, rfl, rfl, fun r' h => h, fun h h' => h (by cases h'; rfl)⟩
  · refine ⟨_, rfl, (h2 resp _).1 rfl, fun r' h => ((h2 _ _).2 h).symm, fun _ h => ?_⟩
    have := (h2 resp _).1 h
    cases this

/-! ### The certificate chain -/

theorem chain_exec (hc : Made c) {t : Transport τ} {offset : U32} {x : τ} :
    ∃ a x', (execCommand t c.codes.chain c.profile (le32 offset ++ le32 2048) getChainFields x) = (a, x') ∧
      ∀ r y, Piece c t offset x r y ↔ y = x' ∧ match a with
        | .error e => r = .error e
        | .ok (_, v, _) => r = .ok v := by
  have hreq : le32 0x44504543 ++ le32 c.codes.chain ++ le32 c.profile ++ (le32 offset ++ le32 2048) =
      chainRequest c offset := by
    rw [hc.facts.2.2]
    split <;> simp_all [chainRequest, goMessage, codesV08, codesV09]
  unfold execCommand Piece
  rw [hreq]
  rcases t (chainRequest c offset) x with ⟨e | resp, x'⟩
  · exact ⟨_, _, rfl, fun r y => and_comm⟩
  · refine ⟨_, _, rfl, fun r y => ?_⟩
    have := received_iff (rsp := getChainFields) (f := fun (_, v, _) => .ok v) (R := fun _ => ChainReply)
      (Big := fun _ => False) ?_ ?_ ?_ resp r
    · simp only [← this, andThen', and_comm (a := y = x')]
      refine and_congr_left fun _ => ?_
      rcases goResponse getChainFields resp with e | ⟨_, v, _⟩ <;> exact eq_comm
    · rintro profile payload ⟨n, b⟩
      unfold readBody ChainReply
      constructor
      · intro h
        rcases h1 : getChainFields payload with _ | ⟨v, r⟩ <;> rw [h1] at h <;> cases h
        exact ⟨r, by rw [getChainFields_iff.1 h1, List.append_assoc, word_eq]⟩
      · rintro ⟨r, h1⟩
        rw [(getChainFields_iff (b := payload) (n := n) (x := b) (r := r)).2 (by rw [h1, List.append_assoc, word_eq])]
    · intro profile payload e h
      unfold readBody at h
      generalize getChainFields payload = ans at h
      rcases ans with _ | ⟨v, r⟩ <;> cases h
      exact .inl rfl
    · intro profile payload
      unfold readBody
      rcases getChainFields payload with _ | ⟨v, r⟩ <;> simp

theorem chainLoop_fetched (hc : Made c) {t : Transport τ} {r : Except ClErr Bytes} {x' : τ} :
    ∀ (fuel : Nat) (offset : U32) (got : Bytes) (x : τ), c.chainLoop t fuel offset got x = some (r, x') →
      ∃ r0, Fetched c t offset x r0 x' ∧ r = match r0 with | .error e => .error e | .ok b => .ok (got ++ b) := by
  intro fuel
  induction fuel with
  | zero => intro offset got x h; cases h
  | succ fuel ih =>
    intro offset got x h
    obtain ⟨a, x1, h1, h2⟩ := chain_exec hc (t := t) (offset := offset) (x := x)
    simp only [Client.chainLoop, h1] at h
    rcases a with e | ⟨g, ⟨n, b⟩, r'⟩
    · have hp := (h2 (.error e) x1).2 ⟨rfl, rfl⟩
      simp only at h
      split at h
      · rename_i he
        subst he
        cases h
        exact ⟨_, .stop hp, by simp⟩
      · rename_i he
        cases h
        exact ⟨_, .fails hp he, rfl⟩
    · have hp := (h2 (.ok (n, b)) x1).2 ⟨rfl, rfl⟩
      simp only at h
      split at h
      · rename_i hn
        cases h
        exact ⟨_, .crash hp hn, rfl⟩
      · split at h
        · rename_i hn
          cases h
          exact ⟨_, .last hp hn, rfl⟩
        · have hn : n = 2048 := by apply BitVec.eq_of_toNat_eq; simp; omega
          subst hn
          have hb : b.toList.take (2048 : U32).toNat = b.toList := List.take_of_length_le (by simp)
          rw [hb] at h
          obtain ⟨r0, h3, h4⟩ := ih _ _ _ h
          rcases r0 with e | b'
          · exact ⟨_, .late hp h3, h4⟩
          · exact ⟨_, .more hp h3, by rw [h4]; simp⟩

theorem fetched_chainLoop (hc : Made c) {t : Transport τ} {offset : U32} {x x' : τ} {r0 : Except ClErr Bytes}
    (h : Fetched c t offset x r0 x') : ∃ fuel, ∀ got, c.chainLoop t fuel offset got x =
      some (match r0 with | .error e => .error e | .ok b => .ok (got ++ b), x') := by
  have key : ∀ {offset x r y}, Piece c t offset x r y →
      ∃ a, execCommand t c.codes.chain c.profile (le32 offset ++ le32 2048) getChainFields x = (a, y) ∧
        match a with
        | .error e => r = .error e
        | .ok (_, v, _) => r = .ok v := by
    intro offset x r y hp
    obtain ⟨a, x1, h1, h2⟩ := chain_exec hc (t := t) (offset := offset) (x := x)
    obtain ⟨rfl, h3⟩ := (h2 _ _).1 hp
    exact ⟨a, h1, h3⟩
  have full : ∀ b : BArr 2048, b.toList.take (2048 : U32).toNat = b.toList := fun b => List.take_of_length_le (by simp)
  induction h with
  | last hp hn =>
    obtain ⟨a | ⟨g, ⟨n, b⟩, r'⟩, h1, h2⟩ := key hp <;> cases h2
    exact ⟨1, fun got => by simp only [Client.chainLoop, h1]; rw [if_neg (by omega), if_pos hn]⟩
  | stop hp =>
    obtain ⟨a | ⟨g, ⟨n, b⟩, r'⟩, h1, h2⟩ := key hp <;> cases h2
    exact ⟨1, fun got => by simp only [Client.chainLoop, h1]; rw [if_pos trivial, List.append_nil]⟩
  | more hp _ ih =>
    obtain ⟨fuel, ih⟩ := ih
    obtain ⟨a | ⟨g, ⟨n, b⟩, r'⟩, h1, h2⟩ := key hp <;> cases h2
    refine ⟨fuel + 1, fun got => ?_⟩
    simp only [Client.chainLoop, h1]
    rw [if_neg (by decide), if_neg (by decide), full, ih]
    simp only [List.append_assoc, word_eq, word16_eq]
  | late hp _ ih =>
    obtain ⟨fuel, ih⟩ := ih
    obtain ⟨a | ⟨g, ⟨n, b⟩, r'⟩, h1, h2⟩ := key hp <;> cases h2
    refine ⟨fuel + 1, fun got => ?_⟩
    simp only [Client.chainLoop, h1]
    rw [if_neg (by decide), if_neg (by decide), full, ih]
  | fails hp he =>
    obtain ⟨a | ⟨g, ⟨n, b⟩, r'⟩, h1, h2⟩ := key hp <;> cases h2
    exact ⟨1, fun got => by simp only [Client.chainLoop, h1]; rw [if_neg he]⟩
  | crash hp hn =>
    obtain ⟨a | ⟨g, ⟨n, b⟩, r'⟩, h1, h2⟩ := key hp <;> cases h2
    exact ⟨1, fun got => by simp only [Client.chainLoop, h1]; rw [if_pos hn]⟩

/-- C70: GetCertificateChain ends with a result exactly if the pieces that the other end gives make it, and
reports an empty chain. -/
theorem C70_chain (hc : Made c) (t : Transport τ) (x x' : τ) (r : Except ClErr Bytes) :
    (∃ fuel, c.getChain t fuel x = some (r, x')) ↔
      ∃ r0, Fetched c t 0 x r0 x' ∧ r = if r0 = .ok [] then .error .emptyChain else r0 := by
  constructor
  · rintro ⟨fuel, h⟩
    unfold Client.getChain at h
    rcases h1 : c.chainLoop t fuel 0 [] x with _ | ⟨_ | got, y⟩ <;> rw [h1] at h <;> simp only at h
    · cases h
    · cases h
      obtain ⟨r0, h2, h3⟩ := chainLoop_fetched hc _ _ _ _ h1
      rcases r0 with e | b <;> cases h3
      exact ⟨_, h2, by simp⟩
    · obtain ⟨r0, h2, h3⟩ := chainLoop_fetched hc _ _ _ _ h1
      rcases r0 with e | b <;> cases h3
      simp only [List.nil_append] at h
      split at h <;> rename_i hb <;> cases h
      · subst hb
        exact ⟨_, h2, by simp⟩
      · exact ⟨_, h2, by simp [hb]⟩
  · rintro ⟨r0, h, rfl⟩
    obtain ⟨fuel, h1⟩ := fetched_chainLoop hc h
    refine ⟨fuel, ?_⟩
    unfold Client.getChain
    rw [h1 []]
    rcases r0 with e | b
    · simp
    · simp only [List.nil_append, Except.ok.injEq]
      split <;> rfl

/-- C70: no answers crash the client, except pieces of a chain that are announced with more bytes than were
asked for. -/
theorem C70_safe_partial (hc : Made c) (t : Transport τ) (ht : ∀ b y, (t b y).1 ≠ .error .panic)
    (hn : ∀ offset y n b y', Piece c t offset y (.ok (n, b)) y' → n.toNat ≤ 2048) :
    (∀ k x, (c.call t k x).1 ≠ .error .panic) ∧ (∀ fuel x x', c.getChain t fuel x ≠ some (.error .panic, x')) := by
  constructor
  · intro k x
    by_cases hf : Unfit c.profile k
    · obtain ⟨e, he, h⟩ := C70_unfit hc t x hf
      rw [h]
      rcases he with rfl | rfl <;> simp
    · obtain ⟨r, h1, _, _, h4⟩ := C70_call hc hf t x
      rw [h1]
      exact h4 (ht _ _)
  · intro fuel x x' h
    obtain ⟨r0, h1, h2⟩ := (C70_chain hc t x x' _).1 ⟨fuel, h⟩
    have key : ∀ {offset x r0 x'}, Fetched c t offset x r0 x' → r0 ≠ .error .panic := by
      intro offset x r0 x' h
      induction h with
      | last => simp
      | stop => simp
      | more => simp
      | late _ _ ih => exact ih
      | @fails offset x x' e hp he =>
        rintro h; cases h
        unfold Piece at hp
        rcases h3 : t (chainRequest c offset) x with ⟨e | resp, y⟩ <;> rw [h3] at hp
        · obtain ⟨h4, _⟩ := hp
          cases h4
          exact ht _ _ (by rw [h3])
        · obtain ⟨h4, _⟩ := hp
          cases h4
      | crash hp hn' => have := hn _ _ _ _ _ hp; omega
    split at h2
    · cases h2
    · exact key h1 h2.symm

/-! ### The crash -/

/-- Something that answers every command like a device of the ML-DSA profile, version 0.13, and every request
for the chain with a piece of 2049 bytes. -/
def liar : Transport Unit := fun b x =>
  if b = goMessage 1 0 [] then
    (.ok (goAnswer 0 5 (le16 0 ++ le16 13 ++ le32 0 ++ le32 0 ++ le32 24 ++ le32 0)), x)
  else (.ok (goAnswer 0 5 (le32 2049 ++ List.replicate 2048 0)), x)

theorem liar_profile : Received ProfileReply (fun _ => False)
    (goAnswer 0 5 (le16 0 ++ le16 13 ++ le32 0 ++ le32 0 ++ le32 24 ++ le32 0)) (.ok ⟨5, 0, 13, 0, 0, 24, 0⟩) :=
  .value ⟨rfl, [], by simp⟩

theorem liar_made : ∃ c, newClient liar 5 () = (.ok c, ()) ∧ c.profile = 5 ∧ c.minor = 13 := by
  refine ⟨⟨.mldsa87, codesV09, 5, 0, 13, 0, 0, 0, 0⟩, ?_, rfl, rfl⟩
  rw [newClient_eq, if_pos (by decide),
    (goGetProfile_received (r := .ok ⟨5, 0, 13, 0, 0, 24, 0⟩) (x' := ())).2 (by
      rw [show liar (goMessage 1 0 []) () = _ from if_pos rfl]
      exact ⟨liar_profile, rfl⟩)]
  rfl

/-- C70 fails: a device can crash the client. -/
theorem C70_crash : ∃ c, Made c ∧ ∃ fuel, c.getChain liar fuel () = some (.error .panic, ()) := by
  obtain ⟨c, h, hp, hm⟩ := liar_made
  have hc : Made c := ⟨_, _, _, _, _, h⟩
  refine ⟨c, hc, (C70_chain hc liar () () _).2 ⟨.error .panic, .crash (n := 2049) (b := Vector.replicate 2048 0) ?_ (by decide), rfl⟩⟩
  unfold Piece
  rw [show liar (chainRequest c 0) () = (.ok (goAnswer 0 5 (le32 2049 ++ List.replicate 2048 0)), ()) from if_neg (by
    unfold chainRequest
    rw [hp, hm]
    decide)]
  exact ⟨.value ⟨[], by rw [List.append_nil, Vector.toList_replicate, word_eq]⟩, rfl⟩

/-- A piece that is announced with more bytes than were asked for is all it takes, for every client. -/
theorem C70_crash_all (hc : Made c) {t : Transport τ} {x x' : τ} {n : U32} {b : BArr 2048}
    (h : Piece c t 0 x (.ok (n, b)) x') (hn : 2048 < n.toNat) :
    ∃ fuel, c.getChain t fuel x = some (.error .panic, x') :=
  (C70_chain hc t x x' _).2 ⟨_, .crash h hn, by simp⟩

/-! ### Examples -/

/-- Something that gives the same answer to everything. -/
def parrot (a : Bytes) : Transport Unit := fun _ x => (.ok a, x)

/-- A client of the minimal P-256 profile, version 0.8, and what it makes of three answers to
RotateContextHandle: a handle with a byte behind it, a status, and too few bytes. -/
theorem old_client : ∃ c, newClient (parrot (goAnswer 0 1 (le16 0 ++ le16 8 ++ le32 7 ++ le32 9 ++ le32 8 ++ le32 3))) 1 () =
    (.ok c, ()) ∧ c.profile = 1 ∧ c.minor = 8 ∧ c.vendorSku = 9 := by
  refine ⟨⟨.min256, codesV08, 1, 0, 8, 7, 9, 0, 3⟩, ?_, rfl, rfl, rfl⟩
  rw [newClient_eq, if_pos (by decide),
    (goGetProfile_received (t := parrot _) (r := .ok ⟨1, 0, 8, 7, 9, 8, 3⟩) (x' := ())).2
      (And.intro (.value ⟨rfl, [], by simp⟩) rfl)]
  rfl

example : ∃ c, Made c ∧ goRequest c (.rotate (Vector.replicate 16 1) 2) =
      le32 0x44504543 ++ le32 14 ++ le32 1 ++ List.replicate 16 1 ++ le32 2 ∧
    goRequest c (.initialize 4) = le32 0x44504543 ++ le32 5 ++ le32 1 ++ le32 4 ∧
    c.call (parrot (goAnswer 0 1 (List.replicate 16 3 ++ [8]))) (.rotate (Vector.replicate 16 1) 2) () =
      (.ok (.handle (Vector.replicate 16 3)), ()) ∧
    c.call (parrot (goAnswer 0x80 1 [])) (.rotate (Vector.replicate 16 1) 2) () = (.error (.status 0x80), ()) ∧
    c.call (parrot (goAnswer 0 1 (List.replicate 15 3))) (.rotate (Vector.replicate 16 1) 2) () = (.error .short, ()) := by
  obtain ⟨c, h, hp, hm, _⟩ := old_client
  have hc : Made c := ⟨_, _, _, _, _, h⟩
  have call : ∀ a r, Received (GoReply c.profile (.rotate (Vector.replicate 16 1) 2))
      (Oversized c.profile (.rotate (Vector.replicate 16 1) 2)) a r →
      c.call (parrot a) (.rotate (Vector.replicate 16 1) 2) () = (r, ()) := by
    intro a r h
    obtain ⟨r', h1, _, h3, _⟩ := C70_call hc (k := .rotate (Vector.replicate 16 1) 2) (fun h => h) (parrot a) ()
    rw [h1, h3 r h]
  refine ⟨c, hc, ?_, ?_, call _ _ (.value ⟨_, [8], rfl, rfl⟩), call _ _ (.status (by decide)), call _ _ (.short ?_ (fun h => h))⟩
  · simp [goRequest, goMessage, goArgs, goCode, hp]
  · simp [goRequest, goMessage, goArgs, goCode, hp, hm]
  · rintro v ⟨h, rest, h1, _⟩
    have := congrArg List.length h1
    simp at this
    omega

end Dpe
