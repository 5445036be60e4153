import Verif.Spec.Client
import Verif.Props.Simulator
/-
The Go client on the simulator.
-/
namespace Dpe
variable {cfg : Cfg} {σ τ : Type}

/-! ### Readers -/

theorem getU32_le (x : U32) (r : Bytes) : getU32 (le32 x ++ r) = some (x, r) := getU32_iff.2 rfl
theorem getU16_le (x : BitVec 16) (r : Bytes) : getU16 (le16 x ++ r) = some (x, r) := getU16_iff.2 rfl
theorem getArr_app {n : Nat} (x : BArr n) (r : Bytes) : getArr n (x.toList ++ r) = some (x, r) := getArr_iff.2 rfl
theorem getArr_end {n : Nat} (x : BArr n) : getArr n x.toList = some (x, []) := getArr_iff.2 (by simp)
theorem getU32_end (x : U32) : getU32 (le32 x) = some (x, []) := getU32_iff.2 (by simp)

theorem successBytes_le (p : Profile) :
    successBytes p = le32 0x44504552 ++ (le32 0 ++ le32 (wireProfile p)) := by cases p <;> decide

theorem goResponse_success {α : Type} (p : Profile) (rsp : Bytes → Option (α × Bytes)) (r : Bytes) :
    goResponse rsp (successBytes p ++ r) =
      match rsp r with
      | none => .error .short
      | some (a, r) => .ok (⟨0x44504552, 0, wireProfile p⟩, a, r) := by
  rw [successBytes_le]
  simp only [goResponse, getGoHdr, List.append_assoc, getU32_le, bind, Option.bind, pure]
  rfl

theorem goResponse_error {α : Type} (p : Profile) (rsp : Bytes → Option (α × Bytes)) {e : Err}
    (he : statusWord e ≠ 0) : goResponse rsp (errorAnswer p e) = .error (.status (statusWord e)) := by
  have : errorAnswer p e = le32 0x44504552 ++ (le32 (statusWord e) ++ le32 (wireProfile p)) := by
    rw [errorAnswer, word_eq, word_eq, List.append_assoc]; rfl
  rw [this]
  simp only [goResponse, getGoHdr, getU32_le, getU32_end, bind, Option.bind, pure, checkRespHdr]
  rw [if_neg (by decide), if_pos he]

theorem goResponse_nil {α : Type} (rsp : Bytes → Option (α × Bytes)) : goResponse rsp [] = .error .short := rfl

theorem newDigest_self {n : Nat} (b : Bytes) (h : b.length = n) : newDigest n b = b := by
  subst h; simp [newDigest]

theorem newDigest_arr {n : Nat} (b : BArr n) : newDigest n b.toList = b.toList := newDigest_self _ (by simp)

theorem newDigest_padded {n : Nat} {m : Bytes} {d : BArr n} (h : Padded m d.toList) :
    newDigest n m = d.toList := by
  obtain ⟨k, hk⟩ := h
  have hl : d.toList.length = n := by simp
  rw [hk] at hl ⊢
  simp at hl
  rw [newDigest, List.take_of_length_le (by omega), show n - m.length = k by omega]

/-! ### Sending -/

/-- The client fits the instance. -/
structure Client.Fits (cfg : Cfg) (c : Client) : Prop where
  kind : c.kind = clientKind cfg.profile
  codes : c.codes = codesV09
  profile : c.profile = wireProfile cfg.profile

theorem wire_request {prof : U32} {cmd : Cmd cfg} {code : U32} {body : Bytes}
    (hi : code = cmd.id) (hb : body = cmd.asBytes) :
    le32 0x44504543 ++ le32 code ++ le32 prof ++ body = wire prof cmd := by
  rw [wire, wireHeader_eq, wireBody_eq, wireId_eq, hi, hb]
  simp [cmdMagic]

theorem request_of_wire {addr : Nat} {loc prof : U32} {cmd : Cmd cfg} (hp : cmd = .getProfile ∨ prof = wireProfile cfg.profile)
    (hin : InProfile cfg cmd) (ha : Aligned addr cmd) : IsRequest addr (le32 loc ++ wire prof cmd) loc cmd :=
  ⟨prof, [], by rw [word_eq, List.append_nil], hp, hin, ha⟩

/-- Continue with the response. -/
def andThen' {α β : Type} (r : Except ClErr α) (f : α → Except ClErr β) : Except ClErr β :=
  match r with
  | .error e => .error e
  | .ok a => f a

theorem andThen_exec {α β : Type} {t : Transport τ} {code prof : U32} {body : Bytes}
    {rsp : Bytes → Option (α × Bytes)} {f : GoHdr × α × Bytes → Except ClErr β} {x : τ} :
    andThen (execCommand t code prof body rsp x) f =
      match t (le32 0x44504543 ++ le32 code ++ le32 prof ++ body) x with
      | (.error e, x') => (.error e, x')
      | (.ok resp, x') => (andThen' (goResponse rsp resp) f, x') := by
  unfold execCommand andThen andThen'
  rcases t (le32 0x44504543 ++ le32 code ++ le32 prof ++ body) x with ⟨_ | resp, x'⟩
  · rfl
  · rcases h : goResponse rsp resp with _ | _ <;> simp only [h]

/-! ### What each call sends and makes of the reply -/

/-- A call that is one exchange: it sends `cmd`, and makes of any reply of `cmd` what it should. -/
def Exchange (cfg : Cfg) (ops : Ops σ) (c : Client) (k : GoCall) (cmd : Cmd cfg) : Prop :=
  ∃ (prof : U32) (post : Bytes → Except ClErr GoValue),
    (cmd = .getProfile ∨ prof = wireProfile cfg.profile) ∧
    (∀ (τ : Type) (t : Transport τ) (x : τ), c.call t k x =
      match t (wire prof cmd) x with
      | (.error e, x') => (.error e, x')
      | (.ok resp, x') => (post resp, x')) ∧
    (∀ e : Err, statusWord e ≠ 0 → post (errorAnswer cfg.profile e) = .error (.status (statusWord e))) ∧
    post [] = .error .short ∧
    (∀ st loc w reply st' w', Succeeds ops st loc w cmd reply st' w' →
      ∃ v, post reply = .ok v ∧ Answer cfg k reply v)

theorem Exchange.of {ops : Ops σ} {c : Client} {k : GoCall} {cmd : Cmd cfg} {α : Type} {code prof : U32} {body : Bytes}
    {rsp : Bytes → Option (α × Bytes)} {f : GoHdr × α × Bytes → Except ClErr GoValue}
    (hp : cmd = .getProfile ∨ prof = wireProfile cfg.profile)
    (hcall : ∀ (τ : Type) (t : Transport τ) (x : τ), c.call t k x = andThen (execCommand t code prof body rsp x) f)
    (hi : code = cmd.id) (hb : body = cmd.asBytes)
    (hpost : ∀ st loc w reply st' w', Succeeds ops st loc w cmd reply st' w' →
      ∃ v, andThen' (goResponse rsp reply) f = .ok v ∧ Answer cfg k reply v) :
    Exchange cfg ops c k cmd := by
  refine ⟨prof, fun resp => andThen' (goResponse rsp resp) f, hp, ?_, ?_, ?_, hpost⟩
  · intro τ t x
    rw [hcall, andThen_exec, wire_request hi hb]
  · intro e he
    show andThen' (goResponse rsp _) f = _
    rw [goResponse_error _ _ he]; rfl
  · rfl

variable {ops : Ops σ} {c : Client}

theorem exchange_getProfile : Exchange cfg ops c .getProfile .getProfile := by
  refine .of (prof := 0) (code := 1) (body := []) (rsp := goProfileFields)
    (f := fun (h, (ma, mi, v, k, n, f), _) => .ok (.profile ⟨h.profile, ma, mi, v, k, n, f⟩)) (.inl rfl) ?_ rfl rfl ?_
  · intro τ t x
    simp only [Client.call, goGetProfile]
    rcases execCommand t 1 0 [] goProfileFields x with ⟨_ | ⟨_, ⟨_, _, _, _, _, _⟩, _⟩, _⟩ <;> rfl
  · rintro st loc w reply st' w' ⟨_, ⟨vid, sku, w1, _, _, _, rfl⟩, _⟩
    refine ⟨_, ?_, vid, sku, st.support, rfl, rfl⟩
    have e : ([0, 0, 13, 0] : Bytes) = le16 0 ++ le16 13 := by decide
    simp only [profileReply, word_eq, List.append_assoc, goResponse_success, goProfileFields]
    rw [e]
    simp only [List.append_assoc, getU16_le, getU32_le, getU32_end, bind, Option.bind, pure, andThen']

theorem exchange_init (hc : c.Fits cfg) (f : U32) : Exchange cfg ops c (.initialize f) (.init f) := by
  refine .of (.inr hc.profile) (fun τ t x => rfl) (by rw [hc.codes]; rfl) rfl ?_
  rintro st loc w reply st' w' ⟨_, ⟨i, h, _, _, _, _, _, _, rfl⟩, _⟩
  refine ⟨_, ?_, h, rfl, rfl⟩
  simp [handlesReply, goResponse_success, getHandle, getArr_end, andThen']

theorem exchange_rotate (hc : c.Fits cfg) (h : Handle) (f : U32) :
    Exchange cfg ops c (.rotate h f) (.rotate { handle := h, flags := f }) := by
  refine .of (.inr hc.profile) (fun τ t x => rfl) (by rw [hc.codes]; rfl) rfl ?_
  rintro st loc w reply st' w' ⟨_, ⟨i, h, _, _, _, rfl⟩, _⟩
  refine ⟨_, ?_, h, rfl, rfl⟩
  simp [handlesReply, goResponse_success, getHandle, getArr_end, andThen']

theorem exchange_destroy (hc : c.Fits cfg) (h : Handle) : Exchange cfg ops c (.destroy h) (.destroy h) := by
  refine .of (.inr hc.profile) (fun τ t x => rfl) (by rw [hc.codes]; rfl) rfl ?_
  rintro st loc w reply st' w' ⟨_, ⟨i, _, _, _, rfl⟩, _⟩
  refine ⟨_, ?_, rfl, rfl⟩
  rw [handlesReply, goResponse_success]; rfl

theorem Client.Fits.digest (hc : c.Fits cfg) : c.kind.digest = digestLength cfg.profile := by
  rw [hc.kind]; cases cfg.profile <;> rfl

theorem exchange_update (hc : c.Fits cfg) (ht : cfg.tciSize = digestLength cfg.profile) (h : Handle)
    (d : BArr cfg.tciSize) (y : U32) : Exchange cfg ops c (.update h d.toList y)
      (.update { parentHandle := h, data := d, reserved := 0, tciType := y, reservedSvn := 0 }) := by
  have hd : c.kind.digest = cfg.tciSize := by rw [hc.digest, ht]
  refine .of (code := c.codes.update) (prof := c.profile) (rsp := getHandles)
    (body := h.toList ++ d.toList ++ le32 0 ++ le32 y ++ le32 0)
    (f := fun (_, (h, p), _) => .ok (.updated h p)) (.inr hc.profile) (fun τ t x => ?_) (by rw [hc.codes]; rfl) rfl ?_
  · simp only [Client.call, Client.update]
    rw [if_neg (by rw [hd]; simp), hd, newDigest_arr]
  rintro st loc w reply st' w' ⟨_, ⟨i, k, v, w1, hp, w2, st1, hch, _, _, _, _, _, _, _, rfl⟩, _⟩
  refine ⟨_, ?_, hch, hp, rfl, rfl⟩
  simp [handlesReply, goResponse_success, getHandles, getArr_app, getArr_end, andThen']

theorem goSlice_all (b : Bytes) : goSlice b.length b = .ok b := by simp [goSlice]

theorem exchange_derive (hc : c.Fits cfg) (ht : cfg.tciSize = digestLength cfg.profile) (h : Handle)
    (d : BArr cfg.tciSize) (f y l : U32) : Exchange cfg ops c (.derive h d.toList f y l)
      (.derive { handle := h, data := d, flags := f, tciType := y, targetLocality := l, svn := 0 }) := by
  have hd : c.kind.digest = cfg.tciSize := by rw [hc.digest, ht]
  have hbit : f &&& 0x00800000 = 0x00800000 ↔ Bit f DFlag.exportCdi := by
    have e : (0x00800000 : U32) = BitVec.twoPow 32 23 := by decide
    rw [e, BitVec.and_twoPow]
    unfold Bit DFlag.exportCdi
    split
    · simp [*]
    · exact ⟨fun h => absurd h (by decide), fun h => absurd h ‹_›⟩
  by_cases he : Bit f DFlag.exportCdi
  · refine .of (code := c.codes.derive) (prof := c.profile) (rsp := getExportFields)
      (body := h.toList ++ d.toList ++ le32 f ++ le32 y ++ le32 l ++ le32 0)
      (f := fun (_, (h, p, cdi, n), r) =>
        match goSlice n.toNat r with
        | .error e => .error e
        | .ok cert => .ok (.derived h p cdi n cert)) (.inr hc.profile) (fun τ t x => ?_) (by rw [hc.codes]; rfl) rfl ?_
    · simp only [Client.call, Client.derive, Client.deriveABI]
      rw [if_neg (by rw [hd]; simp), hd, newDigest_arr, if_pos (hbit.2 he)]
      rfl
    rintro st loc w reply st' w' ⟨hno, ⟨i, hres, hs⟩, _⟩
    have hr : ¬ Bit f DFlag.recursive := by
      intro hr
      simp only [NoRefusal, rules, earlyRules, lateRules, lookupRules, List.cons_append, List.nil_append,
        List.append_nil, List.mem_cons, List.not_mem_nil, or_false, forall_eq_or_imp, forall_eq] at hno
      exact hno.2.2.2.1 ⟨i, hres, .inr (.inl ⟨he, .inr (.inl hr)⟩)⟩
    dsimp only at hs
    rw [if_neg hr, if_pos he] at hs
    obtain ⟨hp, s, w0, u, k, w1, D, w2, t, cdi, _, _, _, _, _, _, hl, _, _, rfl⟩ := hs
    refine ⟨.derived Handle.invalid hp cdi (BitVec.ofNat 32 t.written.length) t.written, ?_, ?_⟩
    rotate_left
    · dsimp only [Answer]
      rw [if_pos he]
      exact ⟨hp, cdi, t.written, rfl, by omega, rfl⟩
    have hi : List.replicate 16 (0xFF : UInt8) = Handle.invalid.toList := by decide
    simp only [exportReply, word_eq, List.append_assoc, goResponse_success, getExportFields, hi]
    simp only [getArr_app, getU32_le, bind, Option.bind, pure, andThen']
    rw [BitVec.toNat_ofNat, Nat.mod_eq_of_lt (by omega), goSlice_all]
  · refine .of (code := c.codes.derive) (prof := c.profile) (rsp := getHandles)
      (body := h.toList ++ d.toList ++ le32 f ++ le32 y ++ le32 l ++ le32 0)
      (f := fun (_, (h, p), _) => .ok (.derived h p (Vector.replicate 32 0) 0 []))
      (.inr hc.profile) (fun τ t x => ?_) (by rw [hc.codes]; rfl) rfl ?_
    · simp only [Client.call, Client.derive, Client.deriveABI]
      rw [if_neg (by rw [hd]; simp), hd, newDigest_arr, if_neg (fun h => he (hbit.1 h))]
    rintro st loc w reply st' w' ⟨hno, ⟨i, hres, hs⟩, _⟩
    dsimp only at hs
    have : ∃ a b, reply = handlesReply cfg.profile [a, b] := by
      split_ifs at hs
      · obtain ⟨_, _, a, _, _, _, rfl⟩ := hs; exact ⟨_, _, rfl⟩
      · obtain ⟨_, _, _, _, _, _, _, _, _, _, _, _, _, _, _, _, _, rfl⟩ := hs; exact ⟨_, _, rfl⟩
    obtain ⟨a, b, rfl⟩ := this
    refine ⟨.derived a b (Vector.replicate 32 0) 0 [], ?_, ?_⟩
    rotate_left
    · dsimp only [Answer]
      rw [if_neg he]
      exact ⟨a, b, rfl, rfl⟩
    simp [handlesReply, goResponse_success, getHandles, getArr_app, getArr_end, andThen']

/-! ### Keys and signatures -/

theorem goCert_fits {limit : Nat} {cert : Bytes} (h : cert.length ≤ limit) (hl : cert.length < 2 ^ 32) :
    goCert limit (BitVec.ofNat 32 cert.length) cert = .ok cert := by
  rw [goCert, BitVec.toNat_ofNat, Nat.mod_eq_of_lt hl, if_neg (by omega), goSlice_all]

/-- Certificates fit into the client's buffer. -/
theorem certLen_enough (hs : cfg.Standard) : cfg.maxCertSize ≤ (clientKind cfg.profile).certLen := by
  have h64 := cfg.le64
  rw [hs.cert]
  unfold advertised
  cases cfg.profile <;> simp only [clientKind, ClKind.certLen] <;> omega

theorem exchange_certify256 (hc : c.Fits cfg) (hs : cfg.Standard) (hp : cfg.profile = .p256) (h : Handle)
    (l : BArr 32) (format f : U32) :
    Exchange cfg ops c (.certifyKey h l.toList format f) (.certify (.p256 h f format l)) := by
  have hk : c.kind = .p256 := by rw [hc.kind, hp]; rfl
  have hpr : c.profile = 3 := by rw [hc.profile, hp]; rfl
  have hlen : cfg.maxCertSize ≤ (ClKind.p256).certLen := by
    have := certLen_enough hs
    rwa [hp] at this
  refine .of (code := c.codes.certify) (prof := c.profile) (rsp := getKeyFields 32)
    (body := h.toList ++ le32 f ++ le32 format ++ l.toList)
    (f := fun (_, (h, k, l, n), r) =>
        match goCert (ClKind.p256).certLen n r with
        | .error e => .error e
        | .ok cert => .ok (.key h k.toList l.toList cert))
    (.inr hc.profile) (fun τ t x => ?_) (by rw [hc.codes]; rfl) rfl ?_
  · simp only [Client.call, Client.certifyKey, Client.certifyABI]
    rw [hk, if_neg (by simp [ClKind.digest]), if_neg (by rw [hpr]; decide)]
    simp only [ClKind.digest, ClKind.curve, newDigest_arr]
    rfl
  rintro st loc w reply st' w' ⟨_, ⟨kind, D, w1, t, w2, h', _, _, _, hw, hl, _, _, rfl⟩, hsz⟩
  rcases hD : D.key with ⟨x, y⟩ | ⟨x, y⟩ | k <;> rw [hD] at hw hsz <;> try exact hw.elim
  refine ⟨_, ?_, h', .p256 x y, t.written, by rw [hp]; trivial, rfl, rfl⟩
  have hsb : (successBytes cfg.profile).length = 12 := by cases cfg.profile <;> rfl
  have hb : t.written.length ≤ cfg.maxCertSize := by
    simp [certifyReply, keyFields, le32_length, hsb, Cmd.respKind, RespKind.size] at hsz
    omega
  simp only [certifyReply, word_eq, keyFields, List.append_assoc, goResponse_success, getKeyFields]
  simp only [getArr_app, getU32_le, bind, Option.bind, pure, andThen']
  rw [goCert_fits (Nat.le_trans hb hlen) (by omega)]

theorem exchange_certify384 (hc : c.Fits cfg) (hs : cfg.Standard) (hp : cfg.profile = .p384) (h : Handle)
    (l : BArr 48) (format f : U32) :
    Exchange cfg ops c (.certifyKey h l.toList format f) (.certify (.p384 h f format l)) := by
  have hk : c.kind = .p384 := by rw [hc.kind, hp]; rfl
  have hpr : c.profile = 4 := by rw [hc.profile, hp]; rfl
  have hlen : cfg.maxCertSize ≤ (ClKind.p384).certLen := by
    have := certLen_enough hs
    rwa [hp] at this
  refine .of (code := c.codes.certify) (prof := c.profile) (rsp := getKeyFields 48)
    (body := h.toList ++ le32 f ++ le32 format ++ l.toList)
    (f := fun (_, (h, k, l, n), r) =>
        match goCert (ClKind.p384).certLen n r with
        | .error e => .error e
        | .ok cert => .ok (.key h k.toList l.toList cert))
    (.inr hc.profile) (fun τ t x => ?_) (by rw [hc.codes]; rfl) rfl ?_
  · simp only [Client.call, Client.certifyKey, Client.certifyABI]
    rw [hk, if_neg (by simp [ClKind.digest]), if_neg (by rw [hpr]; decide)]
    simp only [ClKind.digest, ClKind.curve, newDigest_arr]
    rfl
  rintro st loc w reply st' w' ⟨_, ⟨kind, D, w1, t, w2, h', _, _, _, hw, hl, _, _, rfl⟩, hsz⟩
  rcases hD : D.key with ⟨x, y⟩ | ⟨x, y⟩ | k <;> rw [hD] at hw hsz <;> try exact hw.elim
  refine ⟨_, ?_, h', .p384 x y, t.written, by rw [hp]; trivial, rfl, rfl⟩
  have hsb : (successBytes cfg.profile).length = 12 := by cases cfg.profile <;> rfl
  have hb : t.written.length ≤ cfg.maxCertSize := by
    simp [certifyReply, keyFields, le32_length, hsb, Cmd.respKind, RespKind.size] at hsz
    omega
  simp only [certifyReply, word_eq, keyFields, List.append_assoc, goResponse_success, getKeyFields]
  simp only [getArr_app, getU32_le, bind, Option.bind, pure, andThen']
  rw [goCert_fits (Nat.le_trans hb hlen) (by omega)]

theorem exchange_certifyMl (hc : c.Fits cfg) (hs : cfg.Standard) (hp : cfg.profile = .mldsa87) (h : Handle)
    (l : BArr 48) (format f : U32) :
    Exchange cfg ops c (.certifyKey h l.toList format f) (.certify (.mldsa87 h f format l)) := by
  have hk : c.kind = .mldsa87 := by rw [hc.kind, hp]; rfl
  have hpr : c.profile = 5 := by rw [hc.profile, hp]; rfl
  have hlen : cfg.maxCertSize ≤ (ClKind.mldsa87).certLen := by
    have := certLen_enough hs
    rwa [hp] at this
  refine .of (code := c.codes.certify) (prof := c.profile) (rsp := getMlKeyFields 2592)
    (body := h.toList ++ le32 f ++ le32 format ++ l.toList)
    (f := fun (_, (h, k, n), r) =>
        match goCert (ClKind.mldsa87).certLen n r with
        | .error e => .error e
        | .ok cert => .ok (.key h k.toList (List.replicate 2592 0) cert))
    (.inr hc.profile) (fun τ t x => ?_) (by rw [hc.codes]; rfl) rfl ?_
  · simp only [Client.call, Client.certifyKey, Client.certifyABI]
    rw [hk, if_neg (by simp [ClKind.digest]), if_pos hpr]
    simp only [ClKind.digest, ClKind.curve, newDigest_arr]
    rfl
  rintro st loc w reply st' w' ⟨_, ⟨kind, D, w1, t, w2, h', _, _, _, hw, hl, _, _, rfl⟩, hsz⟩
  rcases hD : D.key with ⟨x, y⟩ | ⟨x, y⟩ | k <;> rw [hD] at hw hsz <;> try exact hw.elim
  refine ⟨_, ?_, h', .mldsa k, t.written, by rw [hp]; trivial, rfl, rfl⟩
  have hsb : (successBytes cfg.profile).length = 12 := by cases cfg.profile <;> rfl
  have hb : t.written.length ≤ cfg.maxCertSize := by
    simp [certifyReply, keyFields, le32_length, hsb, Cmd.respKind, RespKind.size] at hsz
    omega
  simp only [certifyReply, word_eq, keyFields, List.append_assoc, goResponse_success, getMlKeyFields]
  simp only [getArr_app, getU32_le, bind, Option.bind, pure, andThen']
  rw [goCert_fits (Nat.le_trans hb hlen) (by omega)]

theorem exchange_sign256 (hc : c.Fits cfg) (hg : Genuine cfg.profile ops) (hp : cfg.profile = .p256) (h : Handle)
    (l : BArr 32) (f : U32) (d : BArr 32) :
    Exchange cfg ops c (.sign h l.toList f d.toList) (.sign (.p256 h l f d)) := by
  have hk : c.kind = .p256 := by rw [hc.kind, hp]; rfl
  refine .of (code := c.codes.sign) (prof := c.profile) (rsp := getSigFields 32)
    (body := h.toList ++ l.toList ++ le32 f ++ d.toList)
    (f := fun (_, (h, r, s), _) => .ok (.signature h r.toList s.toList []))
    (.inr hc.profile) (fun τ t x => ?_) (by rw [hc.codes]; rfl) rfl ?_
  · simp only [Client.call, Client.sign, Client.signABI]
    rw [hk, if_neg (by simp [ClKind.digest]), if_neg (by simp [ClKind.signData]), if_neg (by decide)]
    simp only [ClKind.digest, ClKind.signData, newDigest_arr]
  rintro st loc w reply st' w' ⟨_, ⟨i, path, key, sig, w1, w2, h', _, _, _, hsig, _, _, rfl⟩, _⟩
  have := hg.sign _ _ _ _ _ hsig
  rw [hp] at this
  rcases sig with ⟨x, y⟩ | ⟨x, y⟩ | s <;> try exact this.elim
  refine ⟨_, ?_, h', .p256 x y, by rw [hp]; trivial, rfl, rfl⟩
  simp only [signReply, sigFields, List.append_assoc, goResponse_success, getSigFields]
  simp only [getArr_app, getArr_end, bind, Option.bind, pure, andThen']

theorem exchange_sign384 (hc : c.Fits cfg) (hg : Genuine cfg.profile ops) (hp : cfg.profile = .p384) (h : Handle)
    (l : BArr 48) (f : U32) (d : BArr 48) :
    Exchange cfg ops c (.sign h l.toList f d.toList) (.sign (.p384 h l f d)) := by
  have hk : c.kind = .p384 := by rw [hc.kind, hp]; rfl
  refine .of (code := c.codes.sign) (prof := c.profile) (rsp := getSigFields 48)
    (body := h.toList ++ l.toList ++ le32 f ++ d.toList)
    (f := fun (_, (h, r, s), _) => .ok (.signature h r.toList s.toList []))
    (.inr hc.profile) (fun τ t x => ?_) (by rw [hc.codes]; rfl) rfl ?_
  · simp only [Client.call, Client.sign, Client.signABI]
    rw [hk, if_neg (by simp [ClKind.digest]), if_neg (by simp [ClKind.signData]), if_neg (by decide)]
    simp only [ClKind.digest, ClKind.signData, newDigest_arr]
  rintro st loc w reply st' w' ⟨_, ⟨i, path, key, sig, w1, w2, h', _, _, _, hsig, _, _, rfl⟩, _⟩
  have := hg.sign _ _ _ _ _ hsig
  rw [hp] at this
  rcases sig with ⟨x, y⟩ | ⟨x, y⟩ | s <;> try exact this.elim
  refine ⟨_, ?_, h', .p384 x y, by rw [hp]; trivial, rfl, rfl⟩
  simp only [signReply, sigFields, List.append_assoc, goResponse_success, getSigFields]
  simp only [getArr_app, getArr_end, bind, Option.bind, pure, andThen']

theorem exchange_signMl (hc : c.Fits cfg) (hg : Genuine cfg.profile ops) (hp : cfg.profile = .mldsa87) (h : Handle)
    (l : BArr 48) (f : U32) (d : BArr 64) :
    Exchange cfg ops c (.sign h l.toList f d.toList) (.sign (.mldsa87 h l f d)) := by
  have hk : c.kind = .mldsa87 := by rw [hc.kind, hp]; rfl
  refine .of (code := c.codes.sign) (prof := c.profile) (rsp := getMlSigFields)
    (body := h.toList ++ l.toList ++ le32 f ++ d.toList)
    (f := fun (_, (h, s), _) => .ok (.signature h [] [] s.toList))
    (.inr hc.profile) (fun τ t x => ?_) (by rw [hc.codes]; rfl) rfl ?_
  · simp only [Client.call, Client.sign, Client.signABI]
    rw [hk, if_neg (by simp [ClKind.digest]), if_neg (by simp [ClKind.signData]), if_pos rfl]
    simp only [ClKind.digest, ClKind.signData, newDigest_arr]
  rintro st loc w reply st' w' ⟨_, ⟨i, path, key, sig, w1, w2, h', _, _, _, hsig, _, _, rfl⟩, _⟩
  have := hg.sign _ _ _ _ _ hsig
  rw [hp] at this
  rcases sig with ⟨x, y⟩ | ⟨x, y⟩ | s <;> try exact this.elim
  refine ⟨_, ?_, h', .mldsa s, by rw [hp]; trivial, rfl, rfl⟩
  simp only [signReply, sigFields, List.append_assoc, goResponse_success, getMlSigFields]
  simp only [getArr_app, bind, Option.bind, pure, andThen']

theorem exchange_signRaw (hc : c.Fits cfg) (hg : Genuine cfg.profile ops) (hp : cfg.profile = .mldsa87) (h : Handle)
    (l : BArr 48) (m : Bytes) (d : BArr 1024) (hd : Padded m d.toList) :
    Exchange cfg ops c (.signRaw h l.toList m) (.sign (.mldsa87Raw h l 1 (BitVec.ofNat 32 m.length) d)) := by
  have hk : c.kind = .mldsa87 := by rw [hc.kind, hp]; rfl
  have hpr : c.profile = 5 := by rw [hc.profile, hp]; rfl
  have hm : m.length ≤ 1024 := by
    obtain ⟨k, hk⟩ := hd
    have := congrArg List.length hk
    simp at this; omega
  refine .of (code := c.codes.sign) (prof := c.profile) (rsp := getRawSigFields)
    (body := h.toList ++ l.toList ++ le32 1 ++ le32 (BitVec.ofNat 32 m.length) ++ d.toList)
    (f := fun (_, (h, s, _), _) => .ok (.signature h [] [] s.toList))
    (.inr hc.profile) (fun τ t x => ?_) (by rw [hc.codes]; rfl) rfl ?_
  · simp only [Client.call, Client.signRaw]
    rw [hk, if_neg (by rw [hpr]; decide), if_neg (by simp [ClKind.digest]), if_neg (by omega), newDigest_padded hd]
    simp only [ClKind.digest, newDigest_arr]
  rintro st loc w reply st' w' ⟨_, ⟨i, path, key, sig, w1, w2, h', _, _, _, hsig, _, _, rfl⟩, _⟩
  have := hg.sign _ _ _ _ _ hsig
  rw [hp] at this
  rcases sig with ⟨x, y⟩ | ⟨x, y⟩ | s <;> try exact this.elim
  refine ⟨_, ?_, h', .mldsa s, by rw [hp]; trivial, rfl, rfl⟩
  have e1 : getArr 1 ([0] : Bytes) = some (#v[0], []) := getArr_iff.2 rfl
  simp only [signReply, sigFields, List.append_assoc, goResponse_success, getRawSigFields]
  simp only [getArr_app, e1, bind, Option.bind, pure, andThen']

theorem exchange (hc : c.Fits cfg) (hs : cfg.Standard) (hg : Genuine cfg.profile ops) {k : GoCall} {cmd : Cmd cfg}
    (hm : Means k cmd) (hin : InProfile cfg cmd) : Exchange cfg ops c k cmd := by
  cases hm with
  | «initialize» f => exact exchange_init hc f
  | getProfile => exact exchange_getProfile
  | certify256 h l format f => exact exchange_certify256 hc hs hin h l format f
  | certify384 h l format f => exact exchange_certify384 hc hs hin h l format f
  | certifyMl h l format f => exact exchange_certifyMl hc hs hin h l format f
  | destroy h => exact exchange_destroy hc h
  | derive h d f y l => exact exchange_derive hc hs.tci h d f y l
  | rotate h f => exact exchange_rotate hc h f
  | sign256 h l f d => exact exchange_sign256 hc hg hin h l f d
  | sign384 h l f d => exact exchange_sign384 hc hg hin h l f d
  | signMl h l f d => exact exchange_signMl hc hg hin.1 h l f d
  | signRaw h l m d hd => exact exchange_signRaw hc hg hin.1 h l m d hd
  | update h d y => exact exchange_update hc hs.tci h d y

/-! ### Requests that are none -/

theorem wire_cut {addr : Nat} {loc prof : U32} {cmd : Cmd cfg}
    (h : ∃ loc', ∃ c' : Cmd cfg, IsRequest addr (le32 loc ++ wire prof cmd) loc' c') :
    ∃ (c' : Cmd cfg) (rest : Bytes), InProfile cfg c' ∧ cmd.id = c'.id ∧ cmd.asBytes = c'.asBytes ++ rest := by
  obtain ⟨loc', c', prof', rest, h, _, hin, _⟩ := h
  refine ⟨c', rest, hin, ?_⟩
  rw [← wire_request (prof := prof) (cmd := cmd) rfl rfl, ← wire_request (prof := prof') (cmd := c') rfl rfl,
    word_eq] at h
  simp only [List.append_assoc] at h
  obtain ⟨_, h⟩ := le32_toNat_inj h
  obtain ⟨_, h⟩ := le32_toNat_inj h
  obtain ⟨hi, h⟩ := le32_toNat_inj h
  exact ⟨hi, (le32_toNat_inj h).2⟩

theorem rotate_none (hd : Bit cfg.disabled Feature.rotate) {addr : Nat} {loc prof : U32} {r : RotateCmd} :
    ¬ ∃ loc', ∃ c' : Cmd cfg, IsRequest addr (le32 loc ++ wire prof (.rotate r : Cmd cfg)) loc' c' := by
  intro h
  obtain ⟨c', rest, hin, hi, _⟩ := wire_cut h
  rcases c' with _ | _ | _ | ⟨_ | _ | _⟩ | ⟨_ | _ | _ | _⟩ | _ | _ | _ | _ <;>
    first | exact hin hd | exact absurd hi (by simp [Cmd.id])

theorem sign_none (hp : cfg.profile = .mldsa87) {addr : Nat} {loc prof f : U32} {h : Handle} {l : BArr 48}
    {d : BArr 64} (hf : Bit f 0) :
    ¬ ∃ loc', ∃ c' : Cmd cfg, IsRequest addr (le32 loc ++ wire prof (.sign (.mldsa87 h l f d) : Cmd cfg)) loc' c' := by
  intro h
  obtain ⟨c', rest, hin, hi, hb⟩ := wire_cut h
  rcases c' with _ | _ | _ | ⟨_ | _ | _⟩ | ⟨_ | _ | ⟨h', l', f', d'⟩ | ⟨h', l', f', n', d'⟩⟩ | _ | _ | _ | _ <;>
    first
    | (revert hi; simp [Cmd.id]; done)
    | (simp only [InProfile, hp] at hin; cases hin; done)
    | skip
  · simp only [Cmd.asBytes, SignCmd.asBytes, List.append_assoc] at hb
    obtain ⟨_, hb⟩ := List.append_inj hb (by simp)
    obtain ⟨_, hb⟩ := List.append_inj hb (by simp)
    obtain ⟨rfl, _⟩ := le32_toNat_inj hb
    exact hin.2 hf
  · have := congrArg List.length hb
    simp [Cmd.asBytes, SignCmd.asBytes, le32_length] at this
    omega

/-! ### On the simulator -/

section
variable {L : Lib} {a : Artifact} {addr : Nat} {loc : U32} {s : Sys cfg (Soft (L.crypto cfg.profile) × Unit)}

theorem send_served (hL : L.Total) (ha : a.Fit) (hb : Built cfg a) (hm : cfg.maxCertSize % 4 = 0)
    (hst : InService s.st) (hal : addr % 4 = 0) {prof : U32} {cmd : Cmd cfg}
    (hp : cmd = .getProfile ∨ prof = wireProfile cfg.profile) (hin : InProfile cfg cmd) {reply : Bytes}
    {st' : State cfg} {w' : Soft (L.crypto cfg.profile) × Unit}
    (hs : Succeeds (device L a cfg.profile) s.st loc s.w cmd reply st' w') :
    simSend ((device L a cfg.profile).env cfg) loc addr (wire prof cmd) (some s) =
      (.ok reply, some ⟨st', w', s.out⟩) := by
  simp only [simSend]
  rw [C59_served hL ha hb hm hst (request_of_wire hp hin (.inl hal)) hs]

theorem send_failed (hL : L.Total) (ha : a.Fit) (hb : Built cfg a) (hm : cfg.maxCertSize % 4 = 0)
    (hst : InService s.st) (hal : addr % 4 = 0) {prof : U32} {cmd : Cmd cfg}
    (hp : cmd = .getProfile ∨ prof = wireProfile cfg.profile) (hin : InProfile cfg cmd)
    (hs : ¬ ∃ reply st' w', Succeeds (device L a cfg.profile) s.st loc s.w cmd reply st' w') :
    ∃ e s', simSend ((device L a cfg.profile).env cfg) loc addr (wire prof cmd) (some s) =
        (.ok (errorAnswer cfg.profile e), some s') ∧ statusWord e ≠ 0 ∧
      Blamed (device L a cfg.profile) ⟨s.st, s.w, List.replicate (cmd.respKind.size cfg) 0⟩ loc cmd e ∧
      (s'.st = s.st ∨ ∃ u, cmd = .update u ∧ HalfUpdate s.st u loc s'.st) := by
  obtain ⟨e, s', h, h1⟩ := C59_failed hL ha hb hm hst (request_of_wire hp hin (.inl hal)) hs
  refine ⟨e, s', ?_, h1⟩
  simp only [simSend]
  rw [h]

theorem send_none (hL : L.Total) (ha : a.Fit) (hb : Built cfg a) (hm : cfg.maxCertSize % 4 = 0)
    (hst : InService s.st) {buf : Bytes}
    (h : ¬ ∃ loc', ∃ c' : Cmd cfg, IsRequest addr (le32 loc ++ buf) loc' c') :
    simSend ((device L a cfg.profile).env cfg) loc addr buf (some s) = (.ok [], none) := by
  simp only [simSend]
  rw [(C59_answered hL ha hb hm hst).2 h]

theorem profile_succeeds : Succeeds (device L a cfg.profile) s.st loc s.w .getProfile
    (profileReply cfg s.st.support 0 0) s.st s.w := by
  refine ⟨?_, ⟨0, 0, s.w, rfl, rfl, rfl, rfl⟩, ?_⟩
  · simp [NoRefusal, rules, earlyRules, lateRules]
  · have hsb : (successBytes cfg.profile).length = 12 := by cases cfg.profile <;> rfl
    simp [profileReply, hsb, le32_length, Cmd.respKind, RespKind.size]

/-- What the client learns about the simulator's instance. -/
theorem getProfile_sim (hL : L.Total) (ha : a.Fit) (hb : Built cfg a) (hm : cfg.maxCertSize % 4 = 0)
    (hst : InService s.st) (hal : addr % 4 = 0) :
    goGetProfile (simSend ((device L a cfg.profile).env cfg) loc addr) (some s) =
      (.ok ⟨wireProfile cfg.profile, 0, 13, 0, 0, BitVec.ofNat 32 cfg.maxHandles, s.st.support⟩, some s) := by
  have h := send_served (prof := 0) (loc := loc) hL ha hb hm hst hal (.inl rfl) trivial profile_succeeds
  unfold goGetProfile execCommand
  rw [wire_request (code := 1) (body := []) (cmd := (.getProfile : Cmd cfg)) rfl rfl, h]
  have e : ([0, 0, 13, 0] : Bytes) = le16 0 ++ le16 13 := by decide
  simp only [profileReply, word_eq, List.append_assoc, goResponse_success, goProfileFields]
  rw [e]
  simp only [List.append_assoc, getU16_le, getU32_le, getU32_end, bind, Option.bind, pure]

end

end Dpe
