import Verif.Proofs.Response
import Verif.Props.Effects
import Verif.Props.Rules
import Verif.Props.Wire
/-
Responses: round trips and the handles they carry (C36), error reporting (C35).
-/
namespace Dpe
variable {cfg : Cfg} {σ : Type} {env : Env cfg σ} {D : Bytes → Bytes → Prop}

/-- C36: the size of every response is the documented one (a bare error header: 12 bytes). -/
theorem C36_size (r : Resp cfg) :
    r.asBytes.length = match r.kind with | some k => k.size cfg | none => 12 := by
  cases h : r.kind with
  | some k => exact resp_length h
  | none => cases r <;> simp [Resp.kind] at h; rfl

/-- C36: reading back what was serialised gives the response, and only that: the reader of
structure `k` accepts exactly the serialisations of responses of that structure. -/
theorem C36_round_trip (k : RespKind) (b t : Bytes) (r : Resp cfg) :
    (getResp k b = some (r, t) ↔ r.kind = some k ∧ b = r.asBytes ++ t) ∧
    (getRespExact k b = some r ↔ r.kind = some k ∧ b = r.asBytes) :=
  ⟨getResp_iff, getRespExact_iff⟩

/-- Non-vacuity for C36: the response of RotateContextHandle with handle 9. -/
example : getRespExact (cfg := Toy.cfg) .rotate ([0x52, 0x45, 0x50, 0x44, 0, 0, 0, 0, 3, 0, 0, 0] ++
    (Toy.hd 9).toList) = some (.rotate (successHdr .p256) (Toy.hd 9)) :=
  (C36_round_trip .rotate _ [] _).2.2 ⟨rfl, by decide +kernel⟩

theorem resp_inj {r r' : Resp cfg} {k : RespKind} {t t' : Bytes} (h : r.kind = some k)
    (h' : r'.kind = some k) (he : r.asBytes ++ t = r'.asBytes ++ t') : r = r' := by
  have h1 := (getResp_iff (k := k) (t := t)).2 ⟨h, rfl⟩
  have h2 := (getResp_iff (k := k) (t := t')).2 ⟨h', rfl⟩
  rw [he, h2] at h1
  simp only [Option.some.injEq, Prod.mk.injEq] at h1
  exact h1.1.symm

theorem clientRead_of {scratch : Nat} {c : Cmd cfg} {b t : Bytes} {r : Resp cfg}
    (hb : b.length ≤ scratch) (hk : r.kind = some c.respKind)
    (he : b ++ List.replicate (scratch - b.length) 0 = r.asBytes ++ t) :
    clientRead scratch c b = .ok r := by
  unfold clientRead
  rw [List.take_of_length_le hb, he, (getResp_iff (t := t)).2 ⟨hk, rfl⟩]

/-- C36: a client reading the bytes of a response to its command gets the response back,
whatever larger scratch buffer it reads through. -/
theorem C36_client (scratch : Nat) (c : Cmd cfg) (r : Resp cfg) (k : RespKind)
    (hc : RespondsIn c k) (hk : r.kind = some k) (hs : k.size cfg ≤ scratch) :
    clientRead scratch c r.asBytes = .ok r := by
  rw [respondsIn_iff] at hc
  subst hc
  have hl := resp_length hk
  exact clientRead_of (by omega) hk rfl

theorem clip_toList {m : Nat} (c : BArr m) (n : U32) :
    (clip c n).toList = c.toList.take n.toNat ++ List.replicate (m - n.toNat) 0 := by
  apply List.ext_getElem
  · simp; omega
  · intro i h1 h2
    simp at h1
    simp only [clip, Vector.getElem_toList, Vector.getElem_ofFn]
    split
    · rename_i h
      rw [List.getElem_append_left (by simp; omega)]
      simp
    · rename_i h
      rw [List.getElem_append_right (by simp; omega)]
      simp

theorem partial_eq {b x : Bytes} {fixed : Nat} {n : U32} {e : Internal}
    (h : partialBytes b fixed n e = .ok x) : fixed + n.toNat ≤ b.length ∧ x = b.take (fixed + n.toNat) := by
  unfold partialBytes at h
  split at h
  · cases h; exact ⟨by assumption, rfl⟩
  · cases h

theorem cut {A B : Bytes} {k n : Nat} (h : A.length = k) : (A ++ B).take (k + n) = A ++ B.take n := by
  
  subst h
  rw [List.take_append, List.take_of_length_le (by omega)]
  simp

/-- The bytes of the shortened form of a response, padded with zeros. -/
theorem partial_pad {r : Resp cfg} {k : RespKind} {b : Bytes} (hk : r.kind = some k)
    (h : r.asBytesPartial = .ok b) :
    b.length ≤ k.size cfg ∧
    b ++ List.replicate (k.size cfg - b.length) 0 = r.clipped.asBytes ∧
    r.clipped.kind = some k := by
  have go : ∀ {A : Bytes} {f : Nat} {n : U32} {c : BArr cfg.maxCertSize} {e : Internal},
      A.length = f → partialBytes (A ++ c.toList) f n e = .ok b →
      b.length ≤ f + cfg.maxCertSize ∧
      b ++ List.replicate (f + cfg.maxCertSize - b.length) 0 = A ++ (clip c n).toList := by
    intro A f n c e hA hp
    obtain ⟨h1, rfl⟩ := partial_eq hp
    simp only [List.length_append, Vector.length_toList, hA] at h1
    rw [cut hA]
    simp only [List.length_append, List.length_take, Vector.length_toList, hA, clip_toList]
    refine ⟨by omega, ?_⟩
    rw [List.append_assoc]
    congr 3
    omega
  have triv : r.asBytes = b → r.clipped = r → b.length ≤ k.size cfg ∧
      b ++ List.replicate (k.size cfg - b.length) 0 = r.clipped.asBytes ∧ r.clipped.kind = some k := by
    intro h1 h2
    have := resp_length hk
    rw [h2, ← h1, this]
    simp [hk]
  cases r <;> simp only [Resp.kind, Option.some.injEq, reduceCtorEq] at hk
  case exported =>
    subst hk
    simp only [Resp.asBytesPartial, Resp.asBytes] at h
    have := go (by simp [RespHdr.asBytes_length, le32]) h
    exact ⟨this.1, this.2, rfl⟩
  case certify256 =>
    subst hk
    simp only [Resp.asBytesPartial, Resp.asBytes] at h
    have := go (by simp [RespHdr.asBytes_length, le32]) h
    exact ⟨this.1, this.2, rfl⟩
  case certify384 =>
    subst hk
    simp only [Resp.asBytesPartial, Resp.asBytes] at h
    have := go (by simp [RespHdr.asBytes_length, le32]) h
    exact ⟨this.1, this.2, rfl⟩
  case certifyMl =>
    subst hk
    simp only [Resp.asBytesPartial, Resp.asBytes] at h
    have := go (by simp [RespHdr.asBytes_length, le32]) h
    exact ⟨this.1, this.2, rfl⟩
  all_goals exact triv (by simpa [Resp.asBytesPartial] using h) rfl

/-- C36: a response that is sent without the unused part of its certificate field is read back
with the same fields, and with the bytes of that unused part zero. -/
theorem C36_partial (scratch : Nat) (c : Cmd cfg) (r : Resp cfg) (k : RespKind) (b : Bytes)
    (hc : RespondsIn c k) (hk : r.kind = some k) (hs : k.size cfg ≤ scratch)
    (hb : r.asBytesPartial = .ok b) : clientRead scratch c b = .ok r.clipped := by
  rw [respondsIn_iff] at hc
  subst hc
  obtain ⟨h1, h2, h3⟩ := partial_pad hk hb
  refine clientRead_of (t := List.replicate (scratch - c.respKind.size cfg) 0) (by omega) h3 ?_
  rw [← h2, List.append_assoc, List.replicate_append_replicate]
  congr 2
  omega

/-- C36, the certificate: what a caller takes from a CertifyKey response as the certificate is what follows
the fixed part of the bytes sent, and that part ends with its length. -/
theorem C36_cert {r : Resp cfg} {b : Bytes} (hk : r.kind = some .certify256 ∨ r.kind = some .certify384 ∨
    r.kind = some .certifyMl) (hb : r.asBytesPartial = .ok b) :
    ∃ start cert, b = start ++ le32 (BitVec.ofNat 32 cert.length) ++ cert ∧ r.cert = some (.ok cert) ∧
      (start.length = 92 ∨ start.length = 124 ∨ start.length = 2620) := by
  have go : ∀ {A : Bytes} {f : Nat} {n : U32} {c : BArr cfg.maxCertSize} {e : Internal},
      A.length = f → partialBytes (A ++ le32 n ++ c.toList) (f + 4) n e = .ok b →
      ∃ cert, b = A ++ le32 (BitVec.ofNat 32 cert.length) ++ cert ∧
        partialBytes c.toList 0 n .certifyKeyCertSliceOob = .ok cert := by
    intro A f n c e hA hp
    obtain ⟨h1, rfl⟩ := partial_eq hp
    simp only [List.length_append, Vector.length_toList, hA, le32_length] at h1
    refine ⟨c.toList.take n.toNat, ?_, ?_⟩
    · rw [cut (by rw [List.length_append, hA, le32_length]), List.length_take, Vector.length_toList,
        Nat.min_eq_left (by omega), BitVec.ofNat_toNat, BitVec.setWidth_eq]
    · unfold partialBytes
      rw [if_pos (by rw [Vector.length_toList]; omega), Nat.zero_add]
  cases r <;> simp only [Resp.kind, Option.some.injEq, reduceCtorEq, or_false, false_or] at hk
  case certify256 h hd x y n c =>
    simp only [Resp.asBytesPartial, Resp.asBytes] at hb
    obtain ⟨cert, h1, h2⟩ := go (f := 92) (by simp [RespHdr.asBytes_length]) hb
    exact ⟨_, cert, h1, by rw [Resp.cert, h2], .inl (by simp [RespHdr.asBytes_length])⟩
  case certify384 h hd x y n c =>
    simp only [Resp.asBytesPartial, Resp.asBytes] at hb
    obtain ⟨cert, h1, h2⟩ := go (f := 124) (by simp [RespHdr.asBytes_length]) hb
    exact ⟨_, cert, h1, by rw [Resp.cert, h2], .inr (.inl (by simp [RespHdr.asBytes_length]))⟩
  case certifyMl h hd x n c =>
    simp only [Resp.asBytesPartial, Resp.asBytes] at hb
    obtain ⟨cert, h1, h2⟩ := go (f := 2620) (by simp [RespHdr.asBytes_length]) hb
    exact ⟨_, cert, h1, by rw [Resp.cert, h2], .inr (.inr (by simp [RespHdr.asBytes_length]))⟩

/-- Non-vacuity: a certificate of three bytes. -/
example : (Resp.certify256 (cfg := Toy.cfg) (successHdr .p256) (Toy.hd 1) (Vector.replicate 32 4)
      (Vector.replicate 32 5) 3 (Vector.replicate 100 9)).asBytesPartial.toOption.isSome = true ∧
    (Resp.certify256 (cfg := Toy.cfg) (successHdr .p256) (Toy.hd 1) (Vector.replicate 32 4)
      (Vector.replicate 32 5) 3 (Vector.replicate 100 9)).cert = some (.ok [9, 9, 9]) := by decide +kernel

/-- C36: whatever the command, a client that receives a bare error header sees that header. -/
theorem C36_error_header (scratch : Nat) (c : Cmd cfg) (h : RespHdr)
    (hs : c.respKind.size cfg ≤ scratch) :
    ∃ r, clientRead scratch c (Resp.asBytes (cfg := cfg) (.error h)) = .ok r ∧ r.hdr = h := by
  have hl : 12 ≤ c.respKind.size cfg := by
    cases c.respKind <;> simp [RespKind.size] <;> omega
  obtain ⟨r, h1, h2⟩ := exists_resp (cfg := cfg) c.respKind h
    (b := List.replicate (c.respKind.size cfg - 12) 0) (by simp; omega)
  refine ⟨r, clientRead_of (t := List.replicate (scratch - c.respKind.size cfg) 0)
    (by simp [Resp.asBytes, RespHdr.asBytes_length]; omega) h1 ?_, ?_⟩
  · rw [← h2]
    simp only [Resp.asBytes, RespHdr.asBytes_length, List.append_assoc,
      List.replicate_append_replicate]
    congr 2
    omega
  · obtain ⟨t, ht⟩ := asBytes_form r
    rw [ht, List.append_assoc] at h2
    have e1 := (getRespHdr_iff (b := h.asBytes ++ List.replicate (c.respKind.size cfg - 12) 0)).2 rfl
    rw [h2, (getRespHdr_iff).2 rfl] at e1
    simp only [Option.some.injEq, Prod.mk.injEq] at e1
    exact e1.1

/-- Non-vacuity for the client theorems: a Toy export response with a 3-byte certificate, and an
InvalidHandle header in answer to it. -/
example :
    (∃ b, (Resp.exported (cfg := Toy.cfg) (successHdr .p256) (Toy.hd 1) (Toy.hd 2)
        (Vector.replicate 32 4) 3 (Vector.replicate 100 9)).asBytesPartial = .ok b ∧
      b.length = 83 ∧
      clientRead 5000 (.derive (cfg := Toy.cfg) ⟨Toy.hd 1, Toy.data 1 2, Toy.fExport, 5, 0, 9⟩) b =
        .ok (.exported (successHdr .p256) (Toy.hd 1) (Toy.hd 2) (Vector.replicate 32 4) 3
          (clip (Vector.replicate 100 9) 3))) ∧
    ∃ r, clientRead 5000 (.derive (cfg := Toy.cfg) ⟨Toy.hd 1, Toy.data 1 2, Toy.fExport, 5, 0, 9⟩)
        (Resp.asBytes (cfg := Toy.cfg) (.error (RespHdr.new .p256 .invalidHandle))) = .ok r ∧
      r.hdr.status = 0x80 := by
  constructor
  · have h0 : ((Resp.exported (cfg := Toy.cfg) (successHdr .p256) (Toy.hd 1) (Toy.hd 2)
        (Vector.replicate 32 4) 3 (Vector.replicate 100 9)).asBytesPartial.toOption.map
          List.length) = some 83 := by decide +kernel
    cases hb : (Resp.exported (cfg := Toy.cfg) (successHdr .p256) (Toy.hd 1) (Toy.hd 2)
        (Vector.replicate 32 4) 3 (Vector.replicate 100 9)).asBytesPartial with
    | error e => rw [hb] at h0; simp [Except.toOption] at h0
    | ok b =>
      rw [hb] at h0
      refine ⟨b, rfl, by simpa [Except.toOption] using h0, ?_⟩
      exact C36_partial 5000 _ _ .exported _ (respondsIn_iff.2 (by decide +kernel)) rfl
        (by decide) hb
  · obtain ⟨r, h1, h2⟩ := C36_error_header (cfg := Toy.cfg) 5000
      (.derive ⟨Toy.hd 1, Toy.data 1 2, Toy.fExport, 5, 0, 9⟩)
      (RespHdr.new .p256 .invalidHandle) (by decide +kernel)
    exact ⟨r, h1, by rw [h2]; rfl⟩

theorem size_mod (hm : cfg.maxCertSize % 4 = 0) (k : RespKind) :
    (k.size cfg + 3) / 4 * 4 = k.size cfg := by
  cases k <;> simp only [RespKind.size] <;> omega

theorem handles_length {c : Cmd cfg} {r : Resp cfg} {hs : List Handle} {st st' : State cfg}
    {loc : U32} (hk : r.kind = some c.respKind) (he : Effect D st loc c hs st') :
    r.handles.length = hs.length := by
  cases c with
  | getProfile => obtain ⟨rfl, -⟩ := he; cases r <;> simp [Resp.kind, Cmd.respKind] at hk; rfl
  | chain c => obtain ⟨rfl, -⟩ := he; cases r <;> simp [Resp.kind, Cmd.respKind] at hk; rfl
  | destroy c => obtain ⟨rfl, -⟩ := he; cases r <;> simp [Resp.kind, Cmd.respKind] at hk; rfl
  | init c => obtain ⟨_, rfl, -⟩ := he; cases r <;> simp [Resp.kind, Cmd.respKind] at hk; rfl
  | rotate c => obtain ⟨_, rfl, -⟩ := he; cases r <;> simp [Resp.kind, Cmd.respKind] at hk; rfl
  | update c => obtain ⟨_, _, rfl, -⟩ := he; cases r <;> simp [Resp.kind, Cmd.respKind] at hk; rfl
  | derive c =>
    obtain ⟨_, _, _, rfl, -⟩ := he
    simp only [Cmd.respKind] at hk
    split at hk <;> cases r <;> simp [Resp.kind] at hk <;> rfl
  | certify c =>
    obtain ⟨_, rfl, -⟩ := he
    cases c <;> cases r <;> simp [Resp.kind, Cmd.respKind] at hk <;> rfl
  | sign c =>
    obtain ⟨_, rfl, -⟩ := he
    cases c <;> cases r <;> simp [Resp.kind, Cmd.respKind] at hk <;> rfl

theorem handles_flatten_inj {l l' : List Handle} {t t' : Bytes} (hl : l.length = l'.length)
    (h : (l.map Vector.toList).flatten ++ t = (l'.map Vector.toList).flatten ++ t') : l = l' := by
  induction l generalizing l' with
  | nil => cases l' with
    | nil => rfl
    | cons => simp at hl
  | cons a l ih =>
    cases l' with
    | nil => simp at hl
    | cons b l' =>
      simp only [List.map_cons, List.flatten_cons, List.append_assoc] at h
      obtain ⟨h1, h2⟩ := List.append_inj h (by simp)
      have : a = b := by
        apply Vector.toArray_inj.1
        exact Array.toList_inj.1 h1
      rw [this, ih (by simpa using hl) h2]

/-- C36: the handles in the response that a server returns are exactly the handles of the
effect that it committed, behind a success header of the instance's profile, in the structure
that belongs to the command.  (What a client reads is the response itself, `C36_client`.) -/
theorem C36_handles {c : Cmd cfg} {loc : U32} {s s' : Sys cfg σ} {r : Resp cfg}
    (hst : InService s.st) (hD : Digests env.toOps D) (h : execute env c loc s = (.ok r, s')) :
    Effect D s.st loc c r.handles s'.st ∧ r.hdr = successHdr cfg.profile ∧
      ∃ k, r.kind = some k ∧ RespondsIn c k := by
  unfold execute at h
  generalize hx : exec env c loc { s with out := List.replicate ((c.respKind.size cfg + 3) / 4 * 4) 0 } = x at h
  obtain ⟨y, s1⟩ := x
  cases y with
  | error e => simp at h
  | ok n =>
    simp only at h
    split at h
    · rename_i r' hr
      simp only [Prod.mk.injEq, Except.ok.injEq] at h
      obtain ⟨rfl, rfl⟩ := h
      obtain ⟨hk, ho⟩ := getRespExact_iff.1 hr
      obtain ⟨hs, he, hrep⟩ := C52_success_effect
        (s := { s with out := List.replicate ((c.respKind.size cfg + 3) / 4 * 4) 0 }) hst hD hx
      obtain ⟨rest, h1⟩ := hdr_of_replies hrep
      obtain ⟨tail, h2⟩ := asBytes_form r'
      rw [ho, h2] at h1
      simp only [List.append_assoc] at h1
      have e1 := getRespHdr_iff.2 h1
      rw [getRespHdr_iff.2 rfl] at e1
      simp only [Option.some.injEq, Prod.mk.injEq] at e1
      have := handles_flatten_inj (handles_length hk he) e1.2
      exact ⟨by rw [this]; exact he, e1.1, _, hk, respondsIn_iff.2 rfl⟩
    · cases h

/-- Executing a command of a reachable instance through its typed interface: the reply buffer is
exactly as large as the response, and it can always be read. -/
theorem execute_eq {c : Cmd cfg} {loc : U32} {s : Sys cfg σ}
    (hst : InService s.st) (hw : KeepsWindow env) (hm : cfg.maxCertSize % 4 = 0) :
    ∃ y s1, exec env c loc { s with out := List.replicate (c.respKind.size cfg) 0 } = (y, s1) ∧
      ((∃ e, y = .error e ∧ execute env c loc s = (.error e, { s1 with out := s.out })) ∨
       (∃ n r, y = .ok n ∧ execute env c loc s = (.ok r, { s1 with out := s.out }) ∧
          r.asBytes = s1.out ∧ r.kind = some c.respKind ∧ r.hdr = successHdr cfg.profile)) := by
  unfold execute
  rw [size_mod hm]
  generalize hx : exec env c loc { s with out := List.replicate (c.respKind.size cfg) 0 } = x
  obtain ⟨y, s1⟩ := x
  refine ⟨y, s1, rfl, ?_⟩
  cases y with
  | error e => exact .inl ⟨e, rfl, rfl⟩
  | ok n =>
    right
    obtain ⟨hs, he, hrep⟩ := C52_success_effect (D := fun _ _ => True)
      (s := { s with out := List.replicate (c.respKind.size cfg) 0 }) hst
      (fun _ _ _ _ _ => trivial) hx
    obtain ⟨rest, h1⟩ := hdr_of_replies hrep
    have hl := exec_out_length hw hx
    simp only [List.length_replicate] at hl
    rw [List.append_assoc] at h1
    obtain ⟨r, h2, h3⟩ := exists_resp (cfg := cfg) c.respKind (successHdr cfg.profile)
      (b := (hs.map Vector.toList).flatten ++ rest) (by
        have := congrArg List.length h1
        rw [hl, List.length_append (as := (successHdr cfg.profile).asBytes),
          RespHdr.asBytes_length] at this
        exact this.symm)
    have hr : r.hdr = successHdr cfg.profile := by
      obtain ⟨t, ht⟩ := asBytes_form r
      rw [ht, List.append_assoc] at h3
      have e1 := getRespHdr_iff.2 h3
      rw [getRespHdr_iff.2 rfl] at e1
      simp only [Option.some.injEq, Prod.mk.injEq] at e1
      exact e1.1.symm
    refine ⟨n, r, rfl, ?_, by rw [h1, h3], h2, hr⟩
    have : getRespExact c.respKind s1.out = some r := getRespExact_iff.2 ⟨h2, by rw [h1, h3]⟩
    simp only [this]

theorem error_ne_noError {c : Cmd cfg} {loc : U32} {s s' : Sys cfg σ} {e : Err}
    (hst : InService s.st) (hn : NamesErrors env) (h : exec env c loc s = (.error e, s')) :
    e ≠ .noError := by
  rintro rfl
  rcases error_cause hst h with h1 | ⟨_, ⟨h1, h2⟩ | ⟨_, _, h1, _⟩⟩ | h1
  · exact h1.elim
  · cases h1
  · cases h1
  · cases h1 with
    | cert hm _ h2 => exact hn _ _ _ _ _ _ _ h2

/-- C35: the status word 0 means "no error" and nothing else. -/
theorem C35_zero (e : Err) : e.code = 0 ↔ e = .noError := by
  constructor
  · intro h
    cases e with
    | noError => rfl
    | platform e =>
      cases e <;> simp only [Err.code, PlatErr.disc] at h <;> exact absurd h (by decide +kernel)
    | crypto e =>
      cases e <;> simp only [Err.code, CryptoErr.disc] at h <;> exact absurd h (by decide +kernel)
    | validation e =>
      cases e <;> simp only [Err.code, ValErr.disc] at h <;> exact absurd h (by decide +kernel)
    | _ => simp only [Err.code] at h; exact absurd h (by decide +kernel)
  · rintro rfl; rfl

/-- The error that a status word stands for. -/
def errOfCode (c : U32) : Option Err :=
  let core : List Err := [.noError, .internal .contextIndexOob, .invalidCommand, .invalidArgument,
    .sessionExhausted, .initializationSeedLocked, .outOfMemory, .cancelledCommand, .invalidHandle,
    .invalidLocality, .handleDefined, .argumentNotSupported, .alreadyInitialized,
    .invalidParentLocality, .x509CsrUnset, .x509InvalidState, .x509SkipsExhausted,
    .x509InvalidWidth, .x509AlgorithmMismatch, .maxTcis, .invalidMutRefBuf, .invalidResponseBuf,
    .uninitializedResponseHeader]
  let plat : List PlatErr := [.certificateChainError, .notImplemented, .issuerNameError 0,
    .printError 0, .serialNumberError 0, .subjectKeyIdentifierError 0, .certValidityError 0,
    .issuerKeyIdentifierError 0, .subjectAlternativeNameError 0, .missingUeidError,
    .invalidUeidError]
  let cryp : List CryptoErr := [.abstractionLayer 0, .cryptoLibError 0, .size, .notImplemented,
    .hashError 0, .invalidExportedCdiHandle, .exportedCdiHandleDuplicateCdi,
    .exportedCdiHandleLimitExceeded, .mismatchedAlgorithm]
  let val : List ValErr := [.multipleNormalConnectedComponents, .cyclesInTree,
    .inactiveContextInvalidParent, .inactiveContextWithChildren, .badContextState, .badContextType,
    .inactiveContextWithMeasurement, .mixedContextLocality, .multipleDefaultContexts,
    .simulationNotSupported, .parentDoesNotExist, .internalDiceNotSupported,
    .internalInfoNotSupported, .childDoesNotExist, .inactiveContextWithFlagSet, .localityMismatch,
    .danglingRetiredContext, .mixedContextTypeConnectedComponents, .childWithMultipleParents,
    .parentChildLinksCorrupted, .allowCaNotSupported, .allowX509NotSupported, .inactiveParent,
    .inactiveChild, .dpeNotMarkedInitialized, .invalidMarker, .versionMismatch]
  (core ++ plat.map (fun e => Err.platform e) ++ cryp.map (fun e => Err.crypto e) ++
    val.map (fun e => Err.validation e)).find? (·.code == c)

theorem errOfCode_bare (e : Err) (h : e ≠ .panic) : errOfCode e.code = some e.bare := by
  cases e with
  | panic => exact absurd rfl h
  | internal i => simp only [Err.code, Err.bare]; decide +kernel
  | platform e => cases e <;> simp only [Err.code, Err.bare, PlatErr.disc] <;> decide +kernel
  | crypto e => cases e <;> simp only [Err.code, Err.bare, CryptoErr.disc] <;> decide +kernel
  | validation e => cases e <;> simp only [Err.code, Err.bare, ValErr.disc] <;> decide +kernel
  | _ => simp only [Err.code, Err.bare]; decide +kernel

theorem bare_code (e : Err) : e.bare.code = e.code := by
  cases e with
  | platform e => cases e <;> rfl
  | crypto e => cases e <;> rfl
  | _ => rfl

/-- C35: the status word of every error is the documented one. -/
theorem C35_status (e : Err) : e.code = statusWord e := (statusWord_eq e).symm

/-- C35: two errors have the same status word only if they are the same error up to the
details a status word does not carry. -/
theorem C35_codes (e e' : Err) (h : e ≠ .panic) (h' : e' ≠ .panic) :
    e.code = e'.code ↔ e.bare = e'.bare := by
  constructor
  · intro he
    have h1 := errOfCode_bare e h
    rw [he, errOfCode_bare e' h'] at h1
    exact (Option.some.inj h1).symm
  · intro he
    rw [← bare_code e, he, bare_code]

/-- C35: executing arbitrary bytes.  Either they are refused by the decoder with nothing
changed; or the decoded command runs, and its success is reported as a success response made of
the bytes it wrote, its failure as an error header with the status word of its error, which is not 0
(a panic, excluded by C49 but for a misbehaving environment, reports nothing). -/
theorem C35_reports {addr : Nat} {b : Bytes} {loc : U32} {s s' : Sys cfg σ}
    {res : Except Err (Resp cfg)} (hst : InService s.st) (hw : KeepsWindow env)
    (hn : NamesErrors env) (hm : cfg.maxCertSize % 4 = 0)
    (h : executeSerialized env loc addr b s = (res, s')) :
    (∃ e, res = .error e ∧ decode cfg addr b = .error e ∧
      (e = .invalidCommand ∨ e = .invalidArgument) ∧ s' = s) ∨
    ∃ c y s1, decode cfg addr b = .ok c ∧
      exec env c loc { s with out := List.replicate (c.respKind.size cfg) 0 } = (y, s1) ∧
      s' = { s1 with out := s.out } ∧
      ((∃ n r, y = .ok n ∧ res = .ok r ∧ r.asBytes = s1.out ∧ (∃ k, r.kind = some k ∧ RespondsIn c k) ∧
          r.hdr = successHdr cfg.profile) ∨
       (∃ e, y = .error e ∧ res = .ok (.error ⟨0x44504552, statusWord e, cfg.profile⟩) ∧ statusWord e ≠ 0) ∨
       (y = .error .panic ∧ res = .error .panic)) := by
  unfold executeSerialized at h
  rcases hd : decode cfg addr b with e | c
  · rw [hd] at h
    simp only [Prod.mk.injEq] at h
    obtain ⟨rfl, rfl⟩ := h
    left
    refine ⟨e, rfl, rfl, ?_, rfl⟩
    rcases C34_refuses addr b e hd with h1 | h1
    · exact .inl h1.1
    · exact .inr h1.1
  · right
    rw [hd] at h
    simp only at h
    obtain ⟨y, s1, hx, h1⟩ := execute_eq (env := env) (c := c) (loc := loc) hst hw hm
    refine ⟨c, y, s1, rfl, hx, ?_⟩
    rcases h1 with ⟨e, rfl, h1⟩ | ⟨n, r, rfl, h1, h2, h3, h4⟩
    · rw [h1] at h
      by_cases hp : e = .panic
      · subst hp
        simp only [Prod.mk.injEq] at h
        exact ⟨h.2.symm, .inr (.inr ⟨rfl, h.1.symm⟩)⟩
      · have h : (Except.ok (Resp.error (RespHdr.new cfg.profile e)), { s1 with out := s.out }) =
            (res, s') := by
          cases e <;> first | exact h | exact absurd rfl hp
        simp only [Prod.mk.injEq] at h
        refine ⟨h.2.symm, .inr (.inl ⟨e, rfl, ?_, ?_⟩)⟩
        · rw [statusWord_eq]; exact h.1.symm
        rw [Ne, statusWord_eq, C35_zero]
        exact error_ne_noError (s := { s with out := List.replicate (c.respKind.size cfg) 0 }) hst hn hx
    · rw [h1] at h
      simp only [Prod.mk.injEq] at h
      exact ⟨h.2.symm, .inl ⟨n, r, rfl, h.1.symm, h2, ⟨_, h3, respondsIn_iff.2 rfl⟩, h4⟩⟩

/-- An environment that meets the assumptions of C35. -/
def Toy.quietEnv : Env Toy.cfg Nat where
  toOps := Toy.ops
  certGen _ _ _ n win := ((.error .x509InvalidState, n), win)

example : KeepsWindow Toy.quietEnv ∧ NamesErrors Toy.quietEnv ∧ Toy.cfg.maxCertSize % 4 = 0 := by
  refine ⟨?_, ?_, rfl⟩
  · intro kind args st w win x win' h
    simp only [Toy.quietEnv, Prod.mk.injEq] at h
    rw [h.2]
  · intro kind args st w win w' win' h
    simp [Toy.quietEnv] at h

section
open Toy

/-- Non-vacuity for C35: on the state `Toy.s2`, whose only context has handle 1: a rotate of
that context is answered with the success structure, a rotate of handle 6 with the header of
InvalidHandle, and a truncated rotate is refused. -/
example :
    (∃ r s', executeSerialized Toy.quietEnv 0 0 (wire 3 (.rotate ⟨hd 1, 0⟩ : Cmd Toy.cfg)) Toy.s2.sys =
        (.ok r, s') ∧ r.kind = some .rotate ∧ r.handles = [hd 2] ∧ (s'.st.at 0).handle = hd 2) ∧
    (∃ s', executeSerialized Toy.quietEnv 0 0 (wire 3 (.rotate ⟨hd 6, 0⟩ : Cmd Toy.cfg)) Toy.s2.sys =
        (.ok (.error ⟨0x44504552, 0x80, .p256⟩), s') ∧ (s'.st.at 0).handle = hd 1) ∧
    (∃ s', executeSerialized Toy.quietEnv 0 0 ((wire 3 (.rotate ⟨hd 1, 0⟩ : Cmd Toy.cfg)).take 31) Toy.s2.sys =
        (.error .invalidArgument, s')) := by
  refine ⟨?_, ?_, ?_⟩
  · have h0 : ((executeSerialized Toy.quietEnv 0 0 (wire 3 (.rotate ⟨hd 1, 0⟩ : Cmd Toy.cfg)) Toy.s2.sys).1.toOption.map
        fun r => (r.kind, r.handles)) = some (some .rotate, [hd 2]) := by decide +kernel
    have h1 : ((executeSerialized Toy.quietEnv 0 0 (wire 3 (.rotate ⟨hd 1, 0⟩ : Cmd Toy.cfg)) Toy.s2.sys).2.st.at 0).handle
        = hd 2 := by decide +kernel
    generalize hx : executeSerialized Toy.quietEnv 0 0 (wire 3 (.rotate ⟨hd 1, 0⟩ : Cmd Toy.cfg)) Toy.s2.sys = x at h0 h1
    obtain ⟨y, s'⟩ := x
    cases y with
    | error e => simp [Except.toOption] at h0
    | ok r =>
      simp only [Except.toOption, Option.map_some, Option.some.injEq, Prod.mk.injEq] at h0
      exact ⟨r, s', rfl, h0.1, h0.2, h1⟩
  · have h0 : (match (executeSerialized Toy.quietEnv 0 0 (wire 3 (.rotate ⟨hd 6, 0⟩ : Cmd Toy.cfg)) Toy.s2.sys).1 with
        | .ok (.error h) => some h | _ => none) = some ⟨0x44504552, 0x80, .p256⟩ := by decide +kernel
    have h1 : ((executeSerialized Toy.quietEnv 0 0 (wire 3 (.rotate ⟨hd 6, 0⟩ : Cmd Toy.cfg)) Toy.s2.sys).2.st.at 0).handle
        = hd 1 := by decide +kernel
    generalize hx : executeSerialized Toy.quietEnv 0 0 (wire 3 (.rotate ⟨hd 6, 0⟩ : Cmd Toy.cfg)) Toy.s2.sys = x at h0 h1
    obtain ⟨y, s'⟩ := x
    simp only at h0 h1
    split at h0
    · subst_vars
      cases h0
      exact ⟨s', rfl, h1⟩
    · cases h0
  · have h0 : (match (executeSerialized Toy.quietEnv 0 0 ((wire 3 (.rotate ⟨hd 1, 0⟩ : Cmd Toy.cfg)).take 31) Toy.s2.sys).1 with
        | .error e => some e | _ => none) = some .invalidArgument := by decide +kernel
    generalize hx : executeSerialized Toy.quietEnv 0 0 ((wire 3 (.rotate ⟨hd 1, 0⟩ : Cmd Toy.cfg)).take 31) Toy.s2.sys = x at h0
    obtain ⟨y, s'⟩ := x
    simp only at h0
    split at h0
    · subst_vars
      cases h0
      exact ⟨s', rfl⟩
    · cases h0
end

/-- Two platform errors that differ only in their payload share a status word; InvalidHandle and
InvalidLocality do not. -/
example : Err.code (.platform (.issuerNameError 1)) = Err.code (.platform (.issuerNameError 2)) ∧
    Err.code .invalidHandle ≠ Err.code .invalidLocality :=
  ⟨(C35_codes _ _ (by decide) (by decide)).2 rfl,
    fun h => absurd ((C35_codes _ _ (by decide) (by decide)).1 h) (by decide)⟩

end Dpe
