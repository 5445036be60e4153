import Verif.Spec.Response
import Verif.Proofs.Wire
import Verif.Proofs.Calls
import Verif.Proofs.Reply
/-
Lemmas about response structures and their readers.
-/
namespace Dpe
variable {cfg : Cfg} {σ : Type}

theorem profileOfCode_iff {c : U32} {p : Profile} : profileOfCode c = some p ↔ c = p.code := by
  unfold profileOfCode
  constructor
  · intro h
    split at h
    · cases h; subst_vars; rfl
    · split at h
      · cases h; subst_vars; rfl
      · split at h
        · cases h; subst_vars; rfl
        · cases h
  · rintro rfl; cases p <;> rfl

theorem obind_iff {α β : Type} {x : Option α} {f : α → Option β} {y : β} :
    (x >>= f) = some y ↔ ∃ a, x = some a ∧ f a = some y := by
  cases x with
  | none => simp
  | some p =>
    constructor
    · intro h; exact ⟨p, rfl, h⟩
    · rintro ⟨_, h1, h2⟩; cases h1; exact h2

theorem getRespHdr_iff {b r : Bytes} {h : RespHdr} :
    getRespHdr b = some (h, r) ↔ b = h.asBytes ++ r := by
  unfold getRespHdr RespHdr.asBytes
  simp only [bind_some_iff, getU32_iff, pure_some_iff, Prod.mk.injEq, List.append_assoc]
  simp only [obind_iff, profileOfCode_iff]
  simp only [pure_some_iff, Prod.mk.injEq]
  constructor
  · rintro ⟨m, _, rfl, s, _, rfl, c, _, rfl, p, rfl, rfl, rfl⟩; rfl
  · rintro rfl; exact ⟨_, _, rfl, _, _, rfl, _, _, rfl, _, rfl, rfl, rfl⟩

theorem getResp_iff {k : RespKind} {b t : Bytes} {r : Resp cfg} :
    getResp k b = some (r, t) ↔ r.kind = some k ∧ b = r.asBytes ++ t := by
  cases k <;> simp only [getResp, getProfileResp, getHandleResp, getPairResp, getExportedResp,
    getCertResp, getCertMlResp, getSignResp, getSignMlResp, getDestroyResp, getChainResp,
    bind_some_iff, getU32_iff, getU16_iff, getArr_iff, getRespHdr_iff, pure_some_iff, Prod.mk.injEq]
  all_goals constructor
  · rintro ⟨h, _, rfl, a, _, rfl, a, _, rfl, a, _, rfl, a, _, rfl, a, _, rfl, a, _, rfl, rfl, rfl⟩
    exact ⟨rfl, by simp [Resp.asBytes]⟩
  · rintro ⟨hk, rfl⟩
    cases r <;> simp only [Resp.kind, Option.some.injEq, reduceCtorEq] at hk
    simp only [Resp.asBytes, List.append_assoc]
    exact ⟨_, _, rfl, _, _, rfl, _, _, rfl, _, _, rfl, _, _, rfl, _, _, rfl, _, _, rfl, rfl, rfl⟩
  · rintro ⟨h, _, rfl, a, _, rfl, rfl, rfl⟩
    exact ⟨rfl, by simp [Resp.asBytes]⟩
  · rintro ⟨hk, rfl⟩
    cases r <;> simp only [Resp.kind, Option.some.injEq, reduceCtorEq] at hk
    simp only [Resp.asBytes, List.append_assoc]
    exact ⟨_, _, rfl, _, _, rfl, rfl, rfl⟩
  · rintro ⟨h, _, rfl, a, _, rfl, b, _, rfl, rfl, rfl⟩
    exact ⟨rfl, by simp [Resp.asBytes]⟩
  · rintro ⟨hk, rfl⟩
    cases r <;> simp only [Resp.kind, Option.some.injEq, reduceCtorEq] at hk
    simp only [Resp.asBytes, List.append_assoc]
    exact ⟨_, _, rfl, _, _, rfl, _, _, rfl, rfl, rfl⟩
  · rintro ⟨h, _, rfl, a, _, rfl, b, _, rfl, b, _, rfl, b, _, rfl, b, _, rfl, rfl, rfl⟩
    exact ⟨rfl, by simp [Resp.asBytes]⟩
  · rintro ⟨hk, rfl⟩
    cases r <;> simp only [Resp.kind, Option.some.injEq, reduceCtorEq] at hk
    simp only [Resp.asBytes, List.append_assoc]
    exact ⟨_, _, rfl, _, _, rfl, _, _, rfl, _, _, rfl, _, _, rfl, _, _, rfl, rfl, rfl⟩
  · rintro ⟨h, _, rfl, a, _, rfl, rfl, rfl⟩
    exact ⟨rfl, by simp [Resp.asBytes]⟩
  · rintro ⟨hk, rfl⟩
    cases r <;> simp only [Resp.kind, Option.some.injEq, reduceCtorEq] at hk
    simp only [Resp.asBytes, List.append_assoc]
    exact ⟨_, _, rfl, _, _, rfl, rfl, rfl⟩
  · rintro ⟨h, _, rfl, a, _, rfl, b, _, rfl, b, _, rfl, b, _, rfl, b, _, rfl, rfl, rfl⟩
    exact ⟨rfl, by simp [Resp.asBytes]⟩
  · rintro ⟨hk, rfl⟩
    cases r <;> simp only [Resp.kind, Option.some.injEq, reduceCtorEq] at hk
    simp only [Resp.asBytes, List.append_assoc]
    exact ⟨_, _, rfl, _, _, rfl, _, _, rfl, _, _, rfl, _, _, rfl, _, _, rfl, rfl, rfl⟩
  · rintro ⟨h, _, rfl, a, _, rfl, b, _, rfl, b, _, rfl, b, _, rfl, b, _, rfl, rfl, rfl⟩
    exact ⟨rfl, by simp [Resp.asBytes]⟩
  · rintro ⟨hk, rfl⟩
    cases r <;> simp only [Resp.kind, Option.some.injEq, reduceCtorEq] at hk
    simp only [Resp.asBytes, List.append_assoc]
    exact ⟨_, _, rfl, _, _, rfl, _, _, rfl, _, _, rfl, _, _, rfl, _, _, rfl, rfl, rfl⟩
  · rintro ⟨h, _, rfl, a, _, rfl, b, _, rfl, b, _, rfl, b, _, rfl, rfl, rfl⟩
    exact ⟨rfl, by simp [Resp.asBytes]⟩
  · rintro ⟨hk, rfl⟩
    cases r <;> simp only [Resp.kind, Option.some.injEq, reduceCtorEq] at hk
    simp only [Resp.asBytes, List.append_assoc]
    exact ⟨_, _, rfl, _, _, rfl, _, _, rfl, _, _, rfl, _, _, rfl, rfl, rfl⟩
  · rintro ⟨h, _, rfl, a, _, rfl, b, _, rfl, b, _, rfl, rfl, rfl⟩
    exact ⟨rfl, by simp [Resp.asBytes]⟩
  · rintro ⟨hk, rfl⟩
    cases r <;> simp only [Resp.kind, Option.some.injEq, reduceCtorEq] at hk
    simp only [Resp.asBytes, List.append_assoc]
    exact ⟨_, _, rfl, _, _, rfl, _, _, rfl, _, _, rfl, rfl, rfl⟩
  · rintro ⟨h, _, rfl, a, _, rfl, b, _, rfl, b, _, rfl, rfl, rfl⟩
    exact ⟨rfl, by simp [Resp.asBytes]⟩
  · rintro ⟨hk, rfl⟩
    cases r <;> simp only [Resp.kind, Option.some.injEq, reduceCtorEq] at hk
    simp only [Resp.asBytes, List.append_assoc]
    exact ⟨_, _, rfl, _, _, rfl, _, _, rfl, _, _, rfl, rfl, rfl⟩
  · rintro ⟨h, _, rfl, a, _, rfl, b, _, rfl, b, _, rfl, rfl, rfl⟩
    exact ⟨rfl, by simp [Resp.asBytes]⟩
  · rintro ⟨hk, rfl⟩
    cases r <;> simp only [Resp.kind, Option.some.injEq, reduceCtorEq] at hk
    simp only [Resp.asBytes, List.append_assoc]
    exact ⟨_, _, rfl, _, _, rfl, _, _, rfl, _, _, rfl, rfl, rfl⟩
  · rintro ⟨h, _, rfl, rfl, rfl⟩
    exact ⟨rfl, by simp [Resp.asBytes]⟩
  · rintro ⟨hk, rfl⟩
    cases r <;> simp only [Resp.kind, Option.some.injEq, reduceCtorEq] at hk
    simp only [Resp.asBytes]
    exact ⟨_, _, rfl, rfl, rfl⟩
  · rintro ⟨h, _, rfl, a, _, rfl, b, _, rfl, rfl, rfl⟩
    exact ⟨rfl, by simp [Resp.asBytes]⟩
  · rintro ⟨hk, rfl⟩
    cases r <;> simp only [Resp.kind, Option.some.injEq, reduceCtorEq] at hk
    simp only [Resp.asBytes, List.append_assoc]
    exact ⟨_, _, rfl, _, _, rfl, _, _, rfl, rfl, rfl⟩
  · rintro ⟨h, _, rfl, a, _, rfl, b, _, rfl, rfl, rfl⟩
    exact ⟨rfl, by simp [Resp.asBytes]⟩
  · rintro ⟨hk, rfl⟩
    cases r <;> simp only [Resp.kind, Option.some.injEq, reduceCtorEq] at hk
    simp only [Resp.asBytes, List.append_assoc]
    exact ⟨_, _, rfl, _, _, rfl, _, _, rfl, rfl, rfl⟩

theorem RespHdr.asBytes_length (h : RespHdr) : h.asBytes.length = 12 := rfl

theorem resp_length {r : Resp cfg} {k : RespKind} (h : r.kind = some k) :
    r.asBytes.length = k.size cfg := by
  cases r <;> simp only [Resp.kind, Option.some.injEq, reduceCtorEq] at h <;> subst h <;>
    simp [Resp.asBytes, RespKind.size, RespHdr.asBytes_length, le32, le16] <;> omega

theorem getRespExact_iff {k : RespKind} {b : Bytes} {r : Resp cfg} :
    getRespExact k b = some r ↔ r.kind = some k ∧ b = r.asBytes := by
  unfold getRespExact
  constructor
  · intro h
    split at h
    · rename_i r' h1
      cases h
      have := getResp_iff.1 h1
      simpa using this
    · cases h
  · rintro ⟨h1, rfl⟩
    rw [(getResp_iff (k := k) (b := r.asBytes) (t := []) (r := r)).2 ⟨h1, by simp⟩]

/-- Every response starts with its header and its handles. -/
theorem asBytes_form (r : Resp cfg) :
    ∃ tail, r.asBytes = r.hdr.asBytes ++ (r.handles.map Vector.toList).flatten ++ tail := by
  cases r <;> simp only [Resp.asBytes, Resp.hdr, Resp.handles, List.append_assoc, List.map_cons,
    List.map_nil, List.flatten_cons, List.flatten_nil, List.nil_append]
  case error => exact ⟨[], by simp⟩
  case destroy => exact ⟨[], by simp⟩
  case initCtx => exact ⟨[], by simp⟩
  case rotate => exact ⟨[], by simp⟩
  case derive => exact ⟨[], by simp⟩
  case update => exact ⟨[], by simp⟩
  all_goals exact ⟨_, rfl⟩

theorem hdr_of_replies {p : Profile} {hs : List Handle} {out : Bytes} (h : RepliesWith p hs out) :
    ∃ rest, out = (successHdr p).asBytes ++ (hs.map Vector.toList).flatten ++ rest := by
  obtain ⟨rest, rfl⟩ := h
  exact ⟨rest, by cases p <;> rfl⟩

theorem exists_arr {n : Nat} {b : Bytes} (h : n ≤ b.length) :
    ∃ (x : BArr n) (r : Bytes), b = x.toList ++ r ∧ r.length = b.length - n := by
  rcases hg : getArr n b with _ | ⟨x, r⟩
  · rw [getArr_none] at hg; omega
  · have := getArr_iff.1 hg
    exact ⟨x, r, this, by rw [this]; simp⟩

theorem exists_u32 {b : Bytes} (h : 4 ≤ b.length) :
    ∃ (x : U32) (r : Bytes), b = le32 x ++ r ∧ r.length = b.length - 4 := by
  rcases hg : getU32 b with _ | ⟨x, r⟩
  · rw [getU32_none] at hg; omega
  · have := getU32_iff.1 hg
    exact ⟨x, r, this, by rw [this]; simp [le32]⟩

theorem exists_u16 {b : Bytes} (h : 2 ≤ b.length) :
    ∃ (x : BitVec 16) (r : Bytes), b = le16 x ++ r ∧ r.length = b.length - 2 := by
  match b, h with
  | a :: c :: t, _ =>
    have h1 : getU16 (a :: c :: t) = some (c.toBitVec ++ a.toBitVec, t) := rfl
    exact ⟨_, t, getU16_iff.1 h1, by simp⟩

/-- Every byte string of the right size with a valid profile number is a response. -/
theorem exists_resp (k : RespKind) (h : RespHdr) {b : Bytes} (hl : 12 + b.length = k.size cfg) :
    ∃ r : Resp cfg, r.kind = some k ∧ h.asBytes ++ b = r.asBytes := by
  have nil : ∀ {t : Bytes}, t.length = 0 → t = [] := fun h => List.eq_nil_of_length_eq_zero h
  cases k <;> simp only [RespKind.size] at hl
  · obtain ⟨a1, t1, rfl, e1⟩ := exists_u16 (b := b) (by omega)
    obtain ⟨a2, t2, rfl, e2⟩ := exists_u16 (b := t1) (by simp [le16] at hl e1 ⊢; omega)
    obtain ⟨a3, t3, rfl, e3⟩ := exists_u32 (b := t2) (by simp [le16] at hl e1 ⊢; omega)
    obtain ⟨a4, t4, rfl, e4⟩ := exists_u32 (b := t3) (by simp [le16, le32] at hl e1 ⊢; omega)
    obtain ⟨a5, t5, rfl, e5⟩ := exists_u32 (b := t4) (by simp [le16, le32] at hl e1 ⊢; omega)
    obtain ⟨a6, t6, rfl, e6⟩ := exists_u32 (b := t5) (by simp [le16, le32] at hl e1 ⊢; omega)
    have := nil (t := t6) (by simp [le16, le32] at hl; omega)
    subst this
    exact ⟨.getProfile h a1 a2 a3 a4 a5 a6, rfl, by simp [Resp.asBytes]⟩
  · obtain ⟨a1, t1, rfl, e1⟩ := exists_arr (n := 16) (b := b) (by omega)
    have := nil (t := t1) (by simp at hl; omega)
    subst this
    exact ⟨.initCtx h a1, rfl, by simp [Resp.asBytes]⟩
  · obtain ⟨a1, t1, rfl, e1⟩ := exists_arr (n := 16) (b := b) (by omega)
    simp at hl
    obtain ⟨a2, t2, rfl, e2⟩ := exists_arr (n := 16) (b := t1) (by omega)
    have := nil (t := t2) (by simp at hl; omega)
    subst this
    exact ⟨.derive h a1 a2, rfl, by simp [Resp.asBytes]⟩
  · obtain ⟨a1, t1, rfl, e1⟩ := exists_arr (n := 16) (b := b) (by omega)
    simp at hl
    obtain ⟨a2, t2, rfl, e2⟩ := exists_arr (n := 16) (b := t1) (by omega)
    simp at hl
    obtain ⟨a3, t3, rfl, e3⟩ := exists_arr (n := 32) (b := t2) (by omega)
    simp at hl
    obtain ⟨a4, t4, rfl, e4⟩ := exists_u32 (b := t3) (by omega)
    simp [le32] at hl
    obtain ⟨a5, t5, rfl, e5⟩ := exists_arr (n := cfg.maxCertSize) (b := t4) (by omega)
    have := nil (t := t5) (by simp at hl; omega)
    subst this
    exact ⟨.exported h a1 a2 a3 a4 a5, rfl, by simp [Resp.asBytes]⟩
  · obtain ⟨a1, t1, rfl, e1⟩ := exists_arr (n := 16) (b := b) (by omega)
    have := nil (t := t1) (by simp at hl; omega)
    subst this
    exact ⟨.rotate h a1, rfl, by simp [Resp.asBytes]⟩
  · obtain ⟨a1, t1, rfl, e1⟩ := exists_arr (n := 16) (b := b) (by omega)
    simp at hl
    obtain ⟨a2, t2, rfl, e2⟩ := exists_arr (n := 32) (b := t1) (by omega)
    simp at hl
    obtain ⟨a3, t3, rfl, e3⟩ := exists_arr (n := 32) (b := t2) (by omega)
    simp at hl
    obtain ⟨a4, t4, rfl, e4⟩ := exists_u32 (b := t3) (by omega)
    simp [le32] at hl
    obtain ⟨a5, t5, rfl, e5⟩ := exists_arr (n := cfg.maxCertSize) (b := t4) (by omega)
    have := nil (t := t5) (by simp at hl; omega)
    subst this
    exact ⟨.certify256 h a1 a2 a3 a4 a5, rfl, by simp [Resp.asBytes]⟩
  · obtain ⟨a1, t1, rfl, e1⟩ := exists_arr (n := 16) (b := b) (by omega)
    simp at hl
    obtain ⟨a2, t2, rfl, e2⟩ := exists_arr (n := 48) (b := t1) (by omega)
    simp at hl
    obtain ⟨a3, t3, rfl, e3⟩ := exists_arr (n := 48) (b := t2) (by omega)
    simp at hl
    obtain ⟨a4, t4, rfl, e4⟩ := exists_u32 (b := t3) (by omega)
    simp [le32] at hl
    obtain ⟨a5, t5, rfl, e5⟩ := exists_arr (n := cfg.maxCertSize) (b := t4) (by omega)
    have := nil (t := t5) (by simp at hl; omega)
    subst this
    exact ⟨.certify384 h a1 a2 a3 a4 a5, rfl, by simp [Resp.asBytes]⟩
  · obtain ⟨a1, t1, rfl, e1⟩ := exists_arr (n := 16) (b := b) (by omega)
    simp at hl
    obtain ⟨a2, t2, rfl, e2⟩ := exists_arr (n := 2592) (b := t1) (by omega)
    simp at hl
    obtain ⟨a4, t4, rfl, e4⟩ := exists_u32 (b := t2) (by omega)
    simp [le32] at hl
    obtain ⟨a5, t5, rfl, e5⟩ := exists_arr (n := cfg.maxCertSize) (b := t4) (by omega)
    have := nil (t := t5) (by simp at hl; omega)
    subst this
    exact ⟨.certifyMl h a1 a2 a4 a5, rfl, by simp [Resp.asBytes]⟩
  · obtain ⟨a1, t1, rfl, e1⟩ := exists_arr (n := 16) (b := b) (by omega)
    simp at hl
    obtain ⟨a2, t2, rfl, e2⟩ := exists_arr (n := 32) (b := t1) (by omega)
    simp at hl
    obtain ⟨a3, t3, rfl, e3⟩ := exists_arr (n := 32) (b := t2) (by omega)
    have := nil (t := t3) (by simp at hl; omega)
    subst this
    exact ⟨.sign256 h a1 a2 a3, rfl, by simp [Resp.asBytes]⟩
  · obtain ⟨a1, t1, rfl, e1⟩ := exists_arr (n := 16) (b := b) (by omega)
    simp at hl
    obtain ⟨a2, t2, rfl, e2⟩ := exists_arr (n := 48) (b := t1) (by omega)
    simp at hl
    obtain ⟨a3, t3, rfl, e3⟩ := exists_arr (n := 48) (b := t2) (by omega)
    have := nil (t := t3) (by simp at hl; omega)
    subst this
    exact ⟨.sign384 h a1 a2 a3, rfl, by simp [Resp.asBytes]⟩
  · obtain ⟨a1, t1, rfl, e1⟩ := exists_arr (n := 16) (b := b) (by omega)
    simp at hl
    obtain ⟨a2, t2, rfl, e2⟩ := exists_arr (n := 4627) (b := t1) (by omega)
    simp at hl
    obtain ⟨a3, t3, rfl, e3⟩ := exists_arr (n := 1) (b := t2) (by omega)
    have := nil (t := t3) (by simp at hl; omega)
    subst this
    exact ⟨.signMl h a1 a2 a3, rfl, by simp [Resp.asBytes]⟩
  · have := nil (t := b) (by omega)
    subst this
    exact ⟨.destroy h, rfl, by simp [Resp.asBytes]⟩
  · obtain ⟨a1, t1, rfl, e1⟩ := exists_u32 (b := b) (by omega)
    simp [le32] at hl
    obtain ⟨a2, t2, rfl, e2⟩ := exists_arr (n := 2048) (b := t1) (by omega)
    have := nil (t := t2) (by simp at hl; omega)
    subst this
    exact ⟨.chain h a1 a2, rfl, by simp [Resp.asBytes]⟩
  · obtain ⟨a1, t1, rfl, e1⟩ := exists_arr (n := 16) (b := b) (by omega)
    simp at hl
    obtain ⟨a2, t2, rfl, e2⟩ := exists_arr (n := 16) (b := t1) (by omega)
    have := nil (t := t2) (by simp at hl; omega)
    subst this
    exact ⟨.update h a1 a2, rfl, by simp [Resp.asBytes]⟩

theorem respondsIn_iff {c : Cmd cfg} {k : RespKind} : RespondsIn c k ↔ k = c.respKind := by
  cases c with
  | certify c => cases c <;> simp [RespondsIn, Cmd.respKind]
  | sign c => cases c <;> simp [RespondsIn, Cmd.respKind]
  | derive d =>
    have : d.exportCdi = true ↔ Bit d.flags DFlag.exportCdi := Iff.rfl
    simp only [RespondsIn, Cmd.respKind]
    by_cases h : Bit d.flags DFlag.exportCdi
    · rw [if_pos h, if_pos (this.2 h)]
    · rw [if_neg h, if_neg (fun h' => h (this.1 h'))]
  | _ => simp [RespondsIn, Cmd.respKind]

/-- A successful command does not change the size of the buffer, if the certificate generator
does not. -/
theorem exec_out_length {env : Env cfg σ} {c : Cmd cfg} {loc : U32} {s s' : Sys cfg σ} {n : Nat}
    (hk : KeepsWindow env) (h : exec env c loc s = (.ok n, s')) :
    s'.out.length = s.out.length := by
  have fin : ∀ {s s' : Sys cfg σ} {n m : Nat} {b : Bytes}, Responded s s' (.ok n) b m →
      s'.out.length = s.out.length := by
    intro s s' n m b h
    obtain ⟨-, h1, h2⟩ := h.ok
    rw [h2]; simp; omega
  have fin' : ∀ {s s' : Sys cfg σ} {n m base : Nat} {b win : Bytes},
      Responded { s with out := s.out.take base ++ win } s' (.ok n) b m →
      win.length = (s.out.drop base).length → s'.out.length = s.out.length := by
    intro s s' n m base b win h hw
    rw [fin h]
    simp only [List.length_append, List.length_take, hw, List.length_drop]
    omega
  cases c with
  | getProfile =>
    rcases getProfileCmd_inv h with h | ⟨_, _, _, _, h⟩
    · exact absurd h not_untouched_ok
    · exact fin h
  | init f =>
    rcases initCtx_inv h with h | ⟨_, _, _, _, _, _, _, h⟩
    · exact absurd h not_untouched_ok
    · exact fin h
  | rotate f =>
    rcases rotateCtx_inv h with h | ⟨_, _, _, _, _, _, _, _, h⟩
    · exact absurd h not_untouched_ok
    · exact fin h
  | destroy f =>
    rcases destroyCtx_inv h with h | ⟨_, _, _, h⟩
    · exact absurd h not_untouched_ok
    · exact fin h
  | chain f =>
    rcases getCertChain_inv h with h | ⟨_, _, _, _, _, _, h⟩
    · exact absurd h not_untouched_ok
    · exact fin h
  | sign f =>
    rcases signCmd_inv h with h | ⟨_, _, _, _, _, _, _, _, _, _, _, _, _, h⟩
    · exact absurd h not_untouched_ok
    · exact fin h
  | update f =>
    rcases updateCtx_inv h with h | ⟨_, _, _, _, _, _, _, _, _, _, _, _, _, _, _, h⟩
    · exact absurd h not_untouched_ok
    · rcases h with ⟨⟨_, h, _⟩, _⟩ | ⟨_, _, _, h⟩
      · cases h
      · exact fin h
  | certify f =>
    rcases certifyKey_inv h with ⟨⟨_, h⟩, _⟩ | ⟨_, _, _, _, _, _, _, _, _, _, _, _, hg, _, _, h⟩
    · cases h
    · rcases h with ⟨_, h⟩ | ⟨_, _, h⟩
      · cases h
      · exact fin' h (hk _ _ _ _ _ _ _ hg)
  | derive f =>
    rcases deriveCtx_inv h with ⟨⟨_, h⟩, _⟩ | ⟨_, _, _, _, _, _, h⟩
    · cases h
    · rcases h with ⟨_, _, _, _, _, _, _, _, _, h⟩ | ⟨_, _, _, _, h⟩
      · exact fin h
      · rcases h with ⟨_, _, _, _, _, _, _, _, _, _, _, _, _, _, hg, _, _, _, h⟩ |
          ⟨_, _, _, _, _, _, _, _, _, _, _, _, _, _, _, _, h⟩
        · exact fin' h (hk _ _ _ _ _ _ _ hg)
        · exact fin h

end Dpe
