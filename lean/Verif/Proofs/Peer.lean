import Verif.Spec.Peer
import Verif.Proofs.Client
/-
The Go client over any transport.
-/
namespace Dpe

theorem getGoHdr_iff {b r : Bytes} {h : GoHdr} :
    getGoHdr b = some (h, r) ↔ b = le32 h.magic ++ (le32 h.status ++ (le32 h.profile ++ r)) := by
  constructor
  · intro e
    simp only [getGoHdr, bind, Option.bind, pure] at e
    rcases e1 : getU32 b with _ | ⟨m, b1⟩ <;> simp only [e1] at e
    · cases e
    rcases e2 : getU32 b1 with _ | ⟨s, b2⟩ <;> simp only [e2] at e
    · cases e
    rcases e3 : getU32 b2 with _ | ⟨p, b3⟩ <;> simp only [e3] at e
    · cases e
    cases e
    rw [getU32_iff.1 e1, getU32_iff.1 e2, getU32_iff.1 e3]
  · rintro rfl
    simp only [getGoHdr, getU32_le, bind, Option.bind, pure]

theorem getGoHdr_none {b : Bytes} : getGoHdr b = none ↔ b.length < 12 := by
  constructor
  · intro e
    simp only [getGoHdr, bind, Option.bind, pure] at e
    rcases e1 : getU32 b with _ | ⟨m, b1⟩ <;> simp only [e1] at e
    · have := getU32_none.1 e1; omega
    rcases e2 : getU32 b1 with _ | ⟨s, b2⟩ <;> simp only [e2] at e
    · have := getU32_none.1 e2
      rw [getU32_iff.1 e1]
      simp [le32_length]; omega
    rcases e3 : getU32 b2 with _ | ⟨p, b3⟩ <;> simp only [e3] at e
    · have := getU32_none.1 e3
      rw [getU32_iff.1 e1, getU32_iff.1 e2]
      simp [le32_length]; omega
    cases e
  · intro h
    rcases e : getGoHdr b with _ | ⟨h', r⟩
    · rfl
    · rw [getGoHdr_iff.1 e] at h
      simp [le32_length] at h
      omega

/-- What is made of the bytes behind the header. -/
def readBody {α β : Type} (rsp : Bytes → Option (α × Bytes)) (f : GoHdr × α × Bytes → Except ClErr β) (profile : U32)
    (payload : Bytes) : Except ClErr β :=
  match rsp payload with
  | none => .error .short
  | some (a, r) => f (⟨0x44504552, 0, profile⟩, a, r)

theorem goResponse_answer {α β : Type} {rsp : Bytes → Option (α × Bytes)} {f : GoHdr × α × Bytes → Except ClErr β}
    {profile : U32} {payload : Bytes} :
    andThen' (goResponse rsp (goAnswer 0 profile payload)) f = readBody rsp f profile payload := by
  have : getGoHdr (goAnswer 0 profile payload) = some (⟨0x44504552, 0, profile⟩, payload) :=
    getGoHdr_iff.2 (by simp [goAnswer])
  simp only [goResponse, this, checkRespHdr]
  rw [if_neg (by decide), if_neg (by decide)]
  unfold readBody
  rcases rsp payload with _ | ⟨a, r⟩ <;> rfl

theorem received_iff {α β : Type} {rsp : Bytes → Option (α × Bytes)} {f : GoHdr × α × Bytes → Except ClErr β}
    {R : U32 → Bytes → β → Prop} {Big : Bytes → Prop}
    (hv : ∀ profile payload v, readBody rsp f profile payload = .ok v ↔ R profile payload v)
    (he : ∀ profile payload e, readBody rsp f profile payload = .error e → e = .short ∨ e = .certTooLarge)
    (hb : ∀ profile payload, readBody rsp f profile payload = .error .certTooLarge ↔ Big payload)
    (resp : Bytes) (r : Except ClErr β) :
    andThen' (goResponse rsp resp) f = r ↔ Received R Big resp r := by
  constructor
  · rintro rfl
    rcases e : getGoHdr resp with _ | ⟨⟨m, s, p⟩, rest⟩
    · simp only [goResponse, e, andThen']
      exact .noHeader (getGoHdr_none.1 e)
    · by_cases hm : m = 0x44504552
      · subst hm
        by_cases hs : s = 0
        · subst hs
          have : resp = goAnswer 0 p rest := by rw [getGoHdr_iff.1 e]; simp [goAnswer]
          rw [this, goResponse_answer]
          rcases h : readBody rsp f p rest with e | v
          · rcases he _ _ _ h with rfl | rfl
            · refine .short (fun v hR => ?_) (fun hB => ?_)
              · have := (hv _ _ _).2 hR; rw [h] at this; cases this
              · have := (hb p _).2 hB; rw [h] at this; cases this
            · exact .tooLarge ((hb _ _).1 h)
          · exact .value ((hv _ _ _).1 h)
        · simp only [goResponse, e, checkRespHdr]
          rw [if_neg (by decide), if_pos hs]
          have : resp = goAnswer s p rest := by rw [getGoHdr_iff.1 e]; simp [goAnswer]
          rw [this]
          exact .status hs
      · simp only [goResponse, e, checkRespHdr]
        rw [if_pos hm, getGoHdr_iff.1 e]
        exact .magic hm (by simp [le32_length]; omega)
  · intro h
    cases h with
    | value h => rw [goResponse_answer]; exact (hv _ _ _).2 h
    | tooLarge h => rw [goResponse_answer]; exact (hb _ _).2 h
    | short h1 h2 =>
      rename_i p payload
      rw [goResponse_answer]
      rcases h : readBody rsp f p payload with e | v
      · rcases he _ _ _ h with rfl | rfl
        · rfl
        · exact absurd ((hb _ _).1 h) h2
      · exact absurd ((hv _ _ _).1 h) (h1 v)
    | noHeader h => simp only [goResponse, getGoHdr_none.2 h, andThen']
    | status h =>
      rename_i s p payload
      have : getGoHdr (goAnswer s p payload) = some (⟨0x44504552, s, p⟩, payload) :=
        getGoHdr_iff.2 (by simp [goAnswer])
      simp only [goResponse, this, checkRespHdr]
      rw [if_neg (by decide), if_pos h]
      rfl
    | magic h1 h2 =>
      rename_i m rest
      rcases e : getGoHdr (le32 m ++ rest) with _ | ⟨⟨m', s, p⟩, rest'⟩
      · have := getGoHdr_none.1 e
        simp [le32_length] at this
        omega
      · have := getGoHdr_iff.1 e
        have hm : m = m' := by
          have h3 := getU32_le m rest
          rw [this, getU32_le] at h3
          cases h3; rfl
        subst hm
        simp only [goResponse, word_eq, e, checkRespHdr]
        rw [if_pos h1]
        rfl

/-! ### Which bytes are which value -/

theorem getHandle_iff {b r : Bytes} {h : Handle} : getHandle b = some (h, r) ↔ b = h.toList ++ r := getArr_iff

theorem getHandles_iff {b r : Bytes} {h p : Handle} :
    getHandles b = some ((h, p), r) ↔ b = h.toList ++ (p.toList ++ r) := by
  constructor
  · intro e
    simp only [getHandles, bind, Option.bind, pure] at e
    rcases e1 : getArr 16 b with _ | ⟨m, b1⟩ <;> simp only [e1] at e
    · cases e
    rcases e2 : getArr 16 b1 with _ | ⟨s, b2⟩ <;> simp only [e2] at e
    · cases e
    cases e
    rw [getArr_iff.1 e1, getArr_iff.1 e2]
  · rintro rfl
    simp only [getHandles, getArr_app, bind, Option.bind, pure]

theorem getKeyFields_iff {n : Nat} {b r : Bytes} {h : Handle} {x y : BArr n} {k : U32} :
    getKeyFields n b = some ((h, x, y, k), r) ↔ b = h.toList ++ (x.toList ++ (y.toList ++ (le32 k ++ r))) := by
  constructor
  · intro e
    simp only [getKeyFields, bind, Option.bind, pure] at e
    rcases e1 : getArr 16 b with _ | ⟨m, b1⟩ <;> simp only [e1] at e
    · cases e
    rcases e2 : getArr n b1 with _ | ⟨s, b2⟩ <;> simp only [e2] at e
    · cases e
    rcases e3 : getArr n b2 with _ | ⟨s', b3⟩ <;> simp only [e3] at e
    · cases e
    rcases e4 : getU32 b3 with _ | ⟨s'', b4⟩ <;> simp only [e4] at e
    · cases e
    cases e
    rw [getArr_iff.1 e1, getArr_iff.1 e2, getArr_iff.1 e3, getU32_iff.1 e4]
  · rintro rfl
    simp only [getKeyFields, getArr_app, getU32_le, bind, Option.bind, pure]

theorem getMlKeyFields_iff {n : Nat} {b r : Bytes} {h : Handle} {x : BArr n} {k : U32} :
    getMlKeyFields n b = some ((h, x, k), r) ↔ b = h.toList ++ (x.toList ++ (le32 k ++ r)) := by
  constructor
  · intro e
    simp only [getMlKeyFields, bind, Option.bind, pure] at e
    rcases e1 : getArr 16 b with _ | ⟨m, b1⟩ <;> simp only [e1] at e
    · cases e
    rcases e2 : getArr n b1 with _ | ⟨s, b2⟩ <;> simp only [e2] at e
    · cases e
    rcases e4 : getU32 b2 with _ | ⟨s'', b4⟩ <;> simp only [e4] at e
    · cases e
    cases e
    rw [getArr_iff.1 e1, getArr_iff.1 e2, getU32_iff.1 e4]
  · rintro rfl
    simp only [getMlKeyFields, getArr_app, getU32_le, bind, Option.bind, pure]

theorem getExportFields_iff {b r : Bytes} {h p : Handle} {c : BArr 32} {k : U32} :
    getExportFields b = some ((h, p, c, k), r) ↔ b = h.toList ++ (p.toList ++ (c.toList ++ (le32 k ++ r))) := by
  constructor
  · intro e
    simp only [getExportFields, bind, Option.bind, pure] at e
    rcases e1 : getArr 16 b with _ | ⟨m, b1⟩ <;> simp only [e1] at e
    · cases e
    rcases e2 : getArr 16 b1 with _ | ⟨s, b2⟩ <;> simp only [e2] at e
    · cases e
    rcases e3 : getArr 32 b2 with _ | ⟨s', b3⟩ <;> simp only [e3] at e
    · cases e
    rcases e4 : getU32 b3 with _ | ⟨s'', b4⟩ <;> simp only [e4] at e
    · cases e
    cases e
    rw [getArr_iff.1 e1, getArr_iff.1 e2, getArr_iff.1 e3, getU32_iff.1 e4]
  · rintro rfl
    simp only [getExportFields, getArr_app, getU32_le, bind, Option.bind, pure]

theorem getSigFields_iff {n : Nat} {b r : Bytes} {h : Handle} {x y : BArr n} :
    getSigFields n b = some ((h, x, y), r) ↔ b = h.toList ++ (x.toList ++ (y.toList ++ r)) := by
  constructor
  · intro e
    simp only [getSigFields, bind, Option.bind, pure] at e
    rcases e1 : getArr 16 b with _ | ⟨m, b1⟩ <;> simp only [e1] at e
    · cases e
    rcases e2 : getArr n b1 with _ | ⟨s, b2⟩ <;> simp only [e2] at e
    · cases e
    rcases e3 : getArr n b2 with _ | ⟨s', b3⟩ <;> simp only [e3] at e
    · cases e
    cases e
    rw [getArr_iff.1 e1, getArr_iff.1 e2, getArr_iff.1 e3]
  · rintro rfl
    simp only [getSigFields, getArr_app, bind, Option.bind, pure]

theorem getMlSigFields_iff {b r : Bytes} {h : Handle} {x : BArr 4627} :
    getMlSigFields b = some ((h, x), r) ↔ b = h.toList ++ (x.toList ++ r) := by
  constructor
  · intro e
    simp only [getMlSigFields, bind, Option.bind, pure] at e
    rcases e1 : getArr 16 b with _ | ⟨m, b1⟩ <;> simp only [e1] at e
    · cases e
    rcases e2 : getArr 4627 b1 with _ | ⟨s, b2⟩ <;> simp only [e2] at e
    · cases e
    cases e
    rw [getArr_iff.1 e1, getArr_iff.1 e2]
  · rintro rfl
    simp only [getMlSigFields, getArr_app, bind, Option.bind, pure]

theorem getRawSigFields_iff {b r : Bytes} {h : Handle} {x : BArr 4627} {p : BArr 1} :
    getRawSigFields b = some ((h, x, p), r) ↔ b = h.toList ++ (x.toList ++ (p.toList ++ r)) := by
  constructor
  · intro e
    simp only [getRawSigFields, bind, Option.bind, pure] at e
    rcases e1 : getArr 16 b with _ | ⟨m, b1⟩ <;> simp only [e1] at e
    · cases e
    rcases e2 : getArr 4627 b1 with _ | ⟨s, b2⟩ <;> simp only [e2] at e
    · cases e
    rcases e3 : getArr 1 b2 with _ | ⟨s', b3⟩ <;> simp only [e3] at e
    · cases e
    cases e
    rw [getArr_iff.1 e1, getArr_iff.1 e2, getArr_iff.1 e3]
  · rintro rfl
    simp only [getRawSigFields, getArr_app, bind, Option.bind, pure]

theorem getChainFields_iff {b r : Bytes} {n : U32} {x : BArr 2048} :
    getChainFields b = some ((n, x), r) ↔ b = le32 n ++ (x.toList ++ r) := by
  constructor
  · intro e
    simp only [getChainFields, bind, Option.bind, pure] at e
    rcases e1 : getU32 b with _ | ⟨m, b1⟩ <;> simp only [e1] at e
    · cases e
    rcases e2 : getArr 2048 b1 with _ | ⟨s, b2⟩ <;> simp only [e2] at e
    · cases e
    cases e
    rw [getU32_iff.1 e1, getArr_iff.1 e2]
  · rintro rfl
    simp only [getChainFields, getArr_app, getU32_le, bind, Option.bind, pure]

theorem goProfileFields_iff {b r : Bytes} {ma mi : BitVec 16} {v k t f : U32} :
    goProfileFields b = some ((ma, mi, v, k, t, f), r) ↔
      b = le16 ma ++ (le16 mi ++ (le32 v ++ (le32 k ++ (le32 t ++ (le32 f ++ r))))) := by
  constructor
  · intro e
    simp only [goProfileFields, bind, Option.bind, pure] at e
    rcases e1 : getU16 b with _ | ⟨a1, b1⟩ <;> simp only [e1] at e
    · cases e
    rcases e2 : getU16 b1 with _ | ⟨a2, b2⟩ <;> simp only [e2] at e
    · cases e
    rcases e3 : getU32 b2 with _ | ⟨a3, b3⟩ <;> simp only [e3] at e
    · cases e
    rcases e4 : getU32 b3 with _ | ⟨a4, b4⟩ <;> simp only [e4] at e
    · cases e
    rcases e5 : getU32 b4 with _ | ⟨a5, b5⟩ <;> simp only [e5] at e
    · cases e
    rcases e6 : getU32 b5 with _ | ⟨a6, b6⟩ <;> simp only [e6] at e
    · cases e
    cases e
    rw [getU16_iff.1 e1, getU16_iff.1 e2, getU32_iff.1 e3, getU32_iff.1 e4, getU32_iff.1 e5, getU32_iff.1 e6]
  · rintro rfl
    simp only [goProfileFields, getU16_le, getU32_le, bind, Option.bind, pure]

theorem goSlice_iff {n : Nat} {b c : Bytes} : goSlice n b = .ok c ↔ ∃ r, b = c ++ r ∧ c.length = n := by
  unfold goSlice
  constructor
  · intro h
    split at h
    · cases h
      exact ⟨b.drop n, (List.take_append_drop n b).symm, by simp; omega⟩
    · cases h
  · rintro ⟨r, rfl, rfl⟩
    rw [if_pos (by simp)]
    simp

theorem goSlice_error {n : Nat} {b : Bytes} {e : ClErr} (h : goSlice n b = .error e) : e = .short := by
  unfold goSlice at h
  split at h <;> cases h
  rfl

end Dpe
