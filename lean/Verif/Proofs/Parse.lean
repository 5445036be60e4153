import Verif.Spec.Parse
import Verif.Proofs.X509Der
/-
The certificate reader on the octets of trees: framing.
-/
namespace Dpe

theorem readTlv_shorter {bs body rest : Bytes} {tag : UInt8} (h : readTlv bs = some (tag, body, rest)) :
    rest.length < bs.length := by
  obtain ⟨rfl, _, _⟩ := readTlv_sound h
  simp [tlv]; omega

theorem readAll_fuel : ∀ (n : Nat) (bs : Bytes) (k k' : Nat), bs.length ≤ n → bs.length ≤ k →
    bs.length ≤ k' → readAll k bs = readAll k' bs := by
  intro n
  induction n with
  | zero =>
    intro bs k k' h _ _
    have : bs = [] := List.length_eq_zero_iff.1 (by omega)
    subst this
    unfold readAll; cases k <;> cases k' <;> rfl
  | succ n ih =>
    intro bs k k' h hk hk'
    cases bs with
    | nil => unfold readAll; cases k <;> cases k' <;> rfl
    | cons b bs =>
      obtain ⟨k, rfl⟩ : ∃ m, k = m + 1 := ⟨k - 1, by simp only [List.length_cons] at hk; omega⟩
      obtain ⟨k', rfl⟩ : ∃ m, k' = m + 1 := ⟨k' - 1, by simp only [List.length_cons] at hk'; omega⟩
      rw [readAll, readAll]
      cases hr : readTlv (b :: bs) with
      | none => rfl
      | some v =>
        obtain ⟨tag, body, rest⟩ := v
        have := readTlv_shorter hr
        simp only [List.length_cons] at h hk hk' this
        simp only
        rw [ih rest k k' (by omega) (by omega) (by omega)]

theorem values_nil : values [] = some [] := rfl

theorem values_tlv {tag : UInt8} {body : Bytes} (ht : lowTag tag = true)
    (hb : body.length < 4294967296) (rest : Bytes) :
    values (tlv tag body ++ rest) = (values rest).map ((tag, body) :: ·) := by
  have hr := readTlv_tlv ht hb rest
  have hs := readTlv_shorter hr
  unfold values
  rw [← List.cons_head_tail (l := tlv tag body ++ rest) (by simp [tlv])] at hr ⊢
  rw [← List.cons_head_tail (l := tlv tag body ++ rest) (by simp [tlv])] at hs
  rw [List.length_cons, readAll, hr]
  simp only
  rw [List.length_cons] at hs
  rw [readAll_fuel rest.length rest _ rest.length (Nat.le_refl _) (by omega) (Nat.le_refl _)]

/-- The octets of values. -/
def unread (vs : List (UInt8 × Bytes)) : Bytes := vs.flatMap fun v => tlv v.1 v.2

theorem readAll_sound : ∀ (k : Nat) (bs : Bytes) (vs : List (UInt8 × Bytes)),
    readAll k bs = some vs → bs = unread vs ∧
      ∀ v ∈ vs, lowTag v.1 = true ∧ v.2.length < 4294967296 := by
  intro k
  induction k with
  | zero =>
    intro bs vs h
    cases bs with
    | nil => rw [readAll] at h; injection h with h; subst h; exact ⟨rfl, by simp⟩
    | cons b bs => rw [readAll] at h; cases h
  | succ k ih =>
    intro bs vs h
    cases bs with
    | nil => rw [readAll] at h; injection h with h; subst h; exact ⟨rfl, by simp⟩
    | cons b bs =>
      rw [readAll] at h
      cases hr : readTlv (b :: bs) with
      | none => rw [hr] at h; cases h
      | some v =>
        obtain ⟨tag, body, rest⟩ := v
        rw [hr] at h
        simp only [Option.map_eq_some_iff] at h
        obtain ⟨vs', h1, h2⟩ := h
        obtain ⟨e, hl⟩ := ih _ _ h1
        obtain ⟨e', ht, hb⟩ := readTlv_sound hr
        subst h2
        refine ⟨?_, fun v hv => ?_⟩
        · rw [e', e]; rfl
        · rw [List.mem_cons] at hv
          rcases hv with rfl | hv
          · exact ⟨ht, hb⟩
          · exact hl v hv

theorem values_sound {bs : Bytes} {vs : List (UInt8 × Bytes)} (h : values bs = some vs) :
    bs = unread vs ∧ ∀ v ∈ vs, lowTag v.1 = true ∧ v.2.length < 4294967296 := readAll_sound _ _ _ h

theorem fields_iff {tags : List UInt8} {bs : Bytes} {xs : List Bytes} :
    fields tags bs = some xs ↔ ∃ vs, values bs = some vs ∧ vs.map (·.1) = tags ∧ vs.map (·.2) = xs := by
  unfold fields
  cases values bs with
  | none => simp
  | some vs =>
    simp only [Option.some.injEq]
    constructor
    · intro h
      split at h
      · next ht => injection h with h; exact ⟨vs, rfl, ht, h⟩
      · cases h
    · rintro ⟨vs', rfl, h1, h2⟩
      rw [if_pos h1, h2]

theorem single_iff {tag : UInt8} {bs x : Bytes} : single tag bs = some x ↔
    values bs = some [(tag, x)] := by
  unfold single
  constructor
  · intro h
    split at h
    · next y hf =>
      injection h with h; subst h
      obtain ⟨vs, hv, h1, h2⟩ := fields_iff.1 hf
      rw [hv]
      match vs, h1, h2 with
      | [(t, z)], h1, h2 => simp at h1 h2; rw [h1, h2]
    · cases h
  · intro h
    have : fields [tag] bs = some [x] := fields_iff.2 ⟨_, h, rfl, rfl⟩
    rw [this]

theorem single_tlv {tag : UInt8} {body : Bytes} (ht : lowTag tag = true)
    (hb : body.length < 4294967296) : single tag (tlv tag body) = some body := by
  rw [single_iff]
  have := values_tlv ht hb []
  rw [List.append_nil] at this
  rw [this]; rfl

theorem single_sound {tag : UInt8} {bs x : Bytes} (h : single tag bs = some x) : bs = tlv tag x := by
  have := (values_sound (single_iff.1 h)).1
  simpa [unread] using this

/-! ### Trees -/

/-- Tag and contents of a tree that is a value. -/
def Asn.head : Asn → UInt8 × Bytes
  | .prim tag body => (tag, body)
  | .node tag lead parts => (tag, lead ++ Asn.ders parts)
  | .list tag parts => (tag, Asn.ders parts)
  | .outer tag parts => (tag, Asn.ders parts)
  | .raw _ => (0, [])

/-- The tree is a value with a one-octet tag. -/
def Asn.Headed : Asn → Prop
  | .prim tag _ => lowTag tag = true
  | .node tag _ _ => lowTag tag = true
  | .list tag _ => lowTag tag = true
  | .outer tag _ => lowTag tag = true
  | .raw _ => False

theorem Asn.Headed.spec {t : Asn} (h : t.Headed) : lowTag t.head.1 = true ∧
    t.der = tlv t.head.1 t.head.2 := by
  cases t with
  | raw b => exact h.elim
  | _ => exact ⟨h, by rw [Asn.der, Asn.head]⟩

theorem der_le_ders {ts : List Asn} {t : Asn} (h : t ∈ ts) : t.der.length ≤ (Asn.ders ts).length := by
  induction ts with
  | nil => cases h
  | cons u us ih =>
    rw [Asn.ders, List.length_append]
    rw [List.mem_cons] at h
    rcases h with rfl | h
    · omega
    · have := ih h; omega

theorem head_length {t : Asn} (h : t.Headed) : t.head.2.length < t.der.length := by
  rw [h.spec.2, tlv_length]; unfold tlvLen; omega

theorem values_ders {ts : List Asn} (ht : ∀ t ∈ ts, t.Headed)
    (hl : (Asn.ders ts).length < 4294967296) (rest : Bytes) :
    values (Asn.ders ts ++ rest) = (values rest).map (ts.map Asn.head ++ ·) := by
  induction ts with
  | nil => simp [Asn.ders]
  | cons t ts ih =>
    have h1 := ht t (by simp)
    have h2 := head_length h1
    rw [Asn.ders, List.length_append] at hl
    rw [Asn.ders, List.append_assoc, h1.spec.2, values_tlv h1.spec.1 (by omega),
      ih (fun t h => ht t (by simp [h])) (by omega), Option.map_map]
    rfl

theorem values_of {ts : List Asn} (ht : ∀ t ∈ ts, t.Headed)
    (hl : (Asn.ders ts).length < 4294967296) : values (Asn.ders ts) = some (ts.map Asn.head) := by
  have := values_ders ht hl []
  rw [List.append_nil] at this
  rw [this, values_nil]; simp

theorem fields_of {ts : List Asn} {tags : List UInt8} (ht : ∀ t ∈ ts, t.Headed)
    (hl : (Asn.ders ts).length < 4294967296) (he : ts.map (fun t => t.head.1) = tags) :
    fields tags (Asn.ders ts) = some (ts.map fun t => t.head.2) :=
  fields_iff.2 ⟨_, values_of ht hl, by rw [List.map_map]; exact he, by rw [List.map_map]; rfl⟩

theorem fields_not {ts : List Asn} {tags : List UInt8} (ht : ∀ t ∈ ts, t.Headed)
    (hl : (Asn.ders ts).length < 4294967296) (he : ts.map (fun t => t.head.1) ≠ tags) :
    fields tags (Asn.ders ts) = none := by
  cases h : fields tags (Asn.ders ts) with
  | none => rfl
  | some xs =>
    obtain ⟨vs, h1, h2, _⟩ := fields_iff.1 h
    rw [values_of ht hl] at h1
    injection h1 with h1
    rw [← h1, List.map_map] at h2
    exact absurd h2 he

theorem single_of {t : Asn} (h : t.Headed) (hl : t.der.length < 4294967296) :
    single t.head.1 t.der = some t.head.2 := by
  have := head_length h
  rw [h.spec.2]; exact single_tlv h.spec.1 (by omega)

theorem ders_one (t : Asn) : Asn.ders [t] = t.der := by simp [Asn.ders]

theorem allOf_map {α β γ : Type} {f : β → Option γ} {g : α → β} {k : α → γ} : ∀ {l : List α},
    (∀ a ∈ l, f (g a) = some (k a)) → allOf f (l.map g) = some (l.map k)
  | [], _ => rfl
  | a :: l, h => by
    rw [List.map_cons, allOf, h a (by simp), allOf_map fun b hb => h b (by simp [hb])]
    rfl

end Dpe
