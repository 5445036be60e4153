import Verif.Spec.RespBuf
/-
C37: response buffers are all-or-nothing and windowed.
-/
namespace Dpe

/-! ## Helper lemmas -/

theorem splice_get (l data : Bytes) (off i : Nat) (h : off + data.length ≤ l.length) :
    (l.take off ++ data ++ l.drop (off + data.length))[i]? =
      if off ≤ i ∧ i < off + data.length then data[i - off]? else l[i]? := by
  by_cases h1 : i < off
  · rw [if_neg (by omega), List.append_assoc, List.getElem?_append_left (by simp; omega),
      List.getElem?_take_of_lt h1]
  · by_cases h2 : i < off + data.length
    · rw [if_pos (by omega), List.getElem?_append_left (by simp; omega),
        List.getElem?_append_right (by simp; omega)]
      congr 1; simp; omega
    · rw [if_neg (by omega), List.getElem?_append_right (by simp; omega), List.getElem?_drop]
      congr 1; simp; omega

theorem splice_length (l data : Bytes) (off : Nat) (h : off + data.length ≤ l.length) :
    (l.take off ++ data ++ l.drop (off + data.length)).length = l.length := by
  simp; omega

theorem rbuf_write_eq (W : Nat) (rb : RBuf) (off : Nat) (data : Bytes)
    (hW : rb.store.length < W) :
    (rb.writeAt W off data).2.start = rb.start ∧
    if rb.start + off + data.length ≤ rb.store.length then
      (rb.writeAt W off data).1 = true ∧
      (rb.writeAt W off data).2.store =
        rb.store.take (rb.start + off) ++ data ++ rb.store.drop (rb.start + off + data.length)
    else rb.writeAt W off data = (false, rb) := by
  induction rb generalizing off with
  | slice buf =>
    simp only [RBuf.store, RBuf.start, RBuf.writeAt, checkedAdd, sliceStore] at *
    by_cases h : off + data.length < W
    · rw [if_pos h]
      by_cases h2 : off + data.length ≤ buf.length
      · simp [h2, RBuf.start, RBuf.store]
      · simp [h2, RBuf.start]
    · have : ¬ off + data.length ≤ buf.length := by omega
      simp [h, this, RBuf.start]
  | offset inner base ih =>
    have hs : (RBuf.offset inner base).start = inner.start + base := rfl
    have ht : (RBuf.offset inner base).store = inner.store := rfl
    rw [ht] at hW
    have hw : RBuf.writeAt W (.offset inner base) off data =
        if base + off < W then
          ((inner.writeAt W (base + off) data).1,
            .offset (inner.writeAt W (base + off) data).2 base)
        else (false, .offset inner base) := by
      simp only [RBuf.writeAt, checkedAdd]
      by_cases h : base + off < W
      · rw [if_pos h, if_pos h]
      · rw [if_neg h, if_neg h]
    by_cases h : base + off < W
    · obtain ⟨h1, h2⟩ := ih (base + off) hW
      rw [hw, if_pos h]
      refine ⟨by simp only [RBuf.start, h1], ?_⟩
      by_cases h3 : inner.start + (base + off) + data.length ≤ inner.store.length
      · rw [if_pos h3] at h2
        rw [if_pos (by rw [hs, ht]; omega)]
        refine ⟨h2.1, ?_⟩
        rw [hs, ht, show inner.start + base + off = inner.start + (base + off) by omega]
        exact h2.2
      · rw [if_neg h3] at h2
        rw [if_neg (by rw [hs, ht]; omega), h2]
    · rw [hw, if_neg h, if_neg (by rw [hs, ht]; omega)]
      exact ⟨rfl, rfl⟩

theorem rbuf_write_length (W : Nat) (rb : RBuf) (off : Nat) (data : Bytes)
    (hW : rb.store.length < W) :
    (rb.writeAt W off data).2.store.length = rb.store.length := by
  obtain ⟨-, h⟩ := rbuf_write_eq W rb off data hW
  by_cases hc : rb.start + off + data.length ≤ rb.store.length
  · rw [if_pos hc] at h
    rw [h.2, splice_length _ _ _ hc]
  · rw [if_neg hc] at h
    rw [h]

theorem rbuf_capacity (rb : RBuf) : rb.capacity = rb.store.length - rb.start := by
  induction rb with
  | slice buf => simp [RBuf.capacity, RBuf.store, RBuf.start]
  | offset inner base ih => simp only [RBuf.capacity, RBuf.store, RBuf.start, ih]; omega

theorem zeroLoop_spec (W : Nat) (todo : Nat) : ∀ (i : Nat) (rb : RBuf),
    rb.store.length < W → (todo = 0 ∨ rb.start + i + todo ≤ rb.store.length) →
    (RBuf.zeroLoop W todo i rb).1 = true ∧
    (RBuf.zeroLoop W todo i rb).2.start = rb.start ∧
    (RBuf.zeroLoop W todo i rb).2.store.length = rb.store.length ∧
    ∀ j, (RBuf.zeroLoop W todo i rb).2.store[j]? =
      if rb.start + i ≤ j ∧ j < rb.start + i + todo then some 0 else rb.store[j]? := by
  induction todo with
  | zero => intro i rb _ _; simp [RBuf.zeroLoop]; intro j h1 h2; omega
  | succ n ih =>
    intro i rb hW h
    have h : rb.start + i + (n + 1) ≤ rb.store.length := by omega
    obtain ⟨h1, h2⟩ := rbuf_write_eq W rb i [0] hW
    have hl := rbuf_write_length W rb i [0] hW
    rw [if_pos (by simp; omega)] at h2
    rw [RBuf.zeroLoop]
    generalize rb.writeAt W i [0] = r at *
    obtain ⟨b, rb'⟩ := r
    obtain ⟨h2, h3⟩ := h2
    simp only at h1 h2 h3 hl
    subst h2
    obtain ⟨i1, i2, i3, i4⟩ := ih (i + 1) rb' (by omega) (by omega)
    refine ⟨i1, by rw [i2, h1], by rw [i3, hl], fun j => ?_⟩
    simp only
    rw [i4 j, h3, splice_get _ _ _ _ (by simp; omega), h1]
    simp only [List.length_cons, List.length_nil]
    by_cases hj : rb.start + i ≤ j ∧ j < rb.start + i + (n + 1)
    · rw [if_pos hj]
      by_cases hj2 : rb.start + (i + 1) ≤ j
      · rw [if_pos (by omega)]
      · rw [if_neg (by omega), if_pos (by omega), show j - (rb.start + i) = 0 by omega]; rfl
    · rw [if_neg hj, if_neg (by omega), if_neg (by omega)]

/-! ## C37 -/

/-- A write either succeeds, and then exactly the given bytes stand at exactly the given
offset of the window while every other byte of the storage is what it was, or it fails and the
whole buffer is what it was.  It succeeds exactly when the last byte still lies inside the
storage: no sum wraps around, whatever the offset (even one near the end of the address
space). -/
theorem C37_write (W : Nat) (rb : RBuf) (off : Nat) (data : Bytes)
    (hW : rb.store.length < W) :
    ((rb.writeAt W off data).1 = true ↔ rb.start + off + data.length ≤ rb.store.length) ∧
    ((rb.writeAt W off data).1 = false → (rb.writeAt W off data).2 = rb) ∧
    ((rb.writeAt W off data).1 = true →
      (rb.writeAt W off data).2.start = rb.start ∧
      (rb.writeAt W off data).2.store.length = rb.store.length ∧
      (∀ k, k < data.length →
        (rb.writeAt W off data).2.store[rb.start + off + k]? = data[k]?) ∧
      (∀ i, i < rb.start + off ∨ rb.start + off + data.length ≤ i →
        (rb.writeAt W off data).2.store[i]? = rb.store[i]?)) := by
  obtain ⟨h1, h2⟩ := rbuf_write_eq W rb off data hW
  by_cases hc : rb.start + off + data.length ≤ rb.store.length
  · rw [if_pos hc] at h2
    refine ⟨by simp [h2.1, hc], by simp [h2.1], fun _ => ⟨h1, rbuf_write_length W rb off data hW,
      fun k hk => ?_, fun i hi => ?_⟩⟩
    · rw [h2.2, splice_get _ _ _ _ hc, if_pos (by omega)]
      congr 1; omega
    · rw [h2.2, splice_get _ _ _ _ hc, if_neg (by omega)]
  · rw [if_neg hc] at h2
    rw [h2]
    simp [hc]

/-- A read hands the callback exactly the bytes of the range, and only when the range is in
order and lies inside the storage; it never reaches below the window's base. -/
theorem C37_read (W : Nat) (rb : RBuf) (a b : Nat) (hW : rb.store.length < W) :
    (∀ bytes, rb.readRange W a b = some bytes ↔
      a ≤ b ∧ rb.start + b ≤ rb.store.length ∧ bytes.length = b - a ∧
      ∀ k, k < b - a → bytes[k]? = rb.store[rb.start + a + k]?) := by
  have key : rb.readRange W a b =
      if a ≤ b ∧ rb.start + b ≤ rb.store.length then
        some ((rb.store.drop (rb.start + a)).take (b - a)) else none := by
    induction rb generalizing a b with
    | slice buf => simp [RBuf.readRange, RBuf.store, RBuf.start]
    | offset inner base ih =>
      have hs : (RBuf.offset inner base).start = inner.start + base := rfl
      have ht : (RBuf.offset inner base).store = inner.store := rfl
      rw [ht] at hW
      simp only [RBuf.readRange, checkedAdd]
      by_cases h1 : base + a < W
      · by_cases h2 : base + b < W
        · rw [if_pos h1, if_pos h2]
          simp only
          rw [ih _ _ hW]
          by_cases h3 : a ≤ b ∧ inner.start + base + b ≤ inner.store.length
          · rw [if_pos (by omega), if_pos (by rw [hs, ht]; exact h3), hs, ht,
              show base + b - (base + a) = b - a by omega,
              show inner.start + base + a = inner.start + (base + a) by omega]
          · rw [if_neg (by omega), if_neg (by rw [hs, ht]; exact h3)]
        · rw [if_pos h1, if_neg h2, if_neg (by rw [hs, ht]; omega)]
      · rw [if_neg h1]
        simp only
        rw [if_neg (by rw [hs, ht]; omega)]
  intro bytes
  rw [key]
  by_cases h : a ≤ b ∧ rb.start + b ≤ rb.store.length
  · rw [if_pos h]
    constructor
    · intro he
      injection he with he
      subst he
      refine ⟨h.1, h.2, by simp; omega, fun k hk => ?_⟩
      rw [List.getElem?_take_of_lt hk, List.getElem?_drop]
    · rintro ⟨-, -, hl, hk⟩
      congr 1
      apply List.ext_getElem?
      intro k
      by_cases hkb : k < b - a
      · rw [hk k hkb, List.getElem?_take_of_lt hkb, List.getElem?_drop]
      · rw [List.getElem?_eq_none (by simp; omega), List.getElem?_eq_none (by omega)]
  · rw [if_neg h]
    constructor
    · intro he; cases he
    · rintro ⟨h1, h2, -⟩; exact absurd ⟨h1, h2⟩ h

/-- Clearing never fails; it zeroes every byte of the window and leaves every byte below the
window's base as it was. -/
theorem C37_clear (W : Nat) (rb : RBuf) (hW : rb.store.length < W) :
    (rb.clear W).1 = true ∧ (rb.clear W).2.start = rb.start ∧
    (rb.clear W).2.store.length = rb.store.length ∧
    (∀ i, rb.start ≤ i → i < rb.store.length → (rb.clear W).2.store[i]? = some 0) ∧
    (∀ i, i < rb.start → (rb.clear W).2.store[i]? = rb.store[i]?) := by
  cases rb with
  | slice buf =>
    refine ⟨rfl, rfl, by simp [RBuf.clear, RBuf.store], fun i _ hi => ?_, fun i hi => ?_⟩
    · simp only [RBuf.store] at hi
      simp [RBuf.clear, RBuf.store, hi]
    · simp [RBuf.start] at hi
  | offset inner base =>
    rw [RBuf.clear, rbuf_capacity]
    generalize hr : RBuf.offset inner base = rb at *
    obtain ⟨h1, h2, h3, h4⟩ :=
      zeroLoop_spec W (rb.store.length - rb.start) 0 rb hW (by omega)
    refine ⟨h1, h2, h3, fun i hi hi2 => ?_, fun i hi => ?_⟩
    · rw [h4, if_pos (by omega)]
    · rw [h4, if_neg (by omega)]

/-- The capacity a buffer reports is the room that writes really have. -/
theorem C37_capacity (W : Nat) (rb : RBuf) (off : Nat) (data : Bytes)
    (hW : rb.store.length < W) (hin : rb.start ≤ rb.store.length) :
    (rb.writeAt W off data).1 = true ↔ off + data.length ≤ rb.capacity := by
  rw [(C37_write W rb off data hW).1, rbuf_capacity]
  omega

theorem op_step (W : Nat) (rb : RBuf) (op : BufOp) (hW : rb.store.length < W)
    (hin : rb.start ≤ rb.store.length) :
    (op.run W rb).2.start = rb.start ∧ (op.run W rb).2.store.length = rb.store.length ∧
    (∀ i, i < rb.start → (op.run W rb).2.store[i]? = rb.store[i]?) ∧
    (∀ i b, rb.store[rb.start + i]? = some b →
      (op.run W rb).2.store[rb.start + i]? = some ((op.stores rb.capacity i).getD b)) := by
  have hcap := rbuf_capacity rb
  cases op with
  | clear =>
    obtain ⟨-, h1, h2, h3, h4⟩ := C37_clear W rb hW
    refine ⟨h1, h2, h4, fun i b hb => ?_⟩
    obtain ⟨hlt, -⟩ := List.getElem?_eq_some_iff.1 hb
    rw [BufOp.run, h3 _ (by omega) hlt, BufOp.stores, if_pos (by omega)]
    rfl
  | write off data =>
    obtain ⟨h0, h1, h2⟩ := C37_write W rb off data hW
    simp only [BufOp.run, BufOp.stores]
    cases hok : (rb.writeAt W off data).1 with
    | false =>
      have hne : ¬ (off + data.length ≤ rb.capacity) := by
        intro hle
        rw [hok] at h0
        have := h0.2 (by omega)
        cases this
      rw [h1 hok]
      refine ⟨rfl, rfl, fun _ _ => rfl, fun i b hb => ?_⟩
      rw [if_neg (fun h => hne h.1), hb]; rfl
    | true =>
      obtain ⟨e1, e2, e3, e4⟩ := h2 hok
      have hle := h0.1 hok
      refine ⟨e1, e2, fun i hi => e4 i (by omega), fun i b hb => ?_⟩
      by_cases hi : off ≤ i ∧ i < off + data.length
      · rw [if_pos (by omega)]
        have := e3 (i - off) (by omega)
        rw [show rb.start + off + (i - off) = rb.start + i by omega] at this
        rw [this, List.getElem?_eq_getElem (by omega)]; rfl
      · rw [e4 _ (by omega), hb]
        by_cases h5 : off + data.length ≤ rb.capacity ∧ off ≤ i
        · rw [if_pos h5, List.getElem?_eq_none (by omega)]; rfl
        · rw [if_neg h5]; rfl

/-- Reads return what was last written: after any sequence of writes (fitting or not) and
clears, every byte read from the window is the one most recently stored at that offset, or the
original one if there was none; and nothing below the window's base has changed. -/
theorem C37_history (W : Nat) (ops : List BufOp) (rb : RBuf) (hW : rb.store.length < W)
    (hin : rb.start ≤ rb.store.length) :
    (∀ i b, rb.readRange W i (i + 1) = some [b] →
      (runOps W rb ops).readRange W i (i + 1) = some [lastStored rb.capacity i b ops]) ∧
    (∀ i, i < rb.start → (runOps W rb ops).store[i]? = rb.store[i]?) := by
  have read1 : ∀ (rb : RBuf), rb.store.length < W → ∀ i b,
      rb.readRange W i (i + 1) = some [b] ↔ rb.store[rb.start + i]? = some b := by
    intro rb hW i b
    rw [C37_read W rb i (i + 1) hW]
    constructor
    · rintro ⟨-, -, -, h⟩
      have := h 0 (by omega)
      simpa using this.symm
    · intro h
      obtain ⟨hlt, -⟩ := List.getElem?_eq_some_iff.1 h
      refine ⟨by omega, by omega, by simp, fun k hk => ?_⟩
      have : k = 0 := by omega
      subst this
      simpa using h.symm
  have main : ∀ (ops : List BufOp) (rb : RBuf), rb.store.length < W →
      rb.start ≤ rb.store.length →
      (runOps W rb ops).start = rb.start ∧ (runOps W rb ops).store.length = rb.store.length ∧
      (∀ i, i < rb.start → (runOps W rb ops).store[i]? = rb.store[i]?) ∧
      (∀ i b, rb.store[rb.start + i]? = some b →
        (runOps W rb ops).store[rb.start + i]? = some (lastStored rb.capacity i b ops)) := by
    intro ops
    induction ops with
    | nil => intro rb _ _; exact ⟨rfl, rfl, fun _ _ => rfl, fun _ _ h => h⟩
    | cons op ops ih =>
      intro rb hW hin
      obtain ⟨s1, s2, s3, s4⟩ := op_step W rb op hW hin
      obtain ⟨r1, r2, r3, r4⟩ := ih (op.run W rb).2 (by omega) (by omega)
      refine ⟨by rw [runOps, r1, s1], by rw [runOps, r2, s2], fun i hi => ?_, fun i b hb => ?_⟩
      · rw [runOps, r3 i (by omega), s3 i hi]
      · have hc : (op.run W rb).2.capacity = rb.capacity := by
          rw [rbuf_capacity, rbuf_capacity, s1, s2]
        have := r4 i _ (by rw [s1]; exact s4 i b hb)
        rw [s1, hc] at this
        rw [runOps, this]; rfl
  obtain ⟨m1, m2, m3, m4⟩ := main ops rb hW hin
  refine ⟨fun i b hb => ?_, m3⟩
  rw [read1 _ (by omega), m1]
  exact m4 i b ((read1 rb hW i b).1 hb)

/-- The byte-list buffer used by the state machine (`bufWrite`) and the suffix handed to the
certificate writer are these buffers: a write through a window at `base` of a slice rewrites
exactly the suffix. -/
theorem C37_window (W : Nat) (buf : Bytes) (base off : Nat) (data : Bytes)
    (hW : buf.length < W) (hb : base ≤ buf.length) :
    RBuf.writeAt W (.offset (.slice buf) base) off data =
      match bufWrite (buf.drop base) off data with
      | some win => (true, .offset (.slice (buf.take base ++ win)) base)
      | none => (false, .offset (.slice buf) base) := by
  simp only [RBuf.writeAt, bufWrite, checkedAdd, sliceStore, List.length_drop]
  by_cases h : off + data.length ≤ buf.length - base
  · rw [if_pos h, if_pos (by omega)]
    simp only
    rw [if_pos (by omega)]
    simp only
    rw [if_pos (by omega)]
    simp only [List.drop_drop]
    congr 3
    rw [List.take_add, ← List.append_assoc, ← List.append_assoc]
    congr 2; omega
  · rw [if_neg h]
    by_cases h1 : base + off < W
    · rw [if_pos h1]
      simp only
      by_cases h2 : base + off + data.length < W
      · rw [if_pos h2]
        simp only
        rw [if_neg (by omega)]
      · rw [if_neg h2]
    · rw [if_neg h1]

/-! ## Concrete cases -/

/-- A 6-byte buffer seen through a window at 2: a write at 1 lands at 3. -/
example : (RBuf.writeAt (2 ^ 32) (.offset (.slice [1, 2, 3, 4, 5, 6]) 2) 1 [9, 8]).2.store
    = [1, 2, 3, 9, 8, 6] := by decide +kernel

/-- One byte too many: refused, nothing stored. -/
example : RBuf.writeAt (2 ^ 32) (.offset (.slice [1, 2, 3, 4, 5, 6]) 2) 3 [9, 8]
    = (false, .offset (.slice [1, 2, 3, 4, 5, 6]) 2) := by rfl

/-- An offset that would wrap a 32-bit address is refused. -/
example : (RBuf.writeAt (2 ^ 32) (.offset (.slice [1, 2, 3, 4, 5, 6]) 2) (2 ^ 32 - 2) [9]).1
    = false := by decide +kernel

/-- Clearing a window of a window keeps the bytes before it. -/
example : (RBuf.clear (2 ^ 32) (.offset (.offset (.slice [1, 2, 3, 4, 5, 6]) 2) 1)).2.store
    = [1, 2, 3, 0, 0, 0] := by decide +kernel

/-- A history with a refused write in it. -/
example : (runOps (2 ^ 32) (.offset (.slice [1, 2, 3, 4, 5]) 1)
    [.write 0 [7, 7], .write 3 [6, 6], .clear, .write 1 [5]]).readRange (2 ^ 32) 0 4
    = some [0, 5, 0, 0] := by decide +kernel

end Dpe
