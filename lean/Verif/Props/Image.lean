import Verif.Proofs.Image
import Verif.Props.Service
/-
C69: the memory image of a persisted state.
-/
namespace Dpe

section
variable {cfg : Cfg}

theorem InService.parent_byte {st : State cfg} (hst : InService st) :
    ∀ c ∈ st.contexts, c.parentIdx < 256 := by
  intro c hc
  obtain ⟨i, hi, rfl⟩ := List.mem_iff_getElem.1 hc
  have he : st.contexts[i] = st.at i := by
    unfold State.at
    rw [List.getElem?_eq_getElem hi]
    rfl
  rw [he]
  by_cases hl : Live st i
  · by_cases hr : (st.at i).parentIdx = ROOT
    · rw [hr]; decide
    · have := lt_of_live ((C01_forest hst).parent_lists i hl hr).1
      have := cfg.le64
      omega
  · have : (st.at i).state = .inactive := by
      unfold Live at hl
      exact Decidable.not_not.1 hl
    rw [(hst.wf.clean i this).1]
    decide

/-- C69: bytes at an address load as a state exactly if the address is a multiple of four and the
bytes are the image of that state according to the table of offsets. -/
theorem C69_load {addr : Nat} {b : Bytes} {st : State cfg} :
    loadState addr b = some st ↔ addr % 4 = 0 ∧ StoredState b st := loadState_iff

/-- C69: bytes are the image of at most one state. -/
theorem C69_one {b : Bytes} {st st' : State cfg} (h : StoredState b st) (h' : StoredState b st') :
    st = st' := by
  have h1 := loadState_iff.2 ⟨(rfl : 0 % 4 = 0), h⟩
  rw [loadState_iff.2 ⟨(rfl : 0 % 4 = 0), h'⟩] at h1
  exact (Option.some.inj h1).symm

/-- C69: bytes load as some state exactly if the address is a multiple of four, the length is right,
and the two bytes of each slot that say the type and the stage of life of its context are in range. -/
theorem C69_total {addr : Nat} {b : Bytes} :
    (∃ st : State cfg, loadState addr b = some st) ↔ addr % 4 = 0 ∧ b.length = stateSize cfg ∧
      ∀ i, i < cfg.maxHandles →
        (∃ x, x ≤ 1 ∧ HasByte b (8 + i * contextSize cfg.tciSize + 41 + 2 * cfg.tciSize) x) ∧
        ∃ x, x ≤ 2 ∧ HasByte b (8 + i * contextSize cfg.tciSize + 42 + 2 * cfg.tciSize) x := by
  constructor
  · rintro ⟨st, h⟩
    obtain ⟨ha, hs⟩ := C69_load.1 h
    refine ⟨ha, hs.size, fun i hi => ⟨⟨_, ?_, (hs.contexts i hi).kind⟩, _, ?_, (hs.contexts i hi).state⟩⟩
    · cases (st.at i).ctype <;> simp
    · cases (st.at i).state <;> simp
  · rintro ⟨ha, hl, hc⟩
    exact load_exists ha hl hc

/-- C69: the image of a state in service is laid out as the table of offsets says. -/
theorem C69_saved {st : State cfg} (hst : InService st) : StoredState st.image st :=
  (C69_load.1 (loadState_image (addr := 0) hst.parent_byte rfl)).2

/-- C69: what is saved loads as the same state, at any aligned address. -/
theorem C69_roundtrip {st : State cfg} (hst : InService st) {addr : Nat} (ha : addr % 4 = 0) :
    loadState addr st.image = some st := loadState_image hst.parent_byte ha

/-- C69: different states in service have different images. -/
theorem C69_injective {st st' : State cfg} (hst : InService st) (hst' : InService st')
    (h : st.image = st'.image) : st = st' :=
  C69_one (h ▸ C69_saved hst) (C69_saved hst')

/-- C69: an instance without simulation contexts survives a power cycle at any time: after any calls
its image loads as the same state, and the validator accepts it. -/
theorem C69_power_cycle {fuel : Nat} (hf : cfg.maxHandles ≤ fuel) {st : State cfg} (hst : InService st)
    (hn : ¬ Bit st.support Feature.simulation) {addr : Nat} (ha : addr % 4 = 0) :
    loadState addr st.image = some st ∧ validateDpe fuel st = .ok () :=
  ⟨C69_roundtrip hst ha, (C02_partial hf hst).resolve_right fun h => hn h.1⟩

/-- C69: whatever bytes were adopted, if they loaded as a state that the validator accepted and that
has features of the build only, then after any calls the image is laid out as the table says, loads as
the very state, and without simulation contexts passes the validator again. -/
theorem C69_adopted {fuel : Nat} (hf : cfg.maxHandles ≤ fuel) {addr : Nat} {b : Bytes}
    {st st' : State cfg} (hl : loadState addr b = some st) (hv : validateDpe fuel st = .ok ())
    (hd : ∀ f, Bit cfg.disabled f → ¬ st.supports f) (h : Calls st st') :
    StoredState st'.image st' ∧ loadState addr st'.image = some st' ∧
      (¬ Bit st.support Feature.simulation → validateDpe fuel st' = .ok ()) := by
  have hs := Calls.inService (.restored fuel hf hv hd) h
  exact ⟨C69_saved hs, C69_roundtrip hs (C69_load.1 hl).1, (C68_kept hf hv hd h).2⟩

/-- C69: memory that holds one byte value throughout, as erased or zeroed memory does, never passes:
if it loads at all then the validator finds a wrong marker. -/
theorem C69_blank {fuel : Nat} {addr n : Nat} {x : UInt8} {st : State cfg}
    (h : loadState addr (List.replicate n x) = some st) :
    validateDpe fuel st = .error (.validation .invalidMarker) := by
  have hm := (C69_load.1 h).2.marker
  have hz : st.marker ≠ 0x44504553 := by
    intro hc
    rw [hc] at hm
    have key : ∀ (k : Nat) (y : UInt8), (word (0x44504553 : U32))[k]? = some y → y = x := by
      intro k y hy
      rw [← hm] at hy
      have : y ∈ List.replicate n x := List.mem_of_mem_drop (List.mem_of_mem_take (List.mem_of_getElem? hy))
      exact List.eq_of_mem_replicate this
    have h1 := key 0 0x53 (by decide)
    have h2 := key 1 0x45 (by decide)
    rw [← h1] at h2
    exact absurd h2 (by decide)
  have hz' : st.marker ≠ State.magic := hz
  unfold validateDpe validateState
  rw [if_pos hz']
  rfl

/-- C69: two images of one state agree except in the last byte and in how they write truth values. -/
theorem C69_exact {b b' : Bytes} {st : State cfg} (h : StoredState b st) (h' : StoredState b' st)
    {k : Nat} (hk : k < stateSize cfg - 2) :
    b[k]? = b'[k]? ∨ ∃ i, i < cfg.maxHandles ∧ ∃ j, j < 5 ∧
      k = 8 + i * contextSize cfg.tciSize + 43 + 2 * cfg.tciSize + j ∧
      ∃ y y', b[k]? = some y ∧ b'[k]? = some y' ∧ (y = 0 ↔ y' = 0) := by
  have hb : ∀ {o : Nat} {x : Bool}, HasBool b o x → HasBool b' o x →
      ∃ y y', b[o]? = some y ∧ b'[o]? = some y' ∧ (y = 0 ↔ y' = 0) := by
    rintro o x ⟨y, h1, h2⟩ ⟨y', h1', h2'⟩
    exact ⟨y, y', h1, h1', by rw [← not_iff_not]; exact h2.trans h2'.symm⟩
  have l1 : (halfWord st.flags).length = 2 := rfl
  have hsz : stateSize cfg = 16 + cfg.maxHandles * contextSize cfg.tciSize := rfl
  by_cases a1 : k < 4
  · exact .inl (h.marker.agree h'.marker (by omega) (by rw [word_len]; omega))
  by_cases a2 : k < 8
  · exact .inl (h.version.agree h'.version (by omega) (by rw [word_len]; omega))
  by_cases a3 : stateSize cfg - 4 ≤ k
  · exact .inl (h.flags.agree h'.flags a3 (by omega))
  by_cases a4 : stateSize cfg - 8 ≤ k
  · exact .inl (h.support.agree h'.support a4 (by rw [word_len]; omega))
  have hpos : 0 < contextSize cfg.tciSize := by unfold contextSize; omega
  have hi : (k - 8) / contextSize cfg.tciSize < cfg.maxHandles :=
    Nat.div_lt_of_lt_mul (by rw [Nat.mul_comm]; omega)
  have hd := Nat.div_add_mod (k - 8) (contextSize cfg.tciSize)
  have hm := Nat.mod_lt (k - 8) hpos
  rw [Nat.mul_comm] at hd
  generalize (k - 8) / contextSize cfg.tciSize = i at hi hd
  generalize (k - 8) % contextSize cfg.tciSize = r at hd hm
  have c1 := h.contexts i hi
  have c2 := h'.contexts i hi
  generalize ho : 8 + i * contextSize cfg.tciSize = o at c1 c2
  unfold contextSize at hm
  by_cases b1 : r < 43 + 2 * cfg.tciSize
  · exact .inl (c1.agree c2 (by omega) (by omega))
  refine .inr ⟨i, hi, r - (43 + 2 * cfg.tciSize), by omega, by rw [ho]; omega, ?_⟩
  have hk' : k = o + r := by omega
  have : r = 43 + 2 * cfg.tciSize ∨ r = 44 + 2 * cfg.tciSize ∨ r = 45 + 2 * cfg.tciSize ∨
      r = 46 + 2 * cfg.tciSize ∨ r = 47 + 2 * cfg.tciSize := by omega
  rw [hk']
  rcases this with rfl | rfl | rfl | rfl | rfl
  · rw [← Nat.add_assoc]; exact hb c1.info c2.info
  · rw [← Nat.add_assoc]; exact hb c1.dice c2.dice
  · rw [← Nat.add_assoc]; exact hb c1.x509 c2.x509
  · rw [← Nat.add_assoc]; exact hb c1.exportCdi c2.exportCdi
  · rw [← Nat.add_assoc]; exact hb c1.recursive c2.recursive

end

/-- C69 applied: the image of a state with three contexts loads as that state, and passes the
validator. -/
example : loadState 0x1000 Toy.s4.st.image = some Toy.s4.st ∧ validateDpe 4 Toy.s4.st = .ok () ∧
    Toy.s4.st.image.length = stateSize Toy.cfg :=
  ⟨C69_roundtrip (.reached Toy.s4.reach) (by decide), by decide +kernel,
    (C69_saved (.reached Toy.s4.reach)).size⟩

/-- C69 applied: the first bytes of an image are the marker, which reads `SEPD`, and the version. -/
example : Toy.s4.st.image.take 8 = [0x53, 0x45, 0x50, 0x44, 1, 0, 0, 0] := by decide +kernel

/-- C69 applied: a misaligned image does not load, nor one that lacks a byte or has one too many. -/
example : loadState (cfg := Toy.cfg) 0x1002 Toy.s4.st.image = none ∧
    loadState (cfg := Toy.cfg) 0x1000 Toy.s4.st.image.dropLast = none ∧
    loadState (cfg := Toy.cfg) 0x1000 (Toy.s4.st.image ++ [0]) = none := by decide +kernel

/-- C69 applied: a slot whose stage-of-life byte is 3 does not load, one whose privilege byte is 3
does, and reads as true. -/
example : (loadState (cfg := Toy.cfg) 0
      (Toy.s4.st.image.set (8 + 42 + 2 * Toy.cfg.tciSize) 3)) = none ∧
    ((loadState (cfg := Toy.cfg) 0 (Toy.s4.st.image.set (8 + 45 + 2 * Toy.cfg.tciSize) 3)).map
      fun st => (st.at 0).allowX509) = some true := by decide +kernel

/-- C69 applied: zeroed memory loads, and the validator rejects it; erased flash does not load. -/
example : (∃ st : State Toy.cfg, loadState 0 (List.replicate (stateSize Toy.cfg) 0) = some st ∧
      validateDpe 4 st = .error (.validation .invalidMarker)) ∧
    loadState (cfg := Toy.cfg) 0 (List.replicate (stateSize Toy.cfg) 0xFF) = none := by
  refine ⟨?_, by decide +kernel⟩
  have h : (loadState (cfg := Toy.cfg) 0 (List.replicate (stateSize Toy.cfg) 0)).isSome = true := by
    decide +kernel
  obtain ⟨st, hst⟩ := Option.isSome_iff_exists.1 h
  exact ⟨st, hst, C69_blank hst⟩

end Dpe
