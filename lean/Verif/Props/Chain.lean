import Verif.Spec.Chain
import Verif.Props.Response
import Verif.Props.Binding
/-
C38: certificate chain chunks reassemble.
-/
namespace Dpe

section
variable {cfg : Cfg} {σ : Type}

/-! ## Helper lemmas -/

/-- The default platform's answer inside the chain. -/
theorem defaultChain_in {chain : Bytes} {off size : Nat} (hl : chain.length + 2048 < 2 ^ 32)
    (ho : off < chain.length) (hs : size ≤ 2048) :
    ∃ chunk : BArr 2048,
      defaultChain chain (BitVec.ofNat 32 off) (BitVec.ofNat 32 size) =
        some (.ok (BitVec.ofNat 32 (min size (chain.length - off)), chunk)) ∧
      chunk.toList.take (min size (chain.length - off)) = (chain.drop off).take size := by
  unfold defaultChain
  have e1 : (BitVec.ofNat 32 chain.length).toNat = chain.length :=
    Nat.mod_eq_of_lt (by omega)
  have e2 : (BitVec.ofNat 32 off).toNat = off := Nat.mod_eq_of_lt (by omega)
  have e3 : (BitVec.ofNat 32 size).toNat = size := Nat.mod_eq_of_lt (by omega)
  simp only [e1, e2, e3]
  rw [if_neg (by omega), if_neg (by omega), if_neg (by omega),
    show min (off + size) chain.length - off = min size (chain.length - off) by omega]
  refine ⟨_, rfl, ?_⟩
  apply List.ext_getElem
  · simp; omega
  · intro i h1 h2
    simp at h1 h2
    simp only [List.getElem_take, Vector.getElem_toList, Vector.getElem_ofFn, List.getElem_drop]
    rw [if_pos (by omega), List.getD_eq_getElem?_getD, List.getElem?_eq_getElem (by omega)]
    rfl

theorem u32_eta (x : U32) : BitVec.ofNat 32 x.toNat = x := by
  apply BitVec.eq_of_toNat_eq
  simp

/-- One command, executed. -/
theorem chain_step {env : Env cfg σ} {chain : Bytes} (hsv : ServesChain env.toOps chain)
    (hl : chain.length + 2048 < 2 ^ 32) (loc : U32) (s : Sys cfg σ) (off : Nat) (size : U32)
    (ho : off < chain.length) (hs : size.toNat ≤ 2048) (hout : 2064 ≤ s.out.length) :
    ∃ chunk : BArr 2048, ∃ s1,
      exec env (.chain ⟨BitVec.ofNat 32 off, size⟩) loc s = (.ok 2064, s1) ∧
      s1.st = s.st ∧ s1.w = s.w ∧ s1.out.length = s.out.length ∧
      s1.out.take 2064 = certChainBytes cfg.profile
        (BitVec.ofNat 32 (min size.toNat (chain.length - off))) chunk ∧
      chunk.toList.take (min size.toNat (chain.length - off)) = (chain.drop off).take size.toNat := by
  obtain ⟨chunk, h1, h2⟩ := defaultChain_in hl ho hs
  rw [u32_eta] at h1
  have hlen : (certChainBytes cfg.profile
      (BitVec.ofNat 32 (min size.toNat (chain.length - off))) chunk).length = 2064 := by
    simp [certChainBytes, hdrBytes, le32]
  refine ⟨chunk, ⟨s.st, s.w, certChainBytes cfg.profile
    (BitVec.ofNat 32 (min size.toNat (chain.length - off))) chunk ++ s.out.drop 2064⟩,
    ?_, rfl, rfl, ?_, ?_, h2⟩
  · have hc := hsv _ _ s.w _ h1
    simp only [exec, getCertChain]
    rw [run_failIf, if_neg (by simpa using hs)]
    simp only [bind, M.bind, M.platform, hc, writeAt, bufWrite, hlen]
    rw [if_pos (by omega)]
    simp [pure, M.pure]
  · simp [hlen]; omega
  · rw [List.take_append_of_le_length (by omega), List.take_of_length_le (by omega)]

theorem chain_read {p : Profile} {off size len : U32} {chunk : BArr 2048} :
    ∃ h, clientRead 2064 (.chain ⟨off, size⟩ : Cmd cfg) (certChainBytes p len chunk)
      = .ok (.chain h len chunk) := by
  refine ⟨successHdr p, ?_⟩
  have := C36_client 2064 (.chain ⟨off, size⟩ : Cmd cfg) (.chain (successHdr p) len chunk) .chain
    (by simp [RespondsIn]) rfl (by simp [RespKind.size])
  exact this

/-! ## C38 -/

/-- A request for more than 2048 bytes is refused, on every platform, without any effect. -/
theorem C38_too_big (env : Env cfg σ) (c : ChainCmd) (loc : U32) (s : Sys cfg σ)
    (h : 2048 < c.size.toNat) :
    exec env (.chain c) loc s = (.error .invalidArgument, s) := by
  simp only [exec, getCertChain]
  rw [run_failIf, if_pos (by simpa using h)]

/-- Reading at or past the end of the chain fails, without any effect. -/
theorem C38_end {env : Env cfg σ} {chain : Bytes} (hsv : ServesChain env.toOps chain)
    (hl : chain.length < 2 ^ 32) (c : ChainCmd) (loc : U32) (s : Sys cfg σ)
    (hs : c.size.toNat ≤ 2048) (ho : chain.length ≤ c.offset.toNat) :
    exec env (.chain c) loc s = (.error (.platform .certificateChainError), s) := by
  have hd : defaultChain chain c.offset c.size = some (.error .certificateChainError) := by
    unfold defaultChain
    have e1 : (BitVec.ofNat 32 chain.length).toNat = chain.length := Nat.mod_eq_of_lt hl
    simp only [e1]
    rw [if_pos ho]
  have hc := hsv _ _ s.w _ hd
  simp only [exec, getCertChain]
  rw [run_failIf, if_neg (by simpa using hs)]
  simp only [bind, M.bind, M.platform, hc]

/-- With the sizes a command lets through and a chain shorter than 4 GiB - 2 KiB, the addition
in the default platform does not overflow. -/
theorem C38_no_overflow (chain : Bytes) (off size : U32) (hl : chain.length + 2048 < 2 ^ 32)
    (hs : size.toNat ≤ 2048) : (defaultChain chain off size).isSome = true := by
  by_cases ho : off.toNat < chain.length
  · obtain ⟨_, h, _⟩ := defaultChain_in hl ho hs
    rw [u32_eta, u32_eta] at h
    rw [h]; rfl
  · unfold defaultChain
    have e1 : (BitVec.ofNat 32 chain.length).toNat = chain.length := Nat.mod_eq_of_lt (by omega)
    simp only [e1]
    rw [if_pos (by omega)]; rfl

/-- The addition in the default platform overflows exactly if the request starts inside the chain
and ends beyond 4 GiB; the platform reports an error exactly if it starts past the end of the chain
or the piece would be longer than 2048 bytes, and no other error. -/
theorem C38_overflow (chain : Bytes) (off size : U32) (hl : chain.length < 2 ^ 32) :
    (defaultChain chain off size = none ↔
      off.toNat < chain.length ∧ 2 ^ 32 ≤ off.toNat + size.toNat) ∧
    ∀ e, defaultChain chain off size = some (.error e) ↔ e = .certificateChainError ∧
      (chain.length ≤ off.toNat ∨ (off.toNat + size.toNat < 2 ^ 32 ∧
        2048 < min size.toNat (chain.length - off.toNat))) := by
  have e1 : (BitVec.ofNat 32 chain.length).toNat = chain.length := Nat.mod_eq_of_lt (by omega)
  unfold defaultChain
  simp only [e1]
  by_cases h1 : chain.length ≤ off.toNat
  · rw [if_pos h1]
    refine ⟨⟨nofun, fun h => by omega⟩, fun e => ⟨fun h => ?_, fun h => by rw [h.1]⟩⟩
    cases h; exact ⟨rfl, .inl h1⟩
  rw [if_neg h1]
  by_cases h2 : 2 ^ 32 ≤ off.toNat + size.toNat
  · rw [if_pos h2]
    refine ⟨⟨fun _ => ⟨by omega, h2⟩, fun _ => rfl⟩, fun e => ⟨nofun, fun h => ?_⟩⟩
    rcases h.2 with h | h <;> omega
  rw [if_neg h2]
  by_cases h3 : 2048 < min (off.toNat + size.toNat) chain.length - off.toNat
  · rw [if_pos h3]
    refine ⟨⟨nofun, fun h => by omega⟩, fun e => ⟨fun h => ?_, fun h => by rw [h.1]⟩⟩
    cases h; exact ⟨rfl, .inr ⟨by omega, by omega⟩⟩
  · rw [if_neg h3]
    refine ⟨⟨nofun, fun h => by omega⟩, fun e => ⟨nofun, fun h => ?_⟩⟩
    rcases h.2 with h | h <;> omega

/-- Whatever sequence of sizes a client asks for, the bytes it collects are the beginning of the
chain, as many as it asked for or as there are. -/
theorem C38_reads {env : Env cfg σ} {chain : Bytes} (hsv : ServesChain env.toOps chain)
    (hl : chain.length + 2048 < 2 ^ 32) {loc : U32} {s s' : Sys cfg σ} {sizes : List U32}
    {got : Bytes} (h : ReadsChain env loc s 0 sizes got s') :
    got = chain.take (asked sizes) := by
  have main : ∀ {s off sizes got s'}, ReadsChain env loc s off sizes got s' → off ≤ chain.length →
      got = (chain.drop off).take (asked sizes) := by
    intro s off sizes got s' h
    induction h with
    | done => intro _; simp [asked]
    | @more s s1 s' off size sizes n h len chunk rest hx hr _ ih =>
      intro ho
      have hs : size.toNat ≤ 2048 := by
        apply Nat.le_of_not_lt
        intro hc
        rw [C38_too_big env ⟨_, size⟩ loc s hc] at hx
        cases hx
      have ho' : off < chain.length := by
        apply Nat.lt_of_not_le
        intro hc
        have e2 : (BitVec.ofNat 32 off).toNat = off := Nat.mod_eq_of_lt (by omega)
        rw [C38_end hsv (by omega) ⟨_, size⟩ loc s hs (by rw [e2]; exact hc)] at hx
        cases hx
      have hout : 2064 ≤ s.out.length := by
        rcases getCertChain_inv hx with ⟨⟨_, h2⟩, -⟩ | ⟨l2, c2, w2, -, -, -, h2⟩
        · cases h2
        · have h3 := h2.ok.2.1
          have : (certChainBytes cfg.profile l2 c2).length = 2064 := by
            simp [certChainBytes, hdrBytes, le32]
          omega
      obtain ⟨chunk', s1', hx', -, -, -, ht, hch⟩ := chain_step hsv hl loc s off size ho' hs hout
      rw [hx] at hx'
      cases hx'
      rw [ht] at hr
      obtain ⟨h', hr'⟩ := chain_read (cfg := cfg) (p := cfg.profile) (off := BitVec.ofNat 32 off)
        (size := size) (len := BitVec.ofNat 32 (min size.toNat (chain.length - off))) (chunk := chunk')
      rw [hr] at hr'
      cases hr'
      have e : (BitVec.ofNat 32 (min size.toNat (chain.length - off))).toNat
          = min size.toNat (chain.length - off) := Nat.mod_eq_of_lt (by omega)
      rw [e] at ih ⊢
      rw [ih (by omega), hch]
      have : asked (size :: sizes) = size.toNat + asked sizes := by simp [asked]
      rw [this, List.take_add, List.drop_drop]
      by_cases hc : size.toNat ≤ chain.length - off
      · rw [Nat.min_eq_left hc]
      · rw [Nat.min_eq_right (by omega),
          List.drop_eq_nil_of_le (as := chain) (i := off + (chain.length - off)) (by omega),
          List.drop_eq_nil_of_le (as := chain) (i := off + size.toNat) (by omega)]
  have := main h (Nat.zero_le _)
  simpa using this

/-- A client that keeps asking, with any sizes from 1 to 2048, gets the whole chain after
finitely many commands, all of which succeed; and the next one fails. -/
theorem C38_reassembles {env : Env cfg σ} {chain : Bytes} (hsv : ServesChain env.toOps chain)
    (hl : chain.length + 2048 < 2 ^ 32) (loc : U32) (s : Sys cfg σ) (hout : 2064 ≤ s.out.length)
    (size : Nat → U32) (hs : ∀ k, 1 ≤ (size k).toNat ∧ (size k).toNat ≤ 2048) :
    ∃ k s', ReadsChain env loc s 0 ((List.range k).map size) chain s' ∧
      s'.st = s.st ∧
      exec env (.chain ⟨BitVec.ofNat 32 chain.length, size k⟩) loc s'
        = (.error (.platform .certificateChainError), s') := by
  have main : ∀ (left off : Nat), chain.length - off ≤ left → off ≤ chain.length →
      ∀ (s : Sys cfg σ), 2064 ≤ s.out.length → ∀ size : Nat → U32,
      (∀ k, 1 ≤ (size k).toNat ∧ (size k).toNat ≤ 2048) →
      ∃ k s', ReadsChain env loc s off ((List.range k).map size) (chain.drop off) s' ∧
        s'.st = s.st := by
    intro left
    induction left with
    | zero =>
      intro off h1 h2 s hout size hs
      refine ⟨0, s, ?_, rfl⟩
      rw [List.drop_eq_nil_of_le (by omega)]
      exact .done
    | succ left ih =>
      intro off h1 h2 s hout size hs
      by_cases ho : off < chain.length
      · obtain ⟨chunk, s1, hx, e1, -, e3, e4, hch⟩ :=
          chain_step hsv hl loc s off (size 0) ho (hs 0).2 hout
        obtain ⟨h', hr'⟩ := chain_read (cfg := cfg) (p := cfg.profile)
          (off := BitVec.ofNat 32 off) (size := size 0)
          (len := BitVec.ofNat 32 (min (size 0).toNat (chain.length - off))) (chunk := chunk)
        have e : (BitVec.ofNat 32 (min (size 0).toNat (chain.length - off))).toNat
            = min (size 0).toNat (chain.length - off) := Nat.mod_eq_of_lt (by omega)
        have hpos := (hs 0).1
        obtain ⟨k, s', hk, hst⟩ := ih (off + min (size 0).toNat (chain.length - off)) (by omega)
          (by omega) s1 (by omega) (fun k => size (k + 1)) (fun k => hs (k + 1))
        refine ⟨k + 1, s', ?_, by rw [hst, e1]⟩
        rw [← e4] at hr'
        have := ReadsChain.more (size := size 0) hx hr' (by rw [e]; exact hk)
        rw [e, hch] at this
        rw [List.range_succ_eq_map, List.map_cons, List.map_map]
        have e5 : chain.drop off = (chain.drop off).take (size 0).toNat ++
            chain.drop (off + min (size 0).toNat (chain.length - off)) := by
          by_cases hc : (size 0).toNat ≤ chain.length - off
          · rw [Nat.min_eq_left hc, ← List.drop_drop, List.take_append_drop]
          · rw [Nat.min_eq_right (by omega), List.take_of_length_le (by simp; omega),
              List.drop_eq_nil_of_le (as := chain) (i := off + (chain.length - off)) (by omega),
              List.append_nil]
        rw [e5]
        exact this
      · refine ⟨0, s, ?_, rfl⟩
        rw [List.drop_eq_nil_of_le (by omega)]
        exact .done
  obtain ⟨k, s', h, hst⟩ := main chain.length 0 (by omega) (by omega) s hout size hs
  refine ⟨k, s', by simpa using h, hst, ?_⟩
  apply C38_end hsv (by omega) _ _ _ (hs k).2
  exact Nat.le_of_eq (Nat.mod_eq_of_lt (by omega)).symm

/-- The measurement hash of a context that uses the certificate chain is fed exactly that
chain. -/
theorem C38_dice {ops : Ops σ} {chain : Bytes} (hsv : ServesChain ops chain)
    (hl : chain.length + 2048 < 2 ^ 32) {fuel : Nat} {s s' : Sys cfg (σ × Bytes)}
    (h : diceLoop (record ops) fuel 0 s = (.ok (), s')) : s'.w.2 = s.w.2 ++ chain := by
  have main : ∀ (fuel off : Nat), off ≤ chain.length → ∀ {s s' : Sys cfg (σ × Bytes)},
      diceLoop (record ops) fuel (BitVec.ofNat 32 off) s = (.ok (), s') →
      s'.w.2 = s.w.2 ++ chain.drop off := by
    intro fuel
    induction fuel with
    | zero => intro off _ s s' h; cases h
    | succ fuel ih =>
      intro off ho s s' h
      unfold diceLoop at h
      have e : (record ops).certChain (BitVec.ofNat 32 off) 2048 s.w =
          pass (ops.certChain (BitVec.ofNat 32 off) 2048) s.w := rfl
      rw [e] at h
      unfold pass at h
      by_cases hc : off < chain.length
      · obtain ⟨chunk, h1, h2⟩ := defaultChain_in (size := 2048) hl hc (Nat.le_refl _)
        change defaultChain chain (BitVec.ofNat 32 off) 2048 = _ at h1
        rw [hsv _ _ _ _ h1] at h
        simp only at h
        rw [run_failIf] at h
        split_ifs at h
        · cases h
        rcases crypto_update h with ⟨_, h⟩ | ⟨w, h⟩
        · cases h
        have e2 : (BitVec.ofNat 32 (min 2048 (chain.length - off))).toNat
          = min 2048 (chain.length - off) := Nat.mod_eq_of_lt (by omega)
        have e3 : BitVec.ofNat 32 off + BitVec.ofNat 32 (min 2048 (chain.length - off)) =
            BitVec.ofNat 32 (off + min 2048 (chain.length - off)) := by
          rw [BitVec.ofNat_add]
        rw [e3] at h
        rw [ih _ (by omega) h, e2, h2]
        simp only [List.append_assoc]
        congr 1
        by_cases hc2 : 2048 ≤ chain.length - off
        · rw [Nat.min_eq_left hc2, ← List.drop_drop, List.take_append_drop]
        · rw [Nat.min_eq_right (by omega), List.take_of_length_le (by simp; omega),
            List.drop_eq_nil_of_le (as := chain) (i := off + (chain.length - off)) (by omega),
            List.append_nil]
      · have hd : defaultChain chain (BitVec.ofNat 32 off) 2048 =
            some (.error .certificateChainError) := by
          unfold defaultChain
          have e1 : (BitVec.ofNat 32 chain.length).toNat = chain.length :=
            Nat.mod_eq_of_lt (by omega)
          have e2 : (BitVec.ofNat 32 off).toNat = off := Nat.mod_eq_of_lt (by omega)
          simp only [e1, e2]
          rw [if_pos (by omega)]
        rw [hsv _ _ _ _ hd] at h
        cases h
        rw [List.drop_eq_nil_of_le (by omega)]
        simp
  have := main fuel 0 (Nat.zero_le _) h
  simpa using this

/-- ... and the loop that feeds it ends, after at most one chunk per 2048 bytes and one failing
request, provided the hash engine accepts the data. -/
theorem C38_dice_ends {ops : Ops σ} {chain : Bytes} (hsv : ServesChain ops chain)
    (hl : chain.length + 2048 < 2 ^ 32)
    (hok : ∀ b w, ∃ w', ops.hashUpdate b w = (.ok (), w')) {fuel : Nat}
    (hf : chain.length / 2048 + 2 ≤ fuel) (s : Sys cfg σ) :
    (diceLoop ops fuel 0 s).1 = .ok () := by
  have main : ∀ (fuel off : Nat), off ≤ chain.length → (chain.length - off) / 2048 + 2 ≤ fuel →
      ∀ (s : Sys cfg σ), (diceLoop ops fuel (BitVec.ofNat 32 off) s).1 = .ok () := by
    intro fuel
    induction fuel with
    | zero => intro off _ h; omega
    | succ fuel ih =>
      intro off ho hf s
      unfold diceLoop
      by_cases hc : off < chain.length
      · obtain ⟨chunk, h1, h2⟩ := defaultChain_in (size := 2048) hl hc (Nat.le_refl _)
        change defaultChain chain (BitVec.ofNat 32 off) 2048 = _ at h1
        have e2 : (BitVec.ofNat 32 (min 2048 (chain.length - off))).toNat
          = min 2048 (chain.length - off) := Nat.mod_eq_of_lt (by omega)
        rw [hsv _ _ _ _ h1]
        simp only
        rw [run_failIf, if_neg (by rw [e2]; simp; omega)]
        obtain ⟨w', hw⟩ := hok (chunk.toList.take
          (BitVec.ofNat 32 (min 2048 (chain.length - off))).toNat) s.w
        simp only [bind, M.bind, M.crypto, hw]
        have e3 : BitVec.ofNat 32 off + BitVec.ofNat 32 (min 2048 (chain.length - off)) =
            BitVec.ofNat 32 (off + min 2048 (chain.length - off)) := by
          rw [BitVec.ofNat_add]
        rw [e3]
        by_cases hc2 : 2048 ≤ chain.length - off
        · exact ih _ (by omega) (by omega) _
        · cases fuel with
          | zero => omega
          | succ fuel =>
            have hd : defaultChain chain (BitVec.ofNat 32 (off + min 2048 (chain.length - off))) 2048 =
                some (.error .certificateChainError) := by
              unfold defaultChain
              have e1 : (BitVec.ofNat 32 chain.length).toNat = chain.length :=
                Nat.mod_eq_of_lt (by omega)
              have e2 : (BitVec.ofNat 32 (off + min 2048 (chain.length - off))).toNat =
                off + min 2048 (chain.length - off) := Nat.mod_eq_of_lt (by omega)
              simp only [e1, e2]
              rw [if_pos (by omega)]
            unfold diceLoop
            simp only
            rw [hsv _ _ _ _ hd]
      · have hd : defaultChain chain (BitVec.ofNat 32 off) 2048 =
            some (.error .certificateChainError) := by
          unfold defaultChain
          have e1 : (BitVec.ofNat 32 chain.length).toNat = chain.length :=
            Nat.mod_eq_of_lt (by omega)
          have e2 : (BitVec.ofNat 32 off).toNat = off := Nat.mod_eq_of_lt (by omega)
          simp only [e1, e2]
          rw [if_pos (by omega)]
        rw [hsv _ _ _ _ hd]
  exact main fuel 0 (Nat.zero_le _) (by simpa using hf) s

end

/-! ## Concrete cases -/

namespace Toy

/-- A device whose chain is the 5 bytes 1..5. -/
def chainEnv : Env cfg Nat :=
  { toOps := { ops with
      certChain := fun off size n =>
        match defaultChain [1, 2, 3, 4, 5] off size with
        | some r => (r, n)
        | none => (.error .notImplemented, n) }
    certGen := env.certGen }

theorem chainEnv_serves : ServesChain chainEnv.toOps [1, 2, 3, 4, 5] := by
  intro off size w r h
  simp only [chainEnv, h]

/-- The hypotheses of `C38_reassembles` hold for a real instance: reading two bytes at a time
gives the chain. -/
example : ∃ k s', ReadsChain chainEnv 0 ⟨s1.st, 0, List.replicate 3000 0⟩ 0
    ((List.range k).map fun _ => (2 : U32)) [1, 2, 3, 4, 5] s' := by
  obtain ⟨k, s', h, _⟩ := C38_reassembles chainEnv_serves (by decide) 0
    ⟨s1.st, 0, List.replicate 3000 0⟩ (by rw [List.length_replicate]; decide) (fun _ => 2)
    (fun _ => by decide)
  exact ⟨k, s', h⟩

/-- One chunk in the middle: of ten bytes asked for from offset 3, two are there. -/
example : ∃ chunk, defaultChain [1, 2, 3, 4, 5] 3 10 = some (.ok (2, chunk)) ∧
    chunk.toList.take 2 = [4, 5] :=
  defaultChain_in (chain := [1, 2, 3, 4, 5]) (off := 3) (size := 10) (by decide) (by decide)
    (by decide)

/-- Near the end of the 32-bit range the addition would overflow. -/
example : defaultChain [1, 2] 1 0xFFFFFFFF = none := by decide +kernel

end Toy

end Dpe
