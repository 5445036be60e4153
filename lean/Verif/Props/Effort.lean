import Verif.Proofs.Effort
import Verif.Props.Uses
import Verif.Props.Reference
/-
How much work a command can cause outside (C80): the number of calls of the crypto implementation and of the
platform is bounded by the number of slots, whatever the outcome and whatever the outside world answers.
-/
namespace Dpe
variable {cfg : Cfg} {σ : Type} {ops : Ops σ} {st : State cfg} {c : Cmd cfg} {loc : U32} {w : σ} {out : Bytes}

/-- C80: a command makes at most `c.effort` calls and two for each chunk that it reads of the certificate chain;
in every state, also in one that was never reached, and whatever the outside world answers. -/
theorem C80_calls (ops : Ops σ) (c : Cmd cfg) (loc : U32) (st : State cfg) (w : σ) (out : Bytes) :
    (usesOf ops c loc st w out).length ≤ c.effort + 2 * chainReads (usesOf ops c loc st w out) := by
  obtain ⟨es, h1, h2⟩ := Effort.exec (ops := ops) (Effort.dice cfg.diceFuel 0) c loc st w [] out
  unfold usesOf
  rw [h1, List.nil_append]
  exact Counts.mono (P := Few) h2 (by split <;> omega)

/-- C80: if the certificate chain of the platform has `n` bytes, then that is two calls for each 2048 bytes of it
and one more, and only for a command that hashes an ancestry. -/
theorem C80_total {n : Nat} (hn : n < 2 ^ 32) (h : ChainSized ops n) (c : Cmd cfg) (loc : U32) (st : State cfg) (w : σ)
    (out : Bytes) : (usesOf ops c loc st w out).length ≤
      c.effort + if c.digests then 2 * ((n + 2047) / 2048) + 1 else 0 := by
  have hd := Effort.dice_short (cfg := cfg) hn h cfg.diceFuel 0 (Nat.zero_le _)
  obtain ⟨es, h1, h2⟩ := Effort.exec (ops := ops) hd c loc st w [] out
  unfold usesOf
  rw [h1, List.nil_append]
  exact h2

/-- C80: GetCertificateChain asks at most once. -/
theorem C80_chain (ops : Ops σ) (x : ChainCmd) (loc : U32) (st : State cfg) (w : σ) (out : Bytes) :
    (usesOf ops (.chain x) loc st w out).length ≤ 1 := by
  obtain ⟨es, h1, h2⟩ := Effort.chain (P := AtMost) (ops := ops) (cfg := cfg) x st w [] out
  have e : usesOf ops (.chain x) loc st w out = es := h1
  rw [e]
  exact h2

theorem chainReads_zero {us : List (Use ops)} (h : ∀ o n, .certChain o n ∉ us) : chainReads us = 0 := by
  induction us with
  | nil => rfl
  | cons u us ih =>
    have ih := ih fun o n hm => h o n (List.mem_cons_of_mem _ hm)
    cases u with
    | certChain o n => exact absurd List.mem_cons_self (h o n)
    | _ => exact ih

/-- C80: if no context asks for the certificate chain in its measurements, then a command makes at most
`c.effort` calls. -/
theorem C80_plain (hst : InService st) (hfit : AlgorithmFits cfg ops) (hser : SerialGiven ops)
    (hn : ∀ i, (st.at i).usesDice = false) (c : Cmd cfg) (loc : U32) (w : σ) (out : Bytes) :
    (usesOf ops c loc st w out).length ≤ c.effort := by
  by_cases hc : ∃ x, c = .chain x
  · obtain ⟨x, rfl⟩ := hc
    exact C80_chain ops x loc st w out
  · have hp := C73_uses hst hfit hser c loc w out
    have h0 : chainReads (usesOf ops c loc st w out) = 0 := by
      refine chainReads_zero fun o n hm => ?_
      obtain ⟨_, _, _, ha⟩ := hp.mem hm
      rcases ha with h | ⟨_, i, path, _, _, j, _, hj⟩
      · exact hc ⟨_, h⟩
      · rw [hn] at hj; cases hj
    have := C80_calls ops c loc st w out
    omega

theorem chainSized_device (L : Lib) (a : Artifact) (p : Profile) (hf : a.Fit) :
    ChainSized (device L a p) a.chain.length := by
  intro off w len chunk h
  have h : ((defaultChain a.chain off 2048).getD (.error (.printError 0))) = .ok (len, chunk) := h
  have hs := hf.short
  have hl : (BitVec.ofNat 32 a.chain.length).toNat = a.chain.length := by
    rw [BitVec.toNat_ofNat]; exact Nat.mod_eq_of_lt (by omega)
  have h2048 : (2048 : U32).toNat = 2048 := rfl
  unfold defaultChain at h
  simp only [hl, h2048] at h
  split at h
  · cases h
  · rename_i h1
    split at h
    · cases h
    · split at h
      · cases h
      · rename_i h2 h3
        simp only [Option.getD_some, Except.ok.injEq, Prod.mk.injEq] at h
        obtain ⟨rfl, -⟩ := h
        rw [BitVec.toNat_ofNat, Nat.mod_eq_of_lt (by omega)]
        omega

/-- C80: the reference device (whose built-in certificate chain has `a.chain.length` bytes). -/
theorem C80_device (L : Lib) (a : Artifact) (p : Profile) (hf : a.Fit) (c : Cmd cfg) (loc : U32) (st : State cfg)
    w (out : Bytes) : (usesOf (device L a p) c loc st w out).length ≤
      c.effort + if c.digests then 2 * ((a.chain.length + 2047) / 2048) + 1 else 0 :=
  C80_total (by have := hf.short; omega) (chainSized_device L a p hf) c loc st w out

/-! ### Concrete cases -/

-- A Sign for the grandchild makes 13 calls of 25 possible ones with four slots: one handle of eight is drawn,
-- three contexts of four are hashed, and there are no internal inputs.
example : (usesOf Toy.certOps (.sign (.p256 (Toy.hd 4) Toy.label 0 (Vector.replicate 32 1))) 0 Toy.v4.st Toy.v4.p.2
    Toy.bigBuf).length = 13 := by decide +kernel
example : (Cmd.sign (.p256 (Toy.hd 4) Toy.label 0 (Vector.replicate 32 1)) : Cmd Toy.cfg).effort = 25 := by decide

-- GetProfile needs its two calls; a command that is refused makes none.
example : (usesOf Toy.certOps (cfg := Toy.cfg) .getProfile 0 Toy.v4.st Toy.v4.p.2 Toy.bigBuf).length = 2 := by
  decide +kernel
example : (usesOf Toy.certOps (.rotate ⟨Toy.hd 9, 0⟩) 0 Toy.v4.st Toy.v4.p.2 Toy.bigBuf).length = 0 := by
  decide +kernel

end Dpe
