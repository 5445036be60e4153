import Verif.Proofs.Complete
import Verif.Props.Rules
import Verif.Examples.CertRuns
/-
C57: what a command does is specified completely.

`rules` (Spec/Rules) says when a command is refused, and `Serves` (Spec/Complete) what a command that is
not refused does: the calls it makes, the state it leaves and every byte of its reply.  A command succeeds
exactly if it is not refused, all its calls succeed, and the reply fits into the caller's buffer; and then
the reply, the state and the rest of the buffer are the specified ones.
-/
namespace Dpe
section
variable {cfg : Cfg} {σ : Type} {env : Env cfg σ} {ops : Ops σ} {loc : U32} {s s' : Sys cfg σ}
  {c : Cmd cfg} {n : Nat}

theorem served_plain (hst : InService s.st) (hno : NoRefusal (rules s.st loc c)) (hm : ¬ c.makesCert) :
    Served env loc s c := by
  cases c with
  | getProfile => exact served_profile
  | init f => exact served_init hno
  | certify k => exact absurd trivial hm
  | sign k => exact served_sign hst hno
  | rotate k => exact served_rotate hno
  | destroy h => exact served_destroy hst hno
  | chain k => exact served_chain hno
  | update k => exact served_update hst hno
  | derive k =>
    by_cases hr : Bit k.flags DFlag.recursive
    · exact served_recursive hno hr
    · exact served_child hst hno hr hm

theorem Served.fits (h : Served env loc s c) {reply : Bytes} {st' : State cfg} {w' : σ}
    (hs : Serves env.toOps s.st loc s.w c reply st' w') (hl : reply.length ≤ s.out.length) :
    exec env c loc s = (.ok reply.length, ⟨st', w', reply ++ s.out.drop reply.length⟩) := by
  rw [h.1 _ _ _ hs, finish, if_pos hl]

theorem Served.exact (h : Served env loc s c) :
    exec env c loc s = (.ok n, s') ↔ ∃ reply st' w', Serves env.toOps s.st loc s.w c reply st' w' ∧
      reply.length ≤ s.out.length ∧ n = reply.length ∧
      s' = ⟨st', w', reply ++ s.out.drop reply.length⟩ := by
  constructor
  · intro he
    obtain ⟨reply, st', w', hs⟩ := h.2 n s' he
    have hf := h.1 _ _ _ hs
    by_cases hl : reply.length ≤ s.out.length
    · rw [finish, if_pos hl, he] at hf
      refine ⟨reply, st', w', hs, hl, ?_, (Prod.mk.inj hf).2⟩
      exact Except.ok.inj (Prod.mk.inj hf).1
    · rw [finish, if_neg hl, he] at hf
      cases (Prod.mk.inj hf).1
  · rintro ⟨reply, st', w', hs, hl, rfl, rfl⟩
    exact h.fits hs hl

theorem ServedCert.exact (h : ServedCert ops loc s c) :
    exec (ops.env cfg) c loc s = (.ok n, s') ↔
      ∃ reply st' w', Serves ops s.st loc s.w c reply st' w' ∧
      reply.length ≤ s.out.length ∧ n = reply.length ∧
      s' = ⟨st', w', reply ++ s.out.drop reply.length⟩ := by
  constructor
  · intro he
    obtain ⟨reply, st', w', hs, hl⟩ := h.2 n s' he
    have hf := h.1 _ _ _ hs hl
    rw [he] at hf
    exact ⟨reply, st', w', hs, hl, Except.ok.inj (Prod.mk.inj hf).1, (Prod.mk.inj hf).2⟩
  · rintro ⟨reply, st', w', hs, hl, rfl, rfl⟩
    exact h.1 _ _ _ hs hl

/-- C57 for the commands that issue no certificate, whatever the crypto implementation, the platform
and the certificate generator do: the command succeeds exactly if it is not refused, its calls succeed as
specified and its reply fits; and then it does exactly what is specified. -/
theorem C57_plain (hst : InService s.st) (hm : ¬ c.makesCert) :
    exec env c loc s = (.ok n, s') ↔ NoRefusal (rules s.st loc c) ∧
      ∃ reply st' w', Serves env.toOps s.st loc s.w c reply st' w' ∧ reply.length ≤ s.out.length ∧
        n = reply.length ∧ s' = ⟨st', w', reply ++ s.out.drop reply.length⟩ := by
  constructor
  · intro h
    have hno := C53_success hst h
    exact ⟨hno, (served_plain hst hno hm).exact.1 h⟩
  · rintro ⟨hno, h⟩
    exact (served_plain hst hno hm).exact.2 h

/-- C57 for every command, including those that issue certificates and certificate requests.  The crypto
implementation's algorithm is the profile's, and the platform's signer identifier carries a serial
number (both are needed for certificates only). -/
theorem C57_exact (hst : InService s.st) (hd : c.makesCert → AlgorithmFits cfg ops ∧ SerialGiven ops) :
    exec (ops.env cfg) c loc s = (.ok n, s') ↔ NoRefusal (rules s.st loc c) ∧
      ∃ reply st' w', Serves ops s.st loc s.w c reply st' w' ∧ reply.length ≤ s.out.length ∧
        n = reply.length ∧ s' = ⟨st', w', reply ++ s.out.drop reply.length⟩ := by
  by_cases hm : c.makesCert
  · obtain ⟨h1, h2⟩ := hd hm
    constructor
    · intro h
      have hno := C53_success hst h
      refine ⟨hno, ?_⟩
      cases c with
      | certify k => exact (served_certify hst h1 h2 hno).exact.1 h
      | derive k =>
        by_cases hr : Bit k.flags DFlag.recursive
        · exact (served_recursive (env := ops.env cfg) hno hr).exact.1 h
        · exact (served_export hst h1 h2 hno hr hm).exact.1 h
      | _ => exact hm.elim
    · rintro ⟨hno, h⟩
      cases c with
      | certify k => exact (served_certify hst h1 h2 hno).exact.2 h
      | derive k =>
        by_cases hr : Bit k.flags DFlag.recursive
        · exact (served_recursive (env := ops.env cfg) hno hr).exact.2 h
        · exact (served_export hst h1 h2 hno hr hm).exact.2 h
      | _ => exact hm.elim
  · exact C57_plain (env := ops.env cfg) hst hm

/-- C57: the specification leaves nothing open.  The calls, the state and the reply of a command that is
not refused are determined by the state, the command, its locality and the crypto implementation's and
platform's world. -/
theorem C57_unique {st st1 st2 : State cfg} {w w1 w2 : σ} {r1 r2 : Bytes} (hst : InService st)
    (hno : NoRefusal (rules st loc c)) (hd : c.makesCert → AlgorithmFits cfg ops ∧ SerialGiven ops)
    (h1 : Serves ops st loc w c r1 st1 w1) (h2 : Serves ops st loc w c r2 st2 w2) :
    r1 = r2 ∧ st1 = st2 ∧ w1 = w2 := by
  have key : ∀ {r : Bytes} {st' : State cfg} {w' : σ}, Serves ops st loc w c r st' w' →
      r.length ≤ r1.length + r2.length →
      exec (ops.env cfg) c loc ⟨st, w, List.replicate (r1.length + r2.length) 0⟩ =
        (.ok r.length, ⟨st', w', r ++ (List.replicate (r1.length + r2.length) 0).drop r.length⟩) :=
    fun h hl => (C57_exact (s := ⟨st, w, List.replicate (r1.length + r2.length) 0⟩) hst hd).2
      ⟨hno, _, _, _, h, by rw [List.length_replicate]; exact hl, rfl, rfl⟩
  have e := (key h1 (by omega)).symm.trans (key h2 (by omega))
  have el := Except.ok.inj (Prod.mk.inj e).1
  have es := (Prod.mk.inj e).2
  exact ⟨(List.append_inj (congrArg Sys.out es) el).1, congrArg Sys.st es, congrArg Sys.w es⟩

/-- C57, the other outcome (see also C10): a command that issues no certificate and whose calls succeed,
but whose reply does not fit into the caller's buffer, fails with InvalidResponseBuf and leaves the buffer
alone; the DPE state is nevertheless the one of the successful command. -/
theorem C57_short (hst : InService s.st) (hno : NoRefusal (rules s.st loc c)) (hm : ¬ c.makesCert)
    {reply : Bytes} {st' : State cfg} {w' : σ} (hs : Serves env.toOps s.st loc s.w c reply st' w')
    (hl : s.out.length < reply.length) :
    exec env c loc s = (.error .invalidResponseBuf, ⟨st', w', s.out⟩) := by
  rw [(served_plain hst hno hm).1 _ _ _ hs, finish, if_neg (Nat.not_le.mpr hl)]

end

/-! ### Concrete cases -/
namespace Toy

/-- Deriving the grandchild is served, with a reply of 12 + 2·16 bytes. -/
example : ∃ reply st' w', Serves ops s3.st 0 s3.p.2 s4cmd reply st' w' ∧ reply.length = 44 := by
  have h : exec env s4cmd 0 s3.sys = (.ok 44, (exec env s4cmd 0 s3.sys).2) := by
    have : (exec env s4cmd 0 s3.sys).1 = .ok 44 := by decide +kernel
    rw [← this]
  obtain ⟨_, reply, st', w', h1, _, h2, _⟩ := (C57_plain s3.reach (by
    show ¬ (Bit fX509 DFlag.exportCdi); decide)).1 h
  exact ⟨reply, st', w', h1, h2.symm⟩

/-- Into a buffer of 43 bytes the same command fails, and yet the grandchild is there. -/
example : ∃ st' w', exec env s4cmd 0 { s3.sys with out := List.replicate 43 7 } =
    (.error .invalidResponseBuf, ⟨st', w', List.replicate 43 7⟩) ∧ st' = s4.st := by
  have h : exec env s4cmd 0 s3.sys = (.ok 44, (exec env s4cmd 0 s3.sys).2) := by
    have : (exec env s4cmd 0 s3.sys).1 = .ok 44 := by decide +kernel
    rw [← this]
  have hm : ¬ s4cmd.makesCert := by show ¬ (Bit fX509 DFlag.exportCdi); decide
  obtain ⟨hno, reply, st', w', h1, _, h2, h3⟩ := (C57_plain s3.reach hm).1 h
  refine ⟨st', w', C57_short s3.reach hno hm (s := { s3.sys with out := List.replicate 43 7 }) h1 ?_, ?_⟩
  · rw [← h2]; decide
  · have e : (exec env s4cmd 0 s3.sys).2.st = s4.st := by unfold s4; rfl
    rw [← e, h3]

/-- Rotating the grandchild's handle to the next one drawn, read off the specification. -/
example : exec env (.rotate ⟨hd 4, 0⟩) 0 s4.sys = (.ok 28, ⟨s4.st.setCtx 2 { s4.st.at 2 with
    handle := hd (s4.p.2 + 1) }, s4.p.2 + 1,
    handlesReply .p256 [hd (s4.p.2 + 1)] ++ s4.sys.out.drop 28⟩) := by
  have hr : Resolves s4.st (hd 4) 0 2 := findActive_iff.1 (by decide +kernel)
  refine (C57_plain (c := .rotate ⟨hd 4, 0⟩) s4.reach id).2 ⟨?_, handlesReply .p256 [hd (s4.p.2 + 1)], _, _,
    ⟨2, hd (s4.p.2 + 1), hr, .inr ⟨(by decide), .hit rfl (by unfold Unused; decide +kernel)⟩,
    setSlot_of (by decide) _, rfl⟩, (by decide +kernel), (by decide +kernel), rfl⟩
  exact C53_success (env := env) (n := 28) (s' := (exec env (.rotate ⟨hd 4, 0⟩) 0 s4.sys).2) s4.reach (by
    have : (exec env (.rotate ⟨hd 4, 0⟩) 0 s4.sys).1 = .ok 28 := by decide +kernel
    rw [← this])

/-- The exporting DeriveContext of the grandchild (C48), which is not retained and has no children, is
served and destroys the grandchild. -/
example : ∃ reply st' w', Serves certOps v4.st 0 v4.p.2 (.derive exportCmd) reply st' w' ∧
    DestroyEffect v4.st 2 st' := by
  obtain ⟨n, s', h⟩ := v4_exported
  obtain ⟨_, reply, st', w', h1, _⟩ := (C57_exact (s := { v4.sys with out := bigBuf }) v4.reach
    fun _ => ⟨decent_cert.fits, decent_cert.serial⟩).1 h
  refine ⟨reply, st', w', h1, ?_⟩
  obtain ⟨i, hr, h1⟩ := h1
  obtain rfl := hr.unique v4_resolves
  rw [if_neg (by decide), if_pos (by decide)] at h1
  obtain ⟨hp, x, w0, u, k, w1, D, w2, t, cdi, _, _, _, _, _, _, _, _, h8, _⟩ := h1
  rcases h8 with ⟨h8 | ⟨j, hj⟩, _⟩ | ⟨_, _, h8⟩
  · exact absurd h8 (by decide)
  · have h5 : (v4.st.at 2).children = 0 := by decide +kernel
    rw [Lists] at hj
    rw [show (v4.sys.st.at 2) = v4.st.at 2 from rfl, h5] at hj
    simp at hj
  · exact h8

end Toy
end Dpe
