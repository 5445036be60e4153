import Verif.Proofs.CertErr
import Verif.Props.Rules
import Verif.Props.Limits
/-
C49 and C53 with the modelled certificate generator: why issuing a certificate or request fails, and
the complete list of reasons why an allowed command fails.
-/
namespace Dpe
section
variable {cfg : Cfg} {σ : Type} {ops : Ops σ} {c : Cmd cfg} {loc : U32} {s s' : Sys cfg σ}
  {r : Except Err Nat} {e : Err}

/-- C49: making a certificate or request for an existing context fails only because a crypto or platform
operation failed or delivered something unusable, or because the finished tree does not fit into the
buffer.  No error of the writer's own bookkeeping ever shows. -/
theorem C49_cert {st : State cfg} {kind : CertKind} {a : CertArgs} {w w' : σ} {win win' : Bytes}
    (hst : InService st) (hfit : AlgorithmFits cfg ops) (hser : SerialGiven ops)
    (hres : ∃ i, Resolves st a.handle a.locality i)
    (h : (ops.env cfg).certGen kind a st w win = ((.error e, w'), win')) :
    DraftFault cfg ops kind e ∨ ∃ D w1, Drafted ops kind a st w D w1 ∧
      IssueFails ops a st D win.length kind w1 e :=
  certGen_error hst.wf.links hfit hser hres h

theorem wrongKey_drafted {k : CertifyCmd} (hst : InService s.st) (hf : AlgorithmFits cfg ops)
    (hs : SerialGiven ops) (h : WrongKey (ops.env cfg) s k) :
    ∃ kind a w D w', Drafted ops kind a s.st w D w' ∧ D.key.kind ≠ k.variant := by
  obtain ⟨kind, args, w, win, res, w', win', h3, h4⟩ := h
  obtain ⟨D, w1, t, w2, h5, _, _, _, rfl, _⟩ := (createCert_iff hst.wf.links hf hs
    (s' := (createCert ops kind args ⟨s.st, w, win⟩).2)).1 (by
      have h3 : (((createCert ops kind args ⟨s.st, w, win⟩).1, (createCert ops kind args ⟨s.st, w, win⟩).2.w),
        (createCert ops kind args ⟨s.st, w, win⟩).2.out) = ((.ok res, w'), win') := h3
      rw [← (Prod.mk.inj (Prod.mk.inj h3).1).1])
  exact ⟨kind, args, w, D, w1, h5, h4⟩

theorem env_fault (hst : InService s.st)
    (hd : c.makesCert → AlgorithmFits cfg ops ∧ SerialGiven ops)
    (h : EnvFault (ops.env cfg) s c e) : Fault ops s c e := by
  cases h with
  | crypto h => exact .crypto h
  | platform h => exact .platform h
  | stuck h1 h2 => exact .stuck h1 h2
  | digest h1 h2 h3 => exact .digest h1 h2 h3
  | chunk h1 h2 h3 => exact .chunk h1 h2 h3
  | endless h1 h2 => exact .endless h1 h2
  | ueid h1 h2 h3 h4 => exact .ueid h1 h2 h3 h4
  | @cert kind args w w' win' _ h1 h2 h3 =>
    obtain ⟨hf, hs⟩ := hd (Cmd.issues_makes h1)
    refine .cert ⟨kind, h1, (C49_cert hst hf hs h2 h3).imp id ?_⟩
    rintro ⟨D, w1, h4, h5⟩
    rw [List.length_drop] at h5
    exact ⟨args, w, D, w1, h4, h5⟩
  | buffer h =>
    rcases h with h | ⟨_, kind, args, w, base, h⟩
    · exact .buffer h
    · exfalso
      rcases hg : (ops.env cfg).certGen kind args s.st w (s.out.drop base) with ⟨x, win'⟩
      have := env_keeps cfg ops kind args s.st w (s.out.drop base) x win' hg
      rw [hg] at h
      simp only at h
      omega
  | wrongKey h1 h2 =>
    subst h1
    obtain ⟨hf, hs⟩ := hd trivial
    obtain ⟨_, _, _, _, _, h5, h4⟩ := wrongKey_drafted hst hf hs h2
    exact .wrongKey rfl h5 h4

/-- C53: a command to which no refusal rule applies succeeds, unless it meets one of the listed faults of
the crypto implementation, the platform or the buffer. -/
theorem C53_faults (hst : InService s.st) (hd : c.makesCert → AlgorithmFits cfg ops ∧ SerialGiven ops)
    (hn : NoRefusal (rules s.st loc c)) (h : exec (ops.env cfg) c loc s = (r, s')) :
    (∃ n, r = .ok n) ∨ ∃ e, r = .error e ∧ Fault ops s c e := by
  rcases C53_allowed hst hn h with h | ⟨e, h1, h2⟩
  · exact .inl h
  · exact .inr ⟨e, h1, env_fault hst hd h2⟩

theorem fault_cause (hst : InService s.st) (hd : c.makesCert → AlgorithmFits cfg ops ∧ SerialGiven ops)
    (h : exec (ops.env cfg) c loc s = (.error e, s')) :
    e.isRefusal ∨ (c.draws ∧ DrawFault ops s.st e) ∨ Fault ops s c e := by
  rcases error_cause hst h with h | h | h
  · exact .inl h
  · exact .inr (.inl h)
  · exact .inr (.inr (env_fault hst hd h))

/-- C49: the complete list of internal errors, with their causes.  None of them is the fault of the DPE
state: no slot index out of range, no missing handle, no bad serial number, no broken list. -/
theorem C49_internal_all {ie : Internal} (hst : InService s.st)
    (hd : c.makesCert → AlgorithmFits cfg ops ∧ SerialGiven ops)
    (h : exec (ops.env cfg) c loc s = (.error (.internal ie), s')) :
    (ie = .handleGenerationExhausted ∧ c.draws ∧ RngStuck ops s.st) ∨
    (ie = .digestLengthMismatch ∧ c.measures ∧
      ∃ w d w', ops.hashFinish w = (.ok d, w') ∧ d.length ≠ cfg.tciSize) ∨
    (ie = .certChainChunkSliceOob ∧ (c.signs ∨ c.makesCert) ∧
      ∃ off len ch w w', ops.certChain off 2048 w = (.ok (len, ch), w') ∧ 2048 < len.toNat) ∨
    (c.makesCert ∧
      ((ie = .keyIdHashTooSmall ∧ ∃ w d w', ops.hashFinish w = (.ok d, w') ∧ d.length < 20) ∨
      (ie = .issuerNameTooLong ∧ ∃ w n b w', ops.issuerName w = (.ok (n, b), w') ∧ 128 < n) ∨
      (ie = .certSizeOverflow ∧ ∃ t : Asn,
        (s.out.length - c.replyMax < t.written.length ∨ 65539 < t.written.length)))) := by
  have over : ∀ {room : Nat} {t : Asn}, Overflows room t (.internal ie) →
      ie = .certSizeOverflow ∧ (room < t.written.length ∨ 65539 < t.written.length) := by
    rintro room t (⟨h, h'⟩ | ⟨h, _⟩)
    · cases h; exact ⟨rfl, h'⟩
    · cases h
  rcases fault_cause hst hd h with h1 | ⟨h0, ⟨h1, h2⟩ | ⟨_, _, h1, _⟩⟩ | h1
  · exact h1.elim
  · cases h1; exact .inl ⟨rfl, h0, h2⟩
  · cases h1
  · generalize he : (Err.internal ie) = e at h1
    cases h1 with
    | stuck h1 h2 => cases he; exact .inl ⟨rfl, h1, h2⟩
    | digest h1 h2 h3 => cases he; exact .inr (.inl ⟨rfl, h1, _, _, _, h2, h3⟩)
    | chunk h1 h2 h3 => cases he; exact .inr (.inr (.inl ⟨rfl, .inl h1, _, _, _, _, _, h2, h3⟩))
    | cert h2 =>
      obtain ⟨kind, hk, h2⟩ := h2
      have hm := Cmd.issues_makes hk
      rcases h2 with h2 | ⟨a, w, D, w1, h3, h2⟩
      · cases h2 with
        | short h3 h4 => cases he; exact .inr (.inr (.inr ⟨hm, .inl ⟨rfl, _, _, _, h3, h4⟩⟩))
        | chunk h3 h4 => cases he; exact .inr (.inr (.inl ⟨rfl, .inr hm, _, _, _, _, _, h3, h4⟩))
        | crypto => cases he
        | platform => cases he
        | size => cases he
        | kind => cases he
        | endless => cases he
      · have hov : ∀ {t : Asn}, Overflows (s.out.length - c.replyMax) t e → _ := fun {t} h4 =>
          (show ie = .certSizeOverflow ∧ ∃ t : Asn, (s.out.length - c.replyMax < t.written.length ∨
            65539 < t.written.length) from ⟨(over (he ▸ h4)).1, t, (over (he ▸ h4)).2⟩)
        refine .inr (.inr (.inr ⟨hm, ?_⟩))
        let sg : Sig := .mldsa (Vector.replicate _ 0)
        cases h2 with
        | issuer => cases he
        | longIssuer _ h4 h5 => cases he; exact .inr (.inl ⟨rfl, _, _, _, _, h4, h5⟩)
        | tbs _ _ h4 => exact .inr (.inr (hov (h4 sg)))
        | signTbs => cases he
        | certificate _ _ _ h4 => exact .inr (.inr (hov h4))
        | info h4 => exact .inr (.inr (hov (h4 sg sg)))
        | cdi => cases he
        | key => cases he
        | signInfo => cases he
        | request _ _ _ h4 => exact .inr (.inr (hov (h4 sg)))
        | signRequest => cases he
        | message _ _ _ _ h4 => exact .inr (.inr (hov h4))
    | crypto => cases he
    | platform => cases he
    | endless => cases he
    | ueid => cases he
    | buffer => cases he
    | wrongKey => cases he

/-- C49: no command panics or runs forever, unless the platform keeps serving certificate chain chunks to
a command that reads the chain. -/
theorem C49_no_panic_all (hst : InService s.st)
    (hd : c.makesCert → AlgorithmFits cfg ops ∧ SerialGiven ops)
    (h : exec (ops.env cfg) c loc s = (.error .panic, s')) :
    (c.signs ∨ c.makesCert) ∧ ∃ w, ChainGoes ops cfg.diceFuel 0 w := by
  rcases fault_cause hst hd h with h1 | ⟨h0, ⟨h1, h2⟩ | ⟨_, _, h1, _⟩⟩ | h1
  · exact h1.elim
  · cases h1
  · cases h1
  · generalize he : Err.panic = e at h1
    cases h1 with
    | endless h1 h2 => exact ⟨.inl h1, _, h2⟩
    | cert h2 =>
      obtain ⟨kind, hk, h2⟩ := h2
      have hm := Cmd.issues_makes hk
      rcases h2 with h2 | ⟨a, w, D, w1, h3, h2⟩
      · cases h2 with
        | endless h3 => exact ⟨.inr hm, _, h3⟩
        | _ => cases he
      · exfalso
        have hov : ∀ {t : Asn}, ¬ Overflows (s.out.length - c.replyMax) t e := by
          rintro t (⟨h4, _⟩ | ⟨h4, _⟩) <;> (rw [← he] at h4; cases h4)
        let sg : Sig := .mldsa (Vector.replicate _ 0)
        cases h2 with
        | tbs _ _ h4 => exact hov (h4 sg)
        | certificate _ _ _ h4 => exact hov h4
        | info h4 => exact hov (h4 sg sg)
        | request _ _ _ h4 => exact hov (h4 sg)
        | message _ _ _ _ h4 => exact hov h4
        | _ => cases he
    | _ => cases he

end
/-- Non-vacuity for C53_faults, C49_cert and C49_internal_all: a permitted request fails for want of
room, when the buffer holds the fixed part of the reply but not the signed request. -/
example : NoRefusal (rules Toy.root1 0 (.certify Toy.requestCmd1)) ∧
    ∃ s', exec ((Toy.ops1 Toy.shortSigner).env Toy.cfg1) (.certify Toy.requestCmd1) 0
      ⟨Toy.root1, 0, List.replicate 300 0⟩ = (.error (.internal .certSizeOverflow), s') :=
  ⟨Toy.allowed1, _, Prod.ext (by decide +kernel) rfl⟩

/-- Such a failure is a listed fault: no message of this draft fits into the remaining 204 bytes. -/
example (out : Bytes) (ho : out.length = 300) : Fault (Toy.ops1 Toy.shortSigner) ⟨Toy.root1, 0, out⟩
    (.certify Toy.requestCmd1) (.internal .certSizeOverflow) := by
  refine .cert ⟨.leafCsr, .inr ⟨rfl, rfl⟩, .inr ⟨_, 0, _, 0, Toy.drafted1 _ 0, ?_⟩⟩
  refine .message (cdi := ()) (key := ()) (sig := Toy.keySig) (sig' := Toy.aliasSig) (w1 := 0) (w2 := 0)
    (w3 := 0) (w' := 0) rfl rfl rfl rfl (.inl ⟨rfl, .inl ?_⟩)
  have h : 204 < (Toy.tree1 Toy.shortSigner).written.length := by decide +kernel
  refine Nat.lt_of_le_of_lt (m := 204) ?_ h
  show out.length - 96 ≤ 204
  omega

/-- Non-vacuity for C49_no_panic_all: a certificate that hashes the platform's certificate chain, which
never ends. -/
example : (exec (({ Toy.certOps with
      certChain := fun _ _ n => (.ok (0, Vector.replicate 2048 0), n) } : Ops Nat).env Toy.cfg)
    (.certify (.p256 (Toy.hd 3) 0 1 (Vector.replicate _ 0))) 0
    (Toy.s2.step (.derive ⟨Toy.hd 1, Toy.data 1 2, Toy.fRetain ||| 0x40000000, 5, 0, 9⟩) 0).sys).1
      = .error .panic := by
  decide +kernel

end Dpe
