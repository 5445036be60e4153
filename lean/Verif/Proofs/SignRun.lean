import Verif.Spec.Sign
import Verif.Proofs.CertRun
/-
Exactly when Sign succeeds, and what it leaves behind.
-/
namespace Dpe
variable {cfg : Cfg} {σ : Type} {env : Env cfg σ} {ops : Ops σ} {loc : U32} {s : Sys cfg σ}

theorem keyContext_eq (p : Profile) : p.keyContext = keyPurpose p := by cases p <;> decide

theorem signBytes_eq (p : Profile) (h : Handle) (sig : Sig) : signBytes p h sig = signReply p h sig := by
  cases sig <;> simp [signBytes, signReply, sigFields, hdrBytes_success]

theorem signData_iff {c : SignCmd} {d : SignData} : c.data = .ok d ↔ ¬ c.TooLong ∧ d = c.message := by
  cases c <;> simp [SignCmd.data, SignCmd.TooLong, SignCmd.message, eq_comm]
  rename_i n b
  split
  · rename_i h
    constructor
    · intro e
      injection e with e
      exact ⟨h, e⟩
    · rintro ⟨_, rfl⟩; rfl
  · rename_i h
    constructor
    · intro e; cases e
    · rintro ⟨h', _⟩; exact absurd h' h

theorem signWith_iff {st : State cfg} {i : Nat} {l : List Nat} (hp : Path st i l) {label : Bytes}
    {data : SignData} {w : σ} {out : Bytes} {sig : Sig} {s' : Sys cfg σ} :
    signWith ops i label data (⟨st, w, out⟩ : Sys cfg σ) = (.ok sig, s') ↔
      ∃ key w1 w2, SigningKey ops st l label w key w1 ∧ ops.sign key data w1 = (.ok sig, w2) ∧
        s' = ⟨st, w2, out⟩ := by
  unfold signWith
  rw [bind_ok_iff]
  constructor
  · rintro ⟨d, s1, h1, h2⟩
    obtain ⟨w1, g1, rfl⟩ := (measured_iff hp).1 h1
    rw [(OkIs.crypto _).then] at h2
    obtain ⟨cdi, w2, h2, h3⟩ := h2
    rw [(OkIs.crypto _).then] at h3
    obtain ⟨key, w3, h3, h4⟩ := h3
    obtain ⟨w4, g4, rfl⟩ := (OkIs.crypto _ _ _ _).1 h4
    rw [keyContext_eq] at h3
    exact ⟨key, w3, w4, ⟨d, cdi, w1, w2, g1, h2, h3⟩, g4, rfl⟩
  · rintro ⟨key, w3, w4, ⟨d, cdi, w1, w2, h1, h2, h3⟩, h4, rfl⟩
    refine ⟨d, _, (measured_iff hp).2 ⟨w1, h1, rfl⟩, ?_⟩
    rw [← keyContext_eq] at h3
    exact (OkIs.crypto _).then.2 ⟨cdi, w2, h2, (OkIs.crypto _).then.2 ⟨key, w3, h3,
      (OkIs.crypto _ _ _ _).2 ⟨w4, h4, rfl⟩⟩⟩

theorem sign_eq {c : SignCmd} {i : Nat} (h1 : ¬ c.TooLong) (h2 : Resolves s.st c.handle loc i)
    (h3 : (s.st.at i).ctype ≠ .simulation) : exec env (.sign c) loc s =
      (signWith env.toOps i c.label c.message >>= fun sig =>
        rollHandle env.toOps (s.st.at i) >>= fun ctx' =>
        M.modify (fun st => st.setCtx i ctx') >>= fun _ =>
        writeAt 0 (signBytes cfg.profile ctx'.handle sig) >>= fun _ =>
        pure (signBytes cfg.profile ctx'.handle sig).length) s := by
  show signCmd env.toOps c loc s = _
  unfold signCmd
  rw [run_lift, signData_iff.2 ⟨h1, rfl⟩]
  simp only
  rw [run_get, run_lift, findActive_iff.2 h2]
  simp only
  rw [run_get_ctx h2, run_failIf, if_neg (by simpa using h3)]

/-- Sign succeeds exactly if no rule refuses it, the key can be derived and used, a handle can be
drawn and the response fits; and then it only changes the handle. -/
theorem sign_iff {c : SignCmd} {n : Nat} {s' : Sys cfg σ} (hst : InService s.st) :
    exec env (.sign c) loc s = (.ok n, s') ↔
    NoRefusal (rules s.st loc (.sign c)) ∧
    ∃ i path key sig w1 w2 hd w3, Resolves s.st c.handle loc i ∧ Path s.st i path ∧
      SigningKey env.toOps s.st path c.label s.w key w1 ∧
      env.sign key c.message w1 = (.ok sig, w2) ∧
      Redrawn env.toOps s.st (s.st.at i).handle w2 hd w3 ∧
      n = (signReply cfg.profile hd sig).length ∧ n ≤ s.out.length ∧
      s' = ⟨s.st.setCtx i { s.st.at i with handle := hd }, w3,
        signReply cfg.profile hd sig ++ s.out.drop n⟩ := by
  have tail : ∀ {i path} (hp : Path s.st i path),
      (signWith env.toOps i c.label c.message >>= fun sig =>
        rollHandle env.toOps (s.st.at i) >>= fun ctx' =>
        M.modify (fun st => st.setCtx i ctx') >>= fun _ =>
        writeAt 0 (signBytes cfg.profile ctx'.handle sig) >>= fun _ =>
        pure (signBytes cfg.profile ctx'.handle sig).length) s = (.ok n, s') ↔
      ∃ key sig w1 w2 hd w3, SigningKey env.toOps s.st path c.label s.w key w1 ∧
      env.sign key c.message w1 = (.ok sig, w2) ∧
      Redrawn env.toOps s.st (s.st.at i).handle w2 hd w3 ∧
      n = (signReply cfg.profile hd sig).length ∧ n ≤ s.out.length ∧
      s' = ⟨s.st.setCtx i { s.st.at i with handle := hd }, w3,
        signReply cfg.profile hd sig ++ s.out.drop n⟩ := by
    intro i path hp
    rw [bind_ok_iff]
    constructor
    · rintro ⟨sig, s1, h1, h2⟩
      obtain ⟨key, w1, w2, g1, h3, rfl⟩ := (signWith_iff hp).1 h1
      rw [bind_ok_iff] at h2
      obtain ⟨ctx', s2, h4, h5⟩ := h2
      obtain ⟨hd, w3, g, rfl, rfl⟩ := roll_iff.1 h4
      rw [run_modify, run_writeAt0] at h5
      split at h5
      · rename_i hle
        cases h5
        rw [signBytes_eq] at hle ⊢
        exact ⟨key, sig, w1, w2, hd, w3, g1, h3, g, rfl, hle, rfl⟩
      · cases h5
    · rintro ⟨key, sig, w1, w2, hd, w3, h1, h3, g, rfl, hle, rfl⟩
      refine ⟨sig, _, (signWith_iff hp).2 ⟨key, w1, w2, h1, h3, rfl⟩, ?_⟩
      rw [bind_ok_iff]
      refine ⟨_, _, roll_iff.2 ⟨hd, w3, g, rfl, rfl⟩, ?_⟩
      rw [run_modify, run_writeAt0, signBytes_eq, if_pos hle]
      rfl
  have rule : ∀ {i}, Resolves s.st c.handle loc i →
      NoRefusal (rules s.st loc (.sign c)) → ¬ c.TooLong ∧ (s.st.at i).ctype ≠ .simulation := by
    intro i hr hno
    simp only [NoRefusal, rules, earlyRules, lateRules, lookupRules, List.cons_append, List.nil_append,
      List.append_nil, List.mem_cons, List.not_mem_nil, or_false, forall_eq_or_imp, forall_eq] at hno
    obtain ⟨q1, _, _, q2⟩ := hno
    rw [named_iff hr] at q2
    exact ⟨q1, q2⟩
  constructor
  · intro h
    have hno := C53_success hst h
    have h' : signCmd env.toOps c loc s = (.ok n, s') := h
    rcases signCmd_inv h' with ⟨⟨e, he⟩, _⟩ | ⟨_, i, _, _, _, _, _, hf, _⟩
    · cases he
    have hr := findActive_iff.1 hf
    obtain ⟨q1, q2⟩ := rule hr hno
    obtain ⟨path, hp, _⟩ := (C01_forest hst).acyclic i hr.1.live
    rw [sign_eq q1 hr q2, tail hp] at h
    obtain ⟨key, sig, w1, w2, hd, w3, g⟩ := h
    exact ⟨hno, i, path, key, sig, w1, w2, hd, w3, hr, hp, g⟩
  · rintro ⟨hno, i, path, key, sig, w1, w2, hd, w3, hr, hp, g⟩
    obtain ⟨q1, q2⟩ := rule hr hno
    rw [sign_eq q1 hr q2, tail hp]
    exact ⟨key, sig, w1, w2, hd, w3, g⟩

/-! ### Fields of responses -/

theorem keyIn_reply {c : CertifyCmd} {p : Profile} {hd : Handle} {key : PubKey} {cert rest : Bytes}
    (h : c.wants key) : keyIn c (certifyReply p hd key cert ++ rest) = keyFields key := by
  have h1 : (successBytes p ++ hd.toList).length = 28 := by
    have : (successBytes p).length = 12 := rfl
    simp [this]
  have h2 := keyFields_length h
  unfold keyIn certifyReply
  rw [List.append_assoc, List.append_assoc, List.append_assoc, ← h1, List.drop_left, ← h2,
    List.take_left]

theorem handleIn_reply {p : Profile} {hd : Handle} {rest : Bytes} :
    handleIn (successBytes p ++ hd.toList ++ rest) = hd.toList := by
  have h1 : (successBytes p).length = 12 := rfl
  have h2 : hd.toList.length = 16 := by simp
  unfold handleIn
  rw [List.append_assoc, ← h1, List.drop_left, List.take_left' h2]

theorem handleIn_certify {p : Profile} {hd : Handle} {key : PubKey} {cert rest : Bytes} :
    handleIn (certifyReply p hd key cert ++ rest) = hd.toList := by
  unfold certifyReply
  rw [List.append_assoc, List.append_assoc, List.append_assoc]
  exact handleIn_reply

theorem sigIn_reply {p : Profile} {hd : Handle} {sig : Sig} {rest : Bytes} :
    sigIn (signReply p hd sig ++ rest) (signReply p hd sig).length = sigFields sig := by
  have h1 : (successBytes p ++ hd.toList).length = 28 := by
    have : (successBytes p).length = 12 := rfl
    simp [this]
  unfold sigIn signReply
  rw [List.take_left, ← h1, List.drop_left]

theorem Format.leaf {f : U32} {kind : CertKind} (h : Format f kind) : kind ≠ .exportedX509 := by
  rcases h with ⟨_, rfl⟩ | ⟨_, rfl⟩ <;> simp

end Dpe
