import Verif.Spec.Outcome
import Verif.Proofs.Crates
/-
The failures of the reference device.
-/
namespace Dpe
section
variable {cfg : Cfg} {σ : Type} {P : Prims} {a : Artifact} {st : State cfg} {loc : U32} {out : Bytes}

theorem run_err {α β : Type} {x : M cfg σ α} {f : α → M cfg σ β} {s s1 : Sys cfg σ} {e : Err}
    (h : x s = (.error e, s1)) : (x >>= f) s = (.error e, s1) := by rw [run_bind, h]

/-! ### Drawing handles -/

theorem lands_or_misses (n : Nat) : ∀ r : P.Rng, (∃ h r', Lands P st n r h r') ∨ ∃ r', Misses P st n r r' := by
  induction n with
  | zero => exact fun r => .inr ⟨r, .done⟩
  | succ n ih =>
    intro r
    by_cases hu : Unused st (P.fill16 r).1
    · exact .inl ⟨_, _, .hit hu⟩
    · rcases ih (P.fill16 r).2 with ⟨h, r', hl⟩ | ⟨r', hm⟩
      · exact .inl ⟨h, r', .miss hu hl⟩
      · exact .inr ⟨r', .miss hu hm⟩

theorem draw_misses {n : Nat} : ∀ {w : Soft P × Unit} {r : P.Rng}, Misses P st n w.1.rng r →
    genHandleLoop (deviceOps P a) n (⟨st, w, out⟩ : Sys cfg _) =
      (.error exhausted, ⟨st, ({ w.1 with rng := r }, ()), out⟩) := by
  induction n with
  | zero =>
    intro w r h
    cases h
    rfl
  | succ n ih =>
    intro w r h
    cases h with
    | miss hu hm =>
      unfold genHandleLoop
      have hr : M.crypto (cfg := cfg) (deviceOps P a).rand ⟨st, w, out⟩ =
        (.ok (P.fill16 w.1.rng).1, ⟨st, ({ w.1 with rng := (P.fill16 w.1.rng).2 }, w.2), out⟩) := rfl
      rw [run_ok hr, run_get, if_neg (fun h => hu (unused_iff.1 h))]
      exact ih (w := ({ w.1 with rng := (P.fill16 w.1.rng).2 }, w.2)) hm

theorem roll_stuck {c : Context cfg} {w : Soft P × Unit} {r : P.Rng} (hd : c.handle ≠ Handle.default)
    (hm : Misses P st 8 w.1.rng r) : rollHandle (deviceOps P a) c (⟨st, w, out⟩ : Sys cfg _) =
      (.error exhausted, ⟨st, ({ w.1 with rng := r }, ()), out⟩) := by
  unfold rollHandle
  rw [if_neg (fun h => hd (isDefault_iff.1 h)), generateNewHandle]
  exact run_err (draw_misses hm)

theorem pick_stuck {b : Bool} {w : Soft P × Unit} {r : P.Rng} (hb : ¬ b = true)
    (hm : Misses P st 8 w.1.rng r) : pickHandle (deviceOps P a) b (⟨st, w, out⟩ : Sys cfg _) =
      (.error exhausted, ⟨st, ({ w.1 with rng := r }, ()), out⟩) := by
  unfold pickHandle
  rw [if_neg hb]
  exact draw_misses hm

theorem parent_stuck {c : DeriveCmd cfg} {i : Nat} {w : Soft P × Unit} {r : P.Rng}
    (hr : Bit c.flags DFlag.retainParent) (hs : StdStuck P st i w.1.rng r) :
    deriveParent (deviceOps P a) c (st.at i) (⟨st, w, out⟩ : Sys cfg _) =
      (.error exhausted, ⟨st, ({ w.1 with rng := r }, ()), out⟩) := by
  unfold deriveParent
  rw [if_pos (show c.retain = true from hr), if_pos (by rw [Bool.not_eq_true', isDefault_false]; exact hs.1),
    generateNewHandle]
  exact run_err (draw_misses hs.2)

theorem stuck_or_chosen (i : Nat) (r : P.Rng) :
    (∃ r', StdStuck P st i r r') ∨ ∃ h r', StdChosen P st ((st.at i).handle = Handle.default) r h r' := by
  by_cases hd : (st.at i).handle = Handle.default
  · exact .inr ⟨_, _, .inl ⟨hd, rfl, rfl⟩⟩
  · rcases lands_or_misses (st := st) 8 r with ⟨h, r', hl⟩ | ⟨r', hm⟩
    · exact .inr ⟨h, r', .inr ⟨hd, hl⟩⟩
    · exact .inl ⟨r', hd, hm⟩

theorem parent_or_stuck (c : DeriveCmd cfg) (i : Nat) (r : P.Rng) :
    (∃ r', Bit c.flags DFlag.retainParent ∧ StdStuck P st i r r') ∨ ∃ hp s r', StdParent P st c i r hp s r' := by
  by_cases hb : Bit c.flags DFlag.retainParent
  · rcases stuck_or_chosen (st := st) i r with ⟨r', h⟩ | ⟨h, r', hc⟩
    · exact .inl ⟨r', hb, h⟩
    · exact .inr ⟨h, _, r', .inl ⟨hb, rfl, hc⟩⟩
  · exact .inr ⟨_, _, _, .inr ⟨hb, rfl, rfl, rfl⟩⟩

/-! ### Keys -/

section
variable {L : Lib} {p : Profile}

theorem std_kdf_total (hL : L.Total) (p : Profile) (salt secret info : Bytes) : ∃ out, StdKdf L p salt secret info out := by
  cases p
  · obtain ⟨x, h⟩ := hL.expand .sha256 (L.extract .sha256 salt secret) info 32 (by decide)
    exact ⟨_, x, h, rfl⟩
  · obtain ⟨x, h⟩ := hL.expand .sha384 (L.extract .sha384 salt secret) info 48 (by decide)
    exact ⟨_, x, h, rfl⟩
  · obtain ⟨x, h⟩ := hL.expand .sha256 (L.extract .sha256 salt secret) info 32 (by decide)
    exact ⟨_, x, h, rfl⟩

theorem leafKey_total (hL : L.Total) (a : Artifact) (st : State cfg) (path : List Nat) (label : Bytes) :
    ∃ cdi priv, StdLeafKey L a st path label cdi priv := by
  obtain ⟨cdi, h1⟩ := std_kdf_total hL cfg.profile (ascii "DPE") (stdHash L cfg.profile (measuredBytes a st path))
    (stdHash L cfg.profile (measuredBytes a st path))
  obtain ⟨priv, h2⟩ := std_kdf_total hL cfg.profile (keyPurpose cfg.profile) cdi label
  exact ⟨cdi, priv, _, rfl, h1, h2⟩

theorem exportedKey_total (hL : L.Total) (a : Artifact) (st : State cfg) (path : List Nat) :
    ∃ cdi priv, StdExportedKey L a st path cdi priv := by
  obtain ⟨cdi, h1⟩ := std_kdf_total hL cfg.profile (ascii "Exported CDI")
    (stdHash L cfg.profile (measuredBytes a st path)) (stdHash L cfg.profile (measuredBytes a st path))
  obtain ⟨priv, h2⟩ := std_kdf_total hL cfg.profile (exportPurpose cfg.profile) cdi (exportPurpose cfg.profile)
  exact ⟨cdi, priv, _, rfl, h1, h2⟩

/-- An ML-DSA key is always valid. -/
theorem kdf_valid87 {salt secret info priv : Bytes} (h : StdKdf L .mldsa87 salt secret info priv) :
    ¬ StdInvalid L .mldsa87 priv := by
  obtain ⟨v, _, rfl⟩ := h
  exact fun h => h ⟨_, v, rfl, rfl⟩

theorem invalid_ecdsa {salt secret info priv : Bytes} (h : StdKdf L p salt secret info priv)
    (hi : StdInvalid L p priv) : p ≠ .mldsa87 := by
  rintro rfl
  exact kdf_valid87 h hi

/-- An invalid key is reported by its first use. -/
theorem invalid_pub {salt secret info priv : Bytes} (h : StdKdf L p salt secret info priv)
    (hi : StdInvalid L p priv) : (L.crypto p).pub priv = .error (.cryptoLibError 1) := by
  cases p
  · show L.publicKey .p256 priv = _
    unfold Lib.publicKey
    cases hk : L.key256 priv with
    | none => rfl
    | some k => exact absurd ⟨_, k, hk, rfl⟩ hi
  · show L.publicKey .p384 priv = _
    unfold Lib.publicKey
    cases hk : L.key384 priv with
    | none => rfl
    | some k => exact absurd ⟨_, k, hk, rfl⟩ hi
  · exact absurd hi (kdf_valid87 h)

theorem invalid_prehash256 {priv d : Bytes} (hi : StdInvalid L .p256 priv) :
    L.signPrehash .p256 priv d = .error (.cryptoLibError 1) := by
  unfold Lib.signPrehash
  cases hk : L.key256 priv with
  | none => rfl
  | some k => exact absurd ⟨_, k, hk, rfl⟩ hi

theorem invalid_prehash384 {priv d : Bytes} (hi : StdInvalid L .p384 priv) :
    L.signPrehash .p384 priv d = .error (.cryptoLibError 1) := by
  unfold Lib.signPrehash
  cases hk : L.key384 priv with
  | none => rfl
  | some k => exact absurd ⟨_, k, hk, rfl⟩ hi

theorem invalid_mu256 {priv : Bytes} {d : BArr 64} (hi : StdInvalid L .p256 priv) :
    L.signMu .p256 priv d = .error (.cryptoLibError 1) := by
  unfold Lib.signMu
  cases hk : L.key256 priv with
  | none => rfl
  | some k => exact absurd ⟨_, k, hk, rfl⟩ hi

theorem invalid_mu384 {priv : Bytes} {d : BArr 64} (hi : StdInvalid L .p384 priv) :
    L.signMu .p384 priv d = .error (.cryptoLibError 1) := by
  unfold Lib.signMu
  cases hk : L.key384 priv with
  | none => rfl
  | some k => exact absurd ⟨_, k, hk, rfl⟩ hi

theorem invalid_sign {salt secret info priv : Bytes} (h : StdKdf L p salt secret info priv)
    (hi : StdInvalid L p priv) {c : SignCmd} :
    signData (L.crypto p) priv c.message = .error (.cryptoLibError 1) := by
  cases p
  · cases c with
    | p256 => exact invalid_prehash256 hi
    | p384 => exact invalid_prehash256 hi
    | mldsa87 _ _ _ d => exact invalid_mu256 (d := d) hi
    | mldsa87Raw => exact invalid_prehash256 hi
  · cases c with
    | p256 => exact invalid_prehash384 hi
    | p384 => exact invalid_prehash384 hi
    | mldsa87 _ _ _ d => exact invalid_mu384 (d := d) hi
    | mldsa87Raw => exact invalid_prehash384 hi
  · exact absurd hi (kdf_valid87 h)

theorem unsuited_mu256 {priv : Bytes} {d : BArr 64} (hv : ¬ StdInvalid L .p256 priv) :
    L.signMu .p256 priv d = .error .mismatchedAlgorithm := by
  obtain ⟨_, k, hk, _⟩ := not_not.1 hv
  unfold Lib.signMu
  simp only [hk]

theorem unsuited_mu384 {priv : Bytes} {d : BArr 64} (hv : ¬ StdInvalid L .p384 priv) :
    L.signMu .p384 priv d = .error .mismatchedAlgorithm := by
  obtain ⟨_, k, hk, _⟩ := not_not.1 hv
  unfold Lib.signMu
  simp only [hk]

theorem unsuited_prehash87 {priv d : Bytes} (hv : ¬ StdInvalid L .mldsa87 priv) :
    L.signPrehash .mldsa87 priv d = .error .mismatchedAlgorithm := by
  obtain ⟨_, k, rfl, _⟩ := not_not.1 hv
  obtain ⟨x, hx⟩ := seed87_some (k := k.toList) (by simp)
  unfold Lib.signPrehash
  simp only [hx]

theorem unsuited_sign {priv : Bytes} {c : SignCmd} (hv : ¬ StdInvalid L p priv) (hs : ¬ c.Suits p) :
    signData (L.crypto p) priv c.message = .error .mismatchedAlgorithm := by
  cases c with
  | p256 _ _ _ d =>
    cases p with
    | p256 => exact absurd (fun e => by cases e) hs
    | p384 => exact absurd (fun e => by cases e) hs
    | mldsa87 => exact unsuited_prehash87 (d := d.toList) hv
  | p384 _ _ _ d =>
    cases p with
    | p256 => exact absurd (fun e => by cases e) hs
    | p384 => exact absurd (fun e => by cases e) hs
    | mldsa87 => exact unsuited_prehash87 (d := d.toList) hv
  | mldsa87 _ _ _ d =>
    cases p with
    | p256 => exact unsuited_mu256 (d := d) hv
    | p384 => exact unsuited_mu384 (d := d) hv
    | mldsa87 => exact absurd rfl hs
  | mldsa87Raw => exact absurd trivial hs

end
end

section
variable {cfg : Cfg} {σ : Type} {L : Lib} {a : Artifact} {st : State cfg} {loc : U32} {out : Bytes}
  {w : Soft (L.crypto cfg.profile)} {f : Failure cfg (L.crypto cfg.profile)}

/-- The command fails as `f` says. -/
def FailsAs (L : Lib) (a : Artifact) (st : State cfg) (loc : U32) (w : Soft (L.crypto cfg.profile)) (out : Bytes)
    (c : Cmd cfg) (f : Failure cfg (L.crypto cfg.profile)) : Prop :=
  exec ((deviceOps (L.crypto cfg.profile) a).env cfg) c loc ⟨st, (w, ()), out⟩ =
    (.error f.error, ⟨f.state, (f.crypto, ()), f.buffer⟩)

theorem fails_chain (ha : a.Fit) {c : ChainCmd} (hno : NoRefusal (rules st loc (.chain c)))
    (h : StdFails L a st loc w out (.chain c) f) : FailsAs L a st loc w out (.chain c) f := by
  obtain ⟨h, rfl⟩ := h
  unfold FailsAs
  rw [chain_eq (s := ⟨st, (w, ()), out⟩) hno]
  refine run_err ?_
  have := default_outside ha (size := c.size) h
  unfold M.platform
  have e : ((deviceOps (L.crypto cfg.profile) a).env cfg).certChain c.offset c.size (w, ()) =
      (.error .certificateChainError, (w, ())) := Prod.ext this rfl
  simp only [e]

theorem fails_init {g : U32} (hno : NoRefusal (rules st loc (.init g)))
    (h : StdFails L a st loc w out (.init g) f) : FailsAs L a st loc w out (.init g) f := by
  obtain ⟨r, hd, hm, rfl⟩ := h
  obtain ⟨i, hi⟩ := init_free (s := ⟨st, (w, ()), out⟩) hno
  unfold FailsAs
  rw [init_eq (s := ⟨st, (w, ()), out⟩) hno hi]
  refine run_err ?_
  unfold initHandle
  rw [if_neg (show ¬ initDefaultFlag g = true from hd)]
  exact draw_misses (w := (w, ())) hm

theorem fails_rotate {c : RotateCmd} (hno : NoRefusal (rules st loc (.rotate c)))
    (h : StdFails L a st loc w out (.rotate c) f) : FailsAs L a st loc w out (.rotate c) f := by
  obtain ⟨r, hd, hm, rfl⟩ := h
  obtain ⟨i, hi⟩ := rotate_resolves (s := ⟨st, (w, ()), out⟩) hno
  unfold FailsAs
  rw [rotate_eq (s := ⟨st, (w, ()), out⟩) hno hi]
  exact run_err (pick_stuck (w := (w, ())) hd hm)

theorem fails_update (hst : InService st) (hb : Built cfg a) (hL : L.Total) {c : UpdateCmd cfg}
    (hno : NoRefusal (rules st loc (.update c)))
    (h : StdFails L a st loc w out (.update c) f) : FailsAs L a st loc w out (.update c) f := by
  have hP := hL.sound cfg.profile
  obtain ⟨i, k, hr, hk, h⟩ := h
  obtain ⟨i', k', hr', _, hnd⟩ := update_named (s := ⟨st, (w, ()), out⟩) hno
  obtain rfl := hr'.unique hr
  obtain ⟨v, h1⟩ := extends_ok (plat := defaultPlatform a) hb hP (st.at k).tci.cumulative c.data (w, ())
  unfold FailsAs
  rw [update_eq (s := ⟨st, (w, ()), out⟩) hno hr hk]
  refine (run_ok ((extend_iff hk.2.1 rfl).2 ⟨v, _, h1, rfl, rfl⟩)).trans ?_
  rcases h with ⟨r, hm, rfl⟩ | ⟨hd, r, st1, r', hl, hs, hd2, hm, rfl⟩
  · exact run_err (roll_stuck (w := ({ w with hasher := none }, ())) hnd hm)
  · obtain rfl := hs.eq hr.lt
    refine (run_ok (roll_iff.2 ⟨hd, _, .inr ⟨hnd, lands_iff.2 ⟨r, hl, rfl⟩⟩, rfl, rfl⟩)).trans ?_
    rw [run_modify]
    exact run_err (roll_stuck (w := ({ w with hasher := none, rng := r }, ())) (c := { st.at k with
        tci := { (st.at k).tci with cumulative := v, current := c.data } }) hd2 hm)

theorem fails_sign (hst : InService st) (ha : a.Fit) (hb : Built cfg a) (hL : L.Total) {c : SignCmd}
    (hno : NoRefusal (rules st loc (.sign c)))
    (h : StdFails L a st loc w out (.sign c) f) : FailsAs L a st loc w out (.sign c) f := by
  have hP := hL.sound cfg.profile
  obtain ⟨i, path, cdi, priv, hr, hp, hl, h⟩ := h
  simp only [NoRefusal, rules, earlyRules, lateRules, lookupRules, List.cons_append, List.nil_append,
    List.append_nil, List.mem_cons, List.not_mem_nil, or_false, forall_eq_or_imp, forall_eq] at hno
  obtain ⟨q1, _, _, q4⟩ := hno
  rw [named_iff hr] at q4
  have hkey := (device_signingKey (w := (w, ())) (k := ()) ha hb hP).2 ⟨cdi, priv, std_leafKey.2 hl, rfl⟩
  have hl' := std_leafKey.2 hl
  obtain ⟨_, _, _, hkdf⟩ := hl
  unfold FailsAs
  rw [sign_eq (s := ⟨st, (w, ()), out⟩) q1 hr q4]
  have hsign : ∀ e, signData (L.crypto cfg.profile) priv c.message = .error e →
      signWith ((deviceOps (L.crypto cfg.profile) a).env cfg).toOps i c.label c.message
        (⟨st, (w, ()), out⟩ : Sys cfg _) =
      (.error (.crypto e), ⟨st, ({ w with hasher := none, cdi := cdi, priv := priv }, ()), out⟩) := by
    intro e he
    unfold signWith
    have h1 := (measured_iff (out := out) hp).2
      ⟨_, (device_measured (w := (w, ())) ha hb hP).2 ⟨rfl, rfl⟩, rfl⟩
    have h2 : M.crypto (cfg := cfg) ((deviceOps (L.crypto cfg.profile) a).deriveCdi
        ((L.crypto cfg.profile).hash (measuredBytes a st path)) (ascii "DPE"))
        ⟨st, ({ w with hasher := none }, ()), out⟩ =
        (.ok (), ⟨st, ({ w with hasher := none, cdi := cdi }, ()), out⟩) :=
      (OkIs.crypto _ _ _ _).2 ⟨_, soft_cdi.2 ⟨cdi, hl'.cdiIs, rfl⟩, rfl⟩
    have h3 : M.crypto (cfg := cfg) ((deviceOps (L.crypto cfg.profile) a).deriveKeyPair () c.label
        cfg.profile.keyContext)
        ⟨st, ({ w with hasher := none, cdi := cdi }, ()), out⟩ =
        (.ok (), ⟨st, ({ w with hasher := none, cdi := cdi, priv := priv }, ()), out⟩) :=
      (OkIs.crypto _ _ _ _).2 ⟨_, soft_pair.2 ⟨priv, keyContext_eq cfg.profile ▸ hl'.privIs, rfl⟩, rfl⟩
    refine (run_ok h1).trans ((run_ok h2).trans ((run_ok h3).trans ?_))
    have h4 : (deviceOps (L.crypto cfg.profile) a).sign () c.message
        ({ w with hasher := none, cdi := cdi, priv := priv }, ()) =
        (.error e, ({ w with hasher := none, cdi := cdi, priv := priv }, ())) := Prod.ext he rfl
    show M.crypto (cfg := cfg) ((deviceOps (L.crypto cfg.profile) a).sign () c.message) _ = _
    simp only [M.crypto, h4]
  rcases h with ⟨hi, rfl⟩ | ⟨hi, hs, rfl⟩ | ⟨hs, hi, r, hst', rfl⟩
  · exact run_err (hsign _ (invalid_sign hkdf hi))
  · exact run_err (hsign _ (unsuited_sign hi hs))
  · obtain ⟨pk, hpk⟩ := not_not.1 hi
    obtain ⟨sig, h2⟩ := (device_message (c := c) hP).2 ⟨⟨pk, std_public.2 hpk⟩, hs⟩
    refine (run_ok ((signWith_iff (sig := sig) hp).2 ⟨(), _, _, hkey, device_sign.2 ⟨h2, rfl⟩, rfl⟩)).trans ?_
    exact run_err (roll_stuck (w := ({ w with hasher := none, cdi := cdi, priv := priv }, ())) hst'.1 hst'.2)

/-! ### Certificates -/

theorem createCert_err {ops : Ops σ} {kind : CertKind} {args : CertArgs} {i : Nat} {path : List Nat} {d : Bytes}
    {x x1 : σ} {win : Bytes} {e : Err} {s1 : Sys cfg σ} (hr : Resolves st args.handle args.locality i)
    (hp : Path st i path) (hm : Measured ops st path x d x1)
    (hk : certKey ops kind.exported args d ⟨st, x1, win⟩ = (.error e, s1)) :
    createCert ops kind args ⟨st, x, win⟩ = (.error e, s1) := by
  unfold createCert
  rw [run_get, run_lift, findActive_iff.2 hr]
  simp only
  rw [run_ok ((measured_iff hp).2 ⟨x1, hm, rfl⟩)]
  exact run_err hk

theorem runCert_err {ops : Ops σ} {kind : CertKind} {args : CertArgs} {base : Nat}
    {x x1 : σ} {e : Err} (h : createCert ops kind args ⟨st, x, out.drop base⟩ = (.error e, ⟨st, x1, out.drop base⟩)) :
    runCert (ops.env cfg) kind args base ⟨st, x, out⟩ = (.error e, ⟨st, x1, out⟩) := by
  unfold runCert Ops.env
  simp only [h, List.take_append_drop]

theorem crypto_err {α : Type} {f : σ → Except CryptoErr α × σ} {s : Sys cfg σ} {e : CryptoErr} {x' : σ}
    (h : f s.w = (.error e, x')) : M.crypto f s = (.error (.crypto e), ⟨s.st, x', s.out⟩) := by
  unfold M.crypto
  simp only [h]

theorem crypto_ok {α : Type} {f : σ → Except CryptoErr α × σ} {s : Sys cfg σ} {v : α} {x' : σ}
    (h : f s.w = (.ok v, x')) : M.crypto f s = (.ok v, ⟨s.st, x', s.out⟩) := by
  unfold M.crypto
  simp only [h]

theorem leaf_bad (ha : a.Fit) (hb : Built cfg a) (hL : L.Total) {kind : CertKind} (hk : kind ≠ .exportedX509)
    {h : Handle} {label cdi priv : Bytes} {i : Nat} {path : List Nat} (hr : Resolves st h loc i)
    (hp : Path st i path) (hl : StdLeafKey L a st path label cdi priv) (hi : StdInvalid L cfg.profile priv)
    (base : Nat) : runCert ((deviceOps (L.crypto cfg.profile) a).env cfg) kind (leafArgs st h loc label) base
      ⟨st, (w, ()), out⟩ = (.error badKey, ⟨st, ({ w with hasher := none, cdi := cdi, priv := priv }, ()), out⟩) := by
  have hP := hL.sound cfg.profile
  have hl' := std_leafKey.2 hl
  obtain ⟨_, _, _, hkdf⟩ := hl
  refine runCert_err (createCert_err hr hp ((device_measured (w := (w, ())) ha hb hP).2 ⟨rfl, rfl⟩) ?_)
  unfold certKey
  rw [if_neg (by cases kind <;> first | (exact absurd rfl hk) | decide)]
  refine (run_ok (crypto_ok (v := ()) (soft_cdi.2 ⟨cdi, hl'.cdiIs, rfl⟩))).trans ?_
  refine (run_ok (crypto_ok (v := ()) (soft_pair.2 ⟨priv, hl'.privIs, rfl⟩))).trans ?_
  exact run_err (crypto_err (Prod.ext (invalid_pub hkdf hi) rfl))

theorem certifyHdr_none {p : Profile} {pk : PubKey} (hk : KeyOf p pk) {v : Profile} (hv : v ≠ p) (q : Profile)
    (h : Handle) (n : U32) : certifyHdrBytes v q h n pk = none := by
  cases p <;> cases pk <;> first
    | exact hk.elim
    | exact if_neg hv

theorem certify_label (c : CertifyCmd) : c.label.length ≤ 48 := by
  cases c <;> simp [CertifyCmd.label]

theorem fails_certify (hst : InService st) (ha : a.Fit) (hb : Built cfg a) (hL : L.Total) {c : CertifyCmd}
    (hsz : 35392 ≤ out.length) (hno : NoRefusal (rules st loc (.certify c)))
    (h : StdFails L a st loc w out (.certify c) f) : FailsAs L a st loc w out (.certify c) f := by
  have hP := hL.sound cfg.profile
  have hhs : certifyHdrSize c.variant = 32 + c.keyBytes := by cases c <;> rfl
  have hkb : c.keyBytes ≤ 2592 := by cases c <;> simp [CertifyCmd.keyBytes]
  obtain ⟨i, path, cdi, priv, hr, hp, hl, h⟩ := h
  rcases h with ⟨hi, rfl⟩ | ⟨pk, D, cert, out', hv, hs, hc, rfl, h⟩
  · have hf : ∃ kind, Format c.format kind := by
      simp only [NoRefusal, rules, earlyRules, lateRules, lookupRules, List.cons_append, List.nil_append,
        List.append_nil, List.mem_cons, List.not_mem_nil, or_false, forall_eq_or_imp, forall_eq] at hno
      obtain ⟨_, _, _, _, _, q⟩ := hno
      by_cases h0 : c.format = 0
      · exact ⟨_, .inl ⟨h0, rfl⟩⟩
      · by_cases h1 : c.format = 1
        · exact ⟨_, .inr ⟨h1, rfl⟩⟩
        · exact absurd ⟨h0, h1⟩ q
    obtain ⟨kind, hf⟩ := hf
    have hk : kind ≠ .exportedX509 := by
      rintro rfl; rcases hf with ⟨_, h⟩ | ⟨_, h⟩ <;> cases h
    unfold FailsAs
    rw [certify_run (s := ⟨st, (w, ()), out⟩) hf hno hr]
    exact run_err (leaf_bad ha hb hL hk hr hp hl hi _)
  · have hkey := hs.key
    have hslot := hs.slot
    subst hslot hkey
    have hs0 : StdDraft L a st D.slot path D.key { D with exportedCdi := none } := ⟨rfl, hs.ancestry, hs.digest, rfl,
      hs.nameHash, hs.idHash, hs.issuerKeyId, hs.altName, hs.validity, hs.signer⟩
    have fin : ∀ (kind : CertKind) (hk : kind ≠ .exportedX509) (hf : Format c.format kind) (t : Asn)
        (hI : Issued (deviceOps (L.crypto cfg.profile) a) (leafArgs st c.handle loc c.label) st
          { D with exportedCdi := none } kind
          ({ w with hasher := none, cdi := cdi, priv := priv }, ()) t
          ({ w with hasher := none, cdi := cdi, priv := priv }, ())) (ht : t.written = cert),
        FailsAs L a st loc w out (.certify c) f := by
      intro kind hk hf t hI ht
      have hD := (std_leafDrafted (D := { D with exportedCdi := none }) (w := (w, ())) ha hb hL hk).2
        ⟨path, cdi, priv, D.key, hr, hp, hl, hv, hs0, rfl, rfl⟩
      have hlen := device_short ha hb hP hD hI (certify_label c)
      have hpl : out.take (certifyHdrSize c.variant) ++ placed t.written (out.drop (certifyHdrSize c.variant)) =
          out.take (32 + c.keyBytes) ++ cert ++ out.drop (32 + c.keyBytes + cert.length) := by
        unfold placed
        rw [hhs, ht, List.drop_drop, List.append_assoc]
      unfold FailsAs
      rw [certify_eq (s := ⟨st, (w, ()), out⟩) hst (device_fits hP) (device_serial ha) hf hno hD hI (by omega)
        (by rw [List.length_drop, hhs]; show _ ≤ out.length - _; omega)]
      simp only [hpl]
      rcases h with ⟨r, hst', rfl⟩ | ⟨hd, r, st', hv', h3, h4, rfl⟩
      · exact run_err (roll_stuck (w := ({ w with hasher := none, cdi := cdi, priv := priv }, ())) hst'.1 hst'.2)
      · have h3' := (std_redrawn (a := a) (w := ({ w with hasher := none, cdi := cdi, priv := priv }, ()))).2
          ⟨r, h3, rfl⟩
        refine (run_ok (roll_iff.2 ⟨hd, _, h3', rfl, rfl⟩)).trans ?_
        unfold certifyEnd
        rw [run_modify, run_okOr, certifyHdr_none (hP.pubOf (std_public.2 hv)) hv']
        obtain rfl := h4.eq hr.lt
        rfl
    rcases hc with ⟨hf, hc⟩ | ⟨hf, hc⟩
    · obtain ⟨t, hI, ht⟩ := (std_certificate (D := { D with exportedCdi := none }) (cert := cert) ha
        (kind := .leafX509) (by decide) (args := leafArgs st c.handle loc c.label)
        (w := ({ w with hasher := none, cdi := cdi, priv := priv }, ()))).2 ⟨hc, rfl⟩
      exact fin .leafX509 (by decide) (.inl ⟨hf, rfl⟩) t hI ht
    · obtain ⟨t, hI, ht⟩ := (std_request (D := { D with exportedCdi := none }) (msg := cert) (a := a)
        (args := leafArgs st c.handle loc c.label) rfl hs.digest hl
        (w := ({ w with hasher := none, cdi := cdi, priv := priv }, ()))).2 ⟨hc, rfl⟩
      exact fin .leafCsr (by decide) (.inr ⟨hf, rfl⟩) t hI ht

/-! ### DeriveContext -/

theorem exported_duplicate {P : Prims} {m i cdi : Bytes} {w : Soft P × Unit} (h : P.hkdfCdi m i = .ok cdi)
    (hx : ∃ x ∈ w.1.slots, x.1 = cdi) :
    (deviceOps P a).deriveExportedCdi m i w = (.error .exportedCdiHandleDuplicateCdi, w) := by
  simp only [deviceOps, softOps, Soft.deriveExportedCdi, h]
  rw [if_pos]
  obtain ⟨x, hx, rfl⟩ := hx
  exact List.any_eq_true.2 ⟨x, hx, beq_self_eq_true _⟩

theorem exported_full {P : Prims} {m i cdi : Bytes} {w : Soft P × Unit} (h : P.hkdfCdi m i = .ok cdi)
    (hne : w.1.slots ≠ []) (hx : ∀ x ∈ w.1.slots, x.1 ≠ cdi) :
    (deviceOps P a).deriveExportedCdi m i w = (.error .exportedCdiHandleLimitExceeded, w) := by
  simp only [deviceOps, softOps, Soft.deriveExportedCdi, h]
  rw [if_neg, if_pos]
  · exact List.length_pos_iff.2 hne
  · intro h
    obtain ⟨x, h1, h2⟩ := List.any_eq_true.1 h
    exact hx x h1 (eq_of_beq h2)

theorem export_bad (ha : a.Fit) (hb : Built cfg a) (hL : L.Total) {c : DeriveCmd cfg} {i : Nat} {p' : Context cfg}
    {path : List Nat} {cdi priv : Bytes} {e : Err} {w' : Soft (L.crypto cfg.profile)}
    (hr : Resolves st c.handle loc i) (hp : Path st i path) (hl : StdExportedKey L a st path cdi priv)
    (h : ((∃ x ∈ w.slots, x.1 = cdi) ∧ e = .crypto .exportedCdiHandleDuplicateCdi ∧ w' = { w with hasher := none }) ∨
      (w.slots ≠ [] ∧ (∀ x ∈ w.slots, x.1 ≠ cdi) ∧ e = .crypto .exportedCdiHandleLimitExceeded ∧
        w' = { w with hasher := none }) ∨
      (w.slots = [] ∧ StdInvalid L cfg.profile priv ∧ e = badKey ∧ w' = { w with
        hasher := none
        rng := ((L.crypto cfg.profile).fill32 w.rng).2
        cdi := cdi
        priv := priv
        slots := [(cdi, ((L.crypto cfg.profile).fill32 w.rng).1)] })) :
    deriveExport ((deviceOps (L.crypto cfg.profile) a).env cfg) c loc i p' ⟨st, (w, ()), out⟩ =
      (.error e, ⟨st, (w', ()), out⟩) := by
  have hP := hL.sound cfg.profile
  have hl' := std_exportedKey.2 hl
  obtain ⟨_, _, _, hkdf⟩ := hl
  unfold deriveExport
  have h1 : M.platform (cfg := cfg) ((deviceOps (L.crypto cfg.profile) a).env cfg).ueid ⟨st, (w, ()), out⟩ =
      (.ok (zeroPadded 48 (List.replicate 17 0x0A), 17), ⟨st, (w, ()), out⟩) := rfl
  rw [run_ok h1, run_lift]
  have h2 : ueidGet (zeroPadded 48 (List.replicate 17 0x0A), 17) =
      .ok ((zeroPadded 48 (List.replicate 17 0x0A)).toList.take (17 : U32).toNat) := if_pos (by decide)
  rw [h2]
  simp only
  rw [run_get, exportedArgs_eq]
  refine run_err (runCert_err (createCert_err hr hp ((device_measured (w := (w, ())) ha hb hP).2 ⟨rfl, rfl⟩) ?_))
  unfold certKey
  rw [if_pos (by decide)]
  rcases h with ⟨⟨x, hx, rfl⟩, rfl, rfl⟩ | ⟨hne, hx, rfl, rfl⟩ | ⟨hs, hi, rfl, rfl⟩
  · exact run_err (crypto_err (exported_duplicate hl'.cdiIs ⟨x, hx, rfl⟩))
  · exact run_err (crypto_err (exported_full hl'.cdiIs hne hx))
  · refine (run_ok (crypto_ok (device_exportedCdi.2 ⟨cdi, hl'.cdiIs, hs, rfl, rfl⟩))).trans ?_
    refine (run_ok (crypto_ok (v := ()) ((device_exportedPair rfl).2 ⟨priv, hl'.privIs, rfl⟩))).trans ?_
    exact run_err (crypto_err (Prod.ext (invalid_pub hkdf hi) rfl))

/-- The parent that DeriveContext leaves behind. -/
theorem parent_run {P : Prims} {c : DeriveCmd cfg} {i : Nat} {w : Soft P} {hp : Handle} {s : CtxState} {r : P.Rng}
    (hr : Resolves st c.handle loc i) (h : StdParent P st c i w.rng hp s r) :
    deriveParent (deviceOps P a) c (st.at i) (⟨st, (w, ()), out⟩ : Sys cfg _) =
      (.ok { st.at i with handle := hp, state := s }, ⟨st, ({ w with rng := r }, ()), out⟩) :=
  (parent_iff hr.1.1).2 ⟨hp, s, _, (std_parent (a := a) (w := (w, ()))).2 ⟨r, h, rfl⟩, rfl, rfl⟩

theorem fails_derive (hst : InService st) (ha : a.Fit) (hb : Built cfg a) (hL : L.Total) {c : DeriveCmd cfg}
    (hno : NoRefusal (rules st loc (.derive c)))
    (h : StdFails L a st loc w out (.derive c) f) : FailsAs L a st loc w out (.derive c) f := by
  have hP := hL.sound cfg.profile
  obtain ⟨i, e, w', hr, h, rfl⟩ := h
  unfold StdDeriveFails at h
  unfold FailsAs
  split at h
  · rename_i hrec
    obtain ⟨r, hs, rfl, rfl⟩ := h
    obtain ⟨v, h1⟩ := extends_ok (plat := defaultPlatform a) hb hP (st.at i).tci.cumulative c.data (w, ())
    rw [recursive_eq (s := ⟨st, (w, ()), out⟩) hno hr hrec]
    refine (run_ok ((extend_iff hr.1.1 hr.1.2.2).2 ⟨v, _, h1, rfl, rfl⟩)).trans ?_
    exact run_err (roll_stuck (w := ({ w with hasher := none }, ())) (c := { st.at i with
        tci := { (st.at i).tci with cumulative := v, current := c.data } }) hs.1 hs.2)
  · rename_i hrec
    rw [derive_eq (s := ⟨st, (w, ()), out⟩) hst hno hr hrec]
    rcases h with ⟨r, hb', hs, rfl, rfl⟩ | ⟨hp, s, r, hpar, h⟩
    · exact run_err (parent_stuck (w := (w, ())) hb' hs)
    · refine (run_ok (parent_run hr hpar)).trans ?_
      split at h
      · rename_i hx
        rw [if_pos (show c.exportCdi = true from hx)]
        obtain ⟨path, cdi, priv, hpath, hl, h⟩ := h
        exact export_bad (w := { w with rng := r }) ha hb hL hr hpath hl h
      · rename_i hx
        rw [if_neg (show ¬ c.exportCdi = true from hx)]
        obtain ⟨r', hd, hm, rfl, rfl⟩ := h
        obtain ⟨k, hk⟩ := child_free (s := ⟨st, (w, ()), out⟩) hno hrec hx
        refine (child_eq (s := ⟨st, (w, ()), out⟩) hno hr hrec hx hk _ _).trans ?_
        exact run_err (pick_stuck (w := ({ w with rng := r }, ())) hd hm)

/-- Every failure. -/
theorem fails_run (hst : InService st) (ha : a.Fit) (hb : Built cfg a) (hL : L.Total) {c : Cmd cfg}
    (hsz : 35392 ≤ out.length) (hno : NoRefusal (rules st loc c))
    (h : StdFails L a st loc w out c f) : FailsAs L a st loc w out c f := by
  cases c with
  | getProfile => exact h.elim
  | destroy => exact h.elim
  | init => exact fails_init hno h
  | derive => exact fails_derive hst ha hb hL hno h
  | certify => exact fails_certify hst ha hb hL hsz hno h
  | sign => exact fails_sign hst ha hb hL hno h
  | rotate => exact fails_rotate hno h
  | chain => exact fails_chain ha hno h
  | update => exact fails_update hst hb hL hno h

/-! ### A command that is not refused is served or fails -/

theorem able_or_fails (hst : InService st) (ha : a.Fit) (hL : L.Total) {c : Cmd cfg}
    (hno : NoRefusal (rules st loc c)) :
    Able (L.crypto cfg.profile) a st loc w c ∨ ∃ f, StdFails L a st loc w out c f := by
  have hP := hL.sound cfg.profile
  have draw : ∀ (st : State cfg) (r : (L.crypto cfg.profile).Rng), CanDraw (L.crypto cfg.profile) st r ∨
      ∃ r', Misses (L.crypto cfg.profile) st 8 r r' := fun st r => lands_or_misses 8 r
  have replace : ∀ (i : Nat) (r : (L.crypto cfg.profile).Rng), CanReplace (L.crypto cfg.profile) st i r ∨
      ∃ r', StdStuck (L.crypto cfg.profile) st i r r' := by
    intro i r
    by_cases hd : (st.at i).handle = Handle.default
    · exact .inl (.inl hd)
    · exact (draw st r).imp .inr fun ⟨r', h⟩ => ⟨r', hd, h⟩
  cases c with
  | getProfile => exact .inl trivial
  | destroy => exact .inl trivial
  | chain c =>
    by_cases h : c.offset.toNat < a.chain.length
    · exact .inl h
    · exact .inr ⟨_, Nat.not_lt.1 h, rfl⟩
  | init g =>
    by_cases h : Bit g IFlag.default
    · exact .inl (.inl h)
    · rcases draw st w.rng with h1 | ⟨r, h1⟩
      · exact .inl (.inr h1)
      · exact .inr ⟨_, r, h, h1, rfl⟩
  | rotate c =>
    by_cases h : Bit c.flags RFlag.targetIsDefault
    · exact .inl (.inl h)
    · rcases draw st w.rng with h1 | ⟨r, h1⟩
      · exact .inl (.inr h1)
      · exact .inr ⟨_, r, h, h1, rfl⟩
  | sign c =>
    simp only [NoRefusal, rules, earlyRules, lateRules, lookupRules, List.cons_append, List.nil_append,
      List.append_nil, List.mem_cons, List.not_mem_nil, or_false, forall_eq_or_imp, forall_eq] at hno
    obtain ⟨i, hr⟩ := exists_resolves (not_not.1 hno.2.2.1).choose_spec
    obtain ⟨path, hp⟩ := (C01_forest hst).links.path i (live_of_active hr.1.1)
    obtain ⟨cdi, priv, hl⟩ := leafKey_total hL a st path c.label
    by_cases hi : StdInvalid L cfg.profile priv
    · exact .inr ⟨_, i, path, cdi, priv, hr, hp, hl, .inl ⟨hi, rfl⟩⟩
    · by_cases hs : c.Suits cfg.profile
      · rcases replace i w.rng with h | ⟨r, h⟩
        · obtain ⟨pk, hv⟩ := not_not.1 hi
          exact .inl ⟨i, hr, ⟨path, cdi, priv, hp, std_leafKey.2 hl, pk, std_public.2 hv⟩, hs, h⟩
        · exact .inr ⟨_, i, path, cdi, priv, hr, hp, hl, .inr (.inr ⟨hs, hi, r, h, rfl⟩)⟩
      · exact .inr ⟨_, i, path, cdi, priv, hr, hp, hl, .inr (.inl ⟨hi, hs, rfl⟩)⟩
  | certify c =>
    simp only [NoRefusal, rules, earlyRules, lateRules, lookupRules, List.cons_append, List.nil_append,
      List.append_nil, List.mem_cons, List.not_mem_nil, or_false, forall_eq_or_imp, forall_eq] at hno
    obtain ⟨i, hr⟩ := exists_resolves (not_not.1 hno.2.1).choose_spec
    obtain ⟨path, hp⟩ := (C01_forest hst).links.path i (live_of_active hr.1.1)
    obtain ⟨cdi, priv, hl⟩ := leafKey_total hL a st path c.label
    by_cases hi : StdInvalid L cfg.profile priv
    · exact .inr ⟨_, i, path, cdi, priv, hr, hp, hl, .inl ⟨hi, rfl⟩⟩
    · obtain ⟨pk, hv⟩ := not_not.1 hi
      obtain ⟨hD, _⟩ := (std_baseDraft (L := L) (a := a) (st := st) (i := i) (path := path) (pk := pk)
        (x := none) ha).2 rfl
      obtain ⟨cert, hc⟩ : ∃ cert, (c.format = 0 ∧ StdCertificate L a st (leafArgs st c.handle loc c.label) .leafX509
            (baseDraft (L.crypto cfg.profile) a st i path pk none) cert) ∨
          (c.format = 1 ∧ StdRequest L st (leafArgs st c.handle loc c.label) priv
            (baseDraft (L.crypto cfg.profile) a st i path pk none) cert) := by
        by_cases h0 : c.format = 0
        · obtain ⟨t, h⟩ := device_certificate (st := st) ha hP (kind := .leafX509) (by decide)
            (leafArgs st c.handle loc c.label) (baseDraft (L.crypto cfg.profile) a st i path pk none) (w, ())
          exact ⟨_, .inl ⟨h0, ((std_certificate ha (by decide)).1 ⟨t, h, rfl⟩).1⟩⟩
        · have h1 : c.format = 1 := by_contra fun h1 => hno.2.2.2.2.2 ⟨h0, h1⟩
          obtain ⟨t, w', h, _⟩ := device_request (a := a) (h := c.handle) (loc := loc) (st := st)
            (D := baseDraft (L.crypto cfg.profile) a st i path pk none) (w := (w, ()))
            hP (std_leafKey.2 hl) (std_public.2 hv) rfl
          exact ⟨_, .inr ⟨h1, ((std_request rfl hD.digest hl).1 ⟨t, h, rfl⟩).1⟩⟩
      rcases stuck_or_chosen (st := st) i w.rng with ⟨r, h⟩ | ⟨h, r, h3⟩
      · exact .inr ⟨_, i, path, cdi, priv, hr, hp, hl, .inr ⟨pk, _, cert, _, hv, hD, hc, rfl, .inl ⟨r, h, rfl⟩⟩⟩
      · by_cases hvar : c.variant = cfg.profile
        · refine .inl ⟨i, hr, ⟨path, cdi, priv, hp, std_leafKey.2 hl, pk, std_public.2 hv⟩, hvar, ?_⟩
          rcases h3 with ⟨h, _⟩ | ⟨_, h3⟩
          · exact .inl h
          · exact .inr ⟨h, r, h3⟩
        · exact .inr ⟨_, i, path, cdi, priv, hr, hp, hl, .inr ⟨pk, _, cert, _, hv, hD, hc, rfl, .inr ⟨h, r, _, hvar,
            h3, setSlot_of hr.lt _, rfl⟩⟩⟩
  | update c =>
    obtain ⟨i, k, hr, hk, _⟩ := update_named (s := ⟨st, (w, ()), out⟩) hno
    rcases lands_or_misses (P := L.crypto cfg.profile) (st := st) 8 w.rng with ⟨h, r, h1⟩ | ⟨r, h1⟩
    · have hss := setSlot_of (st := st) hr.lt { st.at i with handle := h }
      by_cases hd : (st.at k).handle = Handle.default
      · exact .inl ⟨i, k, h, r, _, hr, hk, h1, hss, .inl hd⟩
      · rcases draw (st.setCtx i { st.at i with handle := h }) r with h2 | ⟨r', h2⟩
        · exact .inl ⟨i, k, h, r, _, hr, hk, h1, hss, .inr h2⟩
        · exact .inr ⟨_, i, k, hr, hk, .inr ⟨h, r, _, r', h1, hss, hd, h2, rfl⟩⟩
    · exact .inr ⟨_, i, k, hr, hk, .inl ⟨r, h1, rfl⟩⟩
  | derive c =>
    obtain ⟨i, hr⟩ := derive_resolves (s := ⟨st, (w, ()), out⟩) hno
    have fin : ∀ e w', StdDeriveFails L a st w c i e w' → ∃ f, StdFails L a st loc w out (.derive c) f :=
      fun e w' h => ⟨⟨e, st, w', out⟩, i, e, w', hr, h, rfl⟩
    by_cases hrec : Bit c.flags DFlag.recursive
    · rcases replace i w.rng with h | ⟨r, h⟩
      · exact .inl ⟨i, hr, by rw [if_pos hrec]; exact h⟩
      · refine .inr (fin exhausted { w with hasher := none, rng := r } ?_)
        unfold StdDeriveFails
        rw [if_pos hrec]
        exact ⟨r, h, rfl, rfl⟩
    · rcases parent_or_stuck (st := st) c i w.rng with ⟨r, hb, h⟩ | ⟨hp, s, r, hpar⟩
      · refine .inr (fin exhausted { w with rng := r } ?_)
        unfold StdDeriveFails
        rw [if_neg hrec]
        exact .inl ⟨r, hb, h, rfl, rfl⟩
      · by_cases hx : Bit c.flags DFlag.exportCdi
        · obtain ⟨path, hpath⟩ := (C01_forest hst).links.path i (live_of_active hr.1.1)
          obtain ⟨cdi, priv, hl⟩ := exportedKey_total hL a st path
          have bad : ∀ e w', (((∃ x ∈ w.slots, x.1 = cdi) ∧ e = .crypto .exportedCdiHandleDuplicateCdi ∧
                w' = { w with hasher := none, rng := r }) ∨
              (w.slots ≠ [] ∧ (∀ x ∈ w.slots, x.1 ≠ cdi) ∧ e = .crypto .exportedCdiHandleLimitExceeded ∧
                w' = { w with hasher := none, rng := r }) ∨
              (w.slots = [] ∧ StdInvalid L cfg.profile priv ∧ e = badKey ∧ w' = { w with
                hasher := none
                rng := ((L.crypto cfg.profile).fill32 r).2
                cdi := cdi
                priv := priv
                slots := [(cdi, ((L.crypto cfg.profile).fill32 r).1)] })) →
              ∃ f, StdFails L a st loc w out (.derive c) f := by
            intro e w' h
            refine fin e w' ?_
            unfold StdDeriveFails
            rw [if_neg hrec]
            exact .inr ⟨hp, s, r, hpar, by rw [if_pos hx]; exact ⟨path, cdi, priv, hpath, hl, h⟩⟩
          by_cases hdup : ∃ x ∈ w.slots, x.1 = cdi
          · exact .inr (bad _ _ (.inl ⟨hdup, rfl, rfl⟩))
          · by_cases hne : w.slots = []
            · by_cases hi : StdInvalid L cfg.profile priv
              · exact .inr (bad _ _ (.inr (.inr ⟨hne, hi, rfl, rfl⟩)))
              · obtain ⟨pk, hv⟩ := not_not.1 hi
                refine .inl ⟨i, hr, ?_⟩
                rw [if_neg hrec, if_pos hx]
                refine ⟨hne, ⟨path, cdi, priv, hpath, std_exportedKey.2 hl, pk, std_public.2 hv⟩, fun hb => ?_⟩
                rcases hpar with ⟨_, _, ⟨h, _⟩ | ⟨_, h⟩⟩ | ⟨h, _⟩
                · exact .inl h
                · exact .inr ⟨hp, r, h⟩
                · exact absurd hb h
            · exact .inr (bad _ _ (.inr (.inl ⟨hne, fun x hx he => hdup ⟨x, hx, he⟩, rfl, rfl⟩)))
        · have hif : (if Bit c.flags DFlag.retainParent ∧ (st.at i).handle ≠ Handle.default
              then ∃ h, Lands (L.crypto cfg.profile) st 8 w.rng h r else r = w.rng) := by
            rcases hpar with ⟨hb, _, ⟨h, _, h1⟩ | ⟨hd, h⟩⟩ | ⟨hb, _, _, h1⟩
            · rw [if_neg (fun h' => h'.2 h)]; exact h1
            · rw [if_pos ⟨hb, hd⟩]; exact ⟨hp, h⟩
            · rw [if_neg (fun h' => hb h'.1)]; exact h1
          by_cases hd : Bit c.flags DFlag.makeDefault
          · exact .inl ⟨i, hr, by rw [if_neg hrec, if_neg hx]; exact ⟨r, hif, .inl hd⟩⟩
          · rcases draw st r with h | ⟨r', h⟩
            · exact .inl ⟨i, hr, by rw [if_neg hrec, if_neg hx]; exact ⟨r, hif, .inr h⟩⟩
            · refine .inr (fin exhausted { w with rng := r' } ?_)
              unfold StdDeriveFails
              rw [if_neg hrec]
              exact .inr ⟨hp, s, r, hpar, by rw [if_neg hx]; exact ⟨r', hd, h, rfl, rfl⟩⟩

theorem served_or_fails (hst : InService st) (ha : a.Fit) (hb : Built cfg a) (hL : L.Total) {c : Cmd cfg}
    (hno : NoRefusal (rules st loc c)) :
    (∃ reply st' w', StdServes L a st loc w c reply st' w') ∨ ∃ f, StdFails L a st loc w out c f := by
  refine (able_or_fails hst ha hL hno).imp_left fun h => ?_
  obtain ⟨reply, st', w', h⟩ := (able_iff (w := (w, ())) ha hb (hL.sound cfg.profile) hst hno).2 h
  exact ⟨reply, st', w'.1, (std_iff ha hb hL hno (w, ()) reply st' w').1 h⟩

/-! ### Refusals -/

theorem refuses_run (hst : InService st) {c : Cmd cfg}
    (h : StdRefuses (L.crypto cfg.profile) st loc w out c f) : FailsAs L a st loc w out c f := by
  rcases h with ⟨e, h, rfl⟩ | ⟨hno, k, i, e, rfl, hr, hf, h⟩
  · exact Prod.ext (C53_refused (s := ⟨st, (w, ()), out⟩) hst rfl h).1
      (C53_refused (s := ⟨st, (w, ()), out⟩) hst rfl h).2
  · have hrec : ¬ Bit k.flags DFlag.recursive ∧ ¬ Bit k.flags DFlag.exportCdi := by
      rcases hf with ⟨⟨h1, h2, _⟩, _⟩ | ⟨_, ⟨⟨h1, h2, _⟩, _⟩ | ⟨_, h⟩⟩
      · exact ⟨h1, h2⟩
      · exact ⟨h1, h2⟩
      · exact h.elim
    unfold FailsAs
    rw [derive_early (s := ⟨st, (w, ()), out⟩) hst hno hr hrec.1]
    rcases h with ⟨r, hb, hs, rfl⟩ | ⟨hp, s, r, hpar, rfl⟩
    · exact run_err (parent_stuck (w := (w, ())) hb hs)
    · refine (run_ok (parent_run hr hpar)).trans ?_
      rw [if_neg (show ¬ k.exportCdi = true from hrec.2)]
      unfold deriveChild
      rw [run_get, run_okOr]
      rcases hf with ⟨⟨_, _, hall⟩, rfl⟩ | ⟨hnall, ⟨⟨_, _, hcl⟩, rfl⟩ | ⟨_, h⟩⟩
      · rw [noFree_iff.2 hall]
      · rcases hn : st.nextInactive with _ | j
        · exact absurd ⟨hrec.1, hrec.2, noFree_iff.1 hn⟩ hnall
        · simp only
          rw [named_iff hr] at hcl
          rw [run_failIf, if_pos]
          rw [Bool.not_eq_true']
          exact (clash_iff hr).2 hcl
      · exact h.elim

theorem refused_or_not (st : State cfg) (loc : U32) (w : Soft (L.crypto cfg.profile)) (out : Bytes) (c : Cmd cfg) :
    (∃ f, StdRefuses (L.crypto cfg.profile) st loc w out c f) ∨ NoRefusal (rules st loc c) := by
  rcases refusal_or_not (earlyRules st loc c) with ⟨e, h⟩ | h
  · exact .inl ⟨_, .inl ⟨e, h, rfl⟩⟩
  · rcases refusal_or_not (lateRules st loc c) with ⟨e, hf⟩ | hf
    · cases c with
      | derive k =>
        obtain ⟨i, hr⟩ : ∃ i, Resolves st k.handle loc i := by
          have h := h
          simp only [NoRefusal, earlyRules, lookupRules, List.cons_append, List.nil_append,
            List.mem_cons, List.not_mem_nil, or_false, forall_eq_or_imp, forall_eq] at h
          exact exists_resolves (not_not.1 h.2.2.1).choose_spec
        rcases parent_or_stuck (st := st) k i w.rng with ⟨r, hb, hs⟩ | ⟨hp, s, r, hpar⟩
        · exact .inl ⟨_, .inr ⟨h, k, i, e, rfl, hr, hf, .inl ⟨r, hb, hs, rfl⟩⟩⟩
        · exact .inl ⟨_, .inr ⟨h, k, i, e, rfl, hr, hf, .inr ⟨hp, s, r, hpar, rfl⟩⟩⟩
      | _ => exact hf.elim
    · exact .inr (NoRefusal.append.2 ⟨h, hf⟩)

theorem StdRefuses.not_allowed {P : Prims} {w : Soft P} {f : Failure cfg P} {c : Cmd cfg}
    (h : StdRefuses P st loc w out c f) : ¬ NoRefusal (rules st loc c) := by
  intro hno
  obtain ⟨h1, h2⟩ := NoRefusal.append.1 hno
  rcases h with ⟨_, h, _⟩ | ⟨_, _, _, _, _, _, h, _⟩
  · exact h.not_none h1
  · exact h.not_none h2

theorem StdRefuses.keeps {P : Prims} {w : Soft P} {f : Failure cfg P} {c : Cmd cfg}
    (h : StdRefuses P st loc w out c f) : f.state = st ∧ f.buffer = out := by
  rcases h with ⟨_, _, rfl⟩ | ⟨_, _, _, _, _, _, _, ⟨_, _, _, rfl⟩ | ⟨_, _, _, _, rfl⟩⟩ <;> exact ⟨rfl, rfl⟩

end
end Dpe
