import Verif.Spec.Attest
import Verif.Props.Client
import Verif.Props.Keep
import Verif.Props.Crates
import Verif.Props.Keys
import Verif.Props.Outcome
import Verif.Examples.Talk1
/-
C76: remote attestation over the Go client and the simulator works.
-/
namespace Dpe
section
variable {cfg : Cfg} {L : Lib} {a : Artifact} {addr addr' : Nat} {loc : U32} {c c' : Client} {k : GoCall} {cmd : Cmd cfg}
  {s s1 s2 : Sys cfg (Soft (L.crypto cfg.profile) × Unit)}

/-! ### From calls to commands -/

theorem succeeds_exec {σ : Type} {ops : Ops σ} {st st' : State cfg} {w w' : σ} {reply : Bytes} (hst : InService st)
    (hfit : AlgorithmFits cfg ops) (hser : SerialGiven ops) (h : Succeeds ops st loc w cmd reply st' w') :
    exec (ops.env cfg) cmd loc ⟨st, w, List.replicate reply.length 0⟩ = (.ok reply.length, ⟨st', w', reply⟩) := by
  refine (C57_exact (s := ⟨st, w, _⟩) hst (fun _ => ⟨hfit, hser⟩)).2 ⟨h.1, reply, st', w', h.2.1, by simp, rfl, ?_⟩
  simp

theorem call_ok (hL : L.Total) (ha : a.Fit) (hb : Built cfg a) (hs : cfg.Standard) (hc : Connected L a cfg c)
    (hst : InService s.st) (hal : addr % 4 = 0) {v : GoValue} {x : Option (Sys cfg _)}
    (h : c.call (simSend ((device L a cfg.profile).env cfg) loc addr) k (some s) = (.ok v, x)) :
    ∃ cmd : Cmd cfg, ∃ reply st' w', Means k cmd ∧ InProfile cfg cmd ∧ Answer cfg k reply v ∧ x = some ⟨st', w', s.out⟩ ∧
      exec ((device L a cfg.profile).env cfg) cmd loc ⟨s.st, s.w, List.replicate reply.length 0⟩ =
        (.ok reply.length, ⟨st', w', reply⟩) := by
  obtain ⟨hfit, hser, _⟩ := C58_meets (cfg := cfg) (L := L) hL ha 0
  by_cases hm : Malformed cfg.profile k
  · obtain ⟨e, _, h'⟩ := C61_malformed hL ha hb hs hc (simSend ((device L a cfg.profile).env cfg) loc addr) (some s) hm
    rw [h] at h'; cases h'
  rcases C61_means hs k with h' | h' | ⟨cmd, h1, h2⟩
  · exact absurd h' hm
  · have := C61_deadly (addr := addr) (loc := loc) hL ha hb hs hc hst hm h'
    rw [h] at this; cases this
  · by_cases hx : ∃ reply st' w', Succeeds (device L a cfg.profile) s.st loc s.w cmd reply st' w'
    · obtain ⟨reply, st', w', hx⟩ := hx
      obtain ⟨v', h3, h4⟩ := C61_served hL ha hb hs hc hst hal h1 h2 hx
      rw [h] at h3
      injection h3 with h3 h5
      injection h3 with h3
      subst h3 h5
      exact ⟨cmd, reply, st', w', h1, h2, h4, rfl, succeeds_exec hst hfit hser hx⟩
    · obtain ⟨e, s', h3, _⟩ := C61_failed hL ha hb hs hc hst hal h1 h2 hx
      rw [h] at h3; cases h3

theorem call_inService (hL : L.Total) (ha : a.Fit) (hb : Built cfg a) (hs : cfg.Standard) (hc : Connected L a cfg c)
    (hst : InService s.st) (hal : addr % 4 = 0) {v : GoValue}
    (h : c.call (simSend ((device L a cfg.profile).env cfg) loc addr) k (some s) = (.ok v, some s1)) : InService s1.st := by
  obtain ⟨cmd, reply, st', w', _, _, _, hx, he⟩ := call_ok hL ha hb hs hc hst hal h
  cases hx
  have := InService.step ((device L a cfg.profile).env cfg) cmd loc s.st s.w (List.replicate reply.length 0) hst
  rw [he] at this
  exact this

theorem sigFields_inj {x y : Sig} (h : sigFields x = sigFields y) : x = y := by
  have hl := congrArg List.length h
  cases x <;> cases y <;>
    simp only [sigFields, List.length_append, Vector.length_toList, List.length_cons, List.length_nil] at hl <;>
    first
    | (exfalso; omega)
    | (simp only [sigFields] at h
       first
       | (obtain ⟨h1, h2⟩ := List.append_inj h (by simp)
          rw [Vector.toList_inj] at h1 h2
          rw [h1, h2])
       | (obtain ⟨h1, _⟩ := List.append_inj h (by simp)
          rw [Vector.toList_inj] at h1
          rw [h1]))

/-- A successful call of CertifyKey, as a command. -/
theorem certify_call (hL : L.Total) (ha : a.Fit) (hb : Built cfg a) (hs : cfg.Standard) (hc : Connected L a cfg c)
    (hst : InService s.st) (hal : addr % 4 = 0) {h : Handle} {l : Bytes} {format f : U32} {v : GoValue}
    {x : Option (Sys cfg _)}
    (hcall : c.call (simSend ((device L a cfg.profile).env cfg) loc addr) (.certifyKey h l format f) (some s) =
      (.ok v, x)) :
    ∃ (k : CertifyCmd) (n : Nat) (out : Bytes) (r : Sys cfg (Soft (L.crypto cfg.profile) × Unit)) (h' : Handle)
      (kx ky cert : Bytes) (pk : PubKey),
      k.handle = h ∧ k.label = l ∧ k.format = format ∧ x = some ⟨r.st, r.w, s.out⟩ ∧
      v = .key h' kx ky cert ∧ certIn k r.out n = cert ∧ h'.toList = handleIn r.out ∧
      keyIn k r.out = keyFields pk ∧ v.keyInfo cfg.profile = (keyInfo cfg.profile pk).der ∧
      exec ((device L a cfg.profile).env cfg) (.certify k) loc ⟨s.st, s.w, out⟩ = (.ok n, r) := by
  obtain ⟨cmd, reply, st', w', hm, hin, hans, rfl, he⟩ := call_ok hL ha hb hs hc hst hal hcall
  obtain ⟨h', pk, cert, hk, hr, hv⟩ := hans
  obtain ⟨k, rfl, e1, e2, e3, e4⟩ : ∃ k : CertifyCmd, cmd = .certify k ∧ k.handle = h ∧ k.label = l ∧
      k.format = format ∧ k.variant = cfg.profile := by
    cases hm with
    | certify256 h l y f => exact ⟨_, rfl, rfl, rfl, rfl, hin.symm⟩
    | certify384 h l y f => exact ⟨_, rfl, rfl, rfl, rfl, hin.symm⟩
    | certifyMl h l y f => exact ⟨_, rfl, rfl, rfl, rfl, hin.symm⟩
  have hw : k.wants pk := (wants_iff hk).2 e4
  have hc1 : certIn k reply reply.length = cert := by
    have := certIn_reply (p := cfg.profile) (hd := h') (cert := cert) (rest := []) hw
    rwa [List.append_nil, ← hr] at this
  have hc2 : h'.toList = handleIn reply := by
    have := handleIn_certify (p := cfg.profile) (hd := h') (cert := cert) (key := pk) (rest := [])
    rw [List.append_nil, ← hr] at this
    exact this.symm
  have hc3 : keyIn k reply = keyFields pk := by
    have := keyIn_reply (p := cfg.profile) (hd := h') (cert := cert) (rest := []) hw
    rwa [List.append_nil, ← hr] at this
  obtain ⟨kx, ky, hv', hi⟩ : ∃ kx ky, v = .key h' kx ky cert ∧
      v.keyInfo cfg.profile = (keyInfo cfg.profile pk).der := by
    cases pk <;> cases hp : cfg.profile <;> rw [hp] at hk <;> first | exact hk.elim | exact ⟨_, _, hv, by rw [hv]; rfl⟩
  exact ⟨k, reply.length, _, ⟨st', w', reply⟩, h', kx, ky, cert, pk, e1, e2, e3, rfl, hv', hc1, hc2, hc3, hi, he⟩

/-- A call that asks for a signature means a Sign command. -/
theorem asks_means {h : Handle} {l : Bytes} {q : SignData} (hq : AsksSign cfg.profile k h l q) (hm : Means k cmd)
    (hin : InProfile cfg cmd) :
    ∃ j : SignCmd, cmd = .sign j ∧ j.handle = h ∧ j.label = l ∧ j.message = q := by
  cases hq with
  | digest _ _ f d hp =>
    cases hm with
    | sign256 => exact ⟨_, rfl, rfl, rfl, rfl⟩
    | sign384 => exact ⟨_, rfl, rfl, rfl, rfl⟩
    | signMl => exact absurd hin.1 hp
  | mu _ _ f d hp =>
    generalize hd : d.toList = b at hm
    cases hm with
    | sign256 => exact absurd (hin.symm.trans hp) nofun
    | sign384 => exact absurd (hin.symm.trans hp) nofun
    | signMl h v f d' => exact ⟨_, rfl, rfl, rfl, by rw [Vector.toList_inj.1 hd]; rfl⟩
  | raw _ _ m =>
    cases hm with
    | signRaw h v m d hd =>
      refine ⟨_, rfl, rfl, rfl, ?_⟩
      obtain ⟨z, hz⟩ := hd
      have hl : m.length ≤ 1024 := by
        have := congrArg List.length hz
        simp at this; omega
      simp only [SignCmd.message, hz, BitVec.toNat_ofNat]
      rw [Nat.mod_eq_of_lt (by omega), List.take_left]

/-- A successful call of Sign, as a command. -/
theorem sign_call (hL : L.Total) (ha : a.Fit) (hb : Built cfg a) (hs : cfg.Standard) (hc : Connected L a cfg c)
    (hst : InService s.st) (hal : addr % 4 = 0) {h : Handle} {l : Bytes} {q : SignData} {v : GoValue}
    {x : Option (Sys cfg _)} (hq : AsksSign cfg.profile k h l q)
    (hcall : c.call (simSend ((device L a cfg.profile).env cfg) loc addr) k (some s) = (.ok v, x)) :
    ∃ (j : SignCmd) (n : Nat) (out : Bytes) (r : Sys cfg (Soft (L.crypto cfg.profile) × Unit)) (sig : Sig),
      j.handle = h ∧ j.label = l ∧ j.message = q ∧ x = some ⟨r.st, r.w, s.out⟩ ∧
      sigIn r.out n = sigFields sig ∧ v.answer cfg.profile = sigContents sig ∧
      exec ((device L a cfg.profile).env cfg) (.sign j) loc ⟨s.st, s.w, out⟩ = (.ok n, r) := by
  obtain ⟨cmd, reply, st', w', hm, hin, hans, rfl, he⟩ := call_ok hL ha hb hs hc hst hal hcall
  obtain ⟨h', sig, hk, hr, hv⟩ : ∃ h sig, SigOf cfg.profile sig ∧ reply = signReply cfg.profile h sig ∧
      v = match sig with
        | .p256 r s => .signature h r.toList s.toList []
        | .p384 r s => .signature h r.toList s.toList []
        | .mldsa s => .signature h [] [] s.toList := by
    cases hq <;> exact hans
  obtain ⟨j, rfl, e1, e2, e3⟩ := asks_means hq hm hin
  have hc1 : sigIn reply reply.length = sigFields sig := by
    have := sigIn_reply (p := cfg.profile) (hd := h') (sig := sig) (rest := [])
    rwa [List.append_nil, ← hr] at this
  refine ⟨j, reply.length, _, ⟨st', w', reply⟩, sig, e1, e2, e3, rfl, hc1, ?_, he⟩
  rw [hv]
  cases sig <;> cases hp : cfg.profile <;> rw [hp] at hk <;> first | exact hk.elim | rfl

/-! ### C76 -/

/-- C76: let a client certify the key of a context for a label, and let the context and its ancestors
be left alone after that.  Then whatever any client has signed with the returned handle and the same label
convinces a verifier who trusts the alias key, checks the certificate and reads it: the answer is signed with
the certified key, and the report is what the context and its ancestors had measured.

The SVNs on the way to the root are to have encodings of the same length, for otherwise the certificate
cannot be read (`C41_false`). -/
theorem C76_attested {V : Verifier} {root : Bytes} {h h' : Handle} {l kx ky cert : Bytes} {f : U32} {i : Nat}
    {path : List Nat} {q : SignData} {v : GoValue} {x : Option (Sys cfg _)}
    (hL : L.Total) (ha : a.Fit) (hb : Built cfg a) (hs : cfg.Standard) (hc : Connected L a cfg c)
    (hc' : Connected L a cfg c') (hV : V.Takes L) (hroot : Trusted L cfg.profile root)
    (hst : InService s.st) (hal : addr % 4 = 0) (hal' : addr' % 4 = 0)
    (hr : Resolves s.st h loc i) (hp : Path s.st i path) (hsvn : SvnsAlike (chainOf s.st path))
    (hdef : h = Handle.default → s.st.hasInitialized = true ∧ Sole s.st i)
    (h1 : c.call (simSend ((device L a cfg.profile).env cfg) loc addr) (.certifyKey h l 0 f) (some s) =
      (.ok (.key h' kx ky cert), some s1))
    (h2 : LeavesAncestry i s1.st s2.st) (hq : AsksSign cfg.profile k h' l q)
    (h3 : c'.call (simSend ((device L a cfg.profile).env cfg) loc addr') k (some s2) = (.ok v, x)) :
    Convinces V root cert q (v.answer cfg.profile) (reportOf s.st path) l := by
  obtain ⟨_, _, hd, hg, _, hsteady, _⟩ := C58_meets (cfg := cfg) (L := L) hL ha 0
  obtain ⟨j, n, out, r, h'', _, _, _, pk, rfl, rfl, e3, e4, e5, e6, e7, e8, _, he⟩ :=
    certify_call hL ha hb hs hc hst hal h1
  cases e5
  cases e4
  have hst2 : InService s2.st := by
    refine CallsWith.inService ?_ h2
    have := InService.step ((device L a cfg.profile).env cfg) (.certify j) loc s.st s.w out hst
    rw [he] at this
    exact this
  obtain ⟨j', n', out', r', sig, g1, g2, rfl, g4, g5, g6, he'⟩ := sign_call hL ha hb hs hc' hst2 hal' hq h3
  have hall := C74_certified (r := ⟨s.st, s.w, out⟩) (r' := r) (r'' := ⟨s2.st, s2.w, out'⟩) (r''' := r') (c' := j')
    hsteady hd hst hr hdef he h2 (by rw [g1]; exact e7) g2 he'
  obtain ⟨priv, pk', sig', k1, k2, k3, k4⟩ := hall
  obtain rfl := keyFields_inj (k2.symm.trans e8)
  obtain rfl := sigFields_inj (k4.symm.trans g5)
  obtain ⟨i', path', m1, m2, _, m3, m4⟩ := C43_certificate_partial (s := ⟨s.st, s.w, out⟩) hst hd e3 he
  obtain rfl := m1.unique hr
  obtain rfl := m2.unique hp
  obtain ⟨y, hy⟩ := Option.isSome_iff_exists.1 (m3 hsvn)
  obtain ⟨o1, o2, o3, _, o5, _⟩ := C44_certificate (s := ⟨s.st, s.w, out⟩) hst hd e3 he hy
  obtain ⟨tbs, asig, w, w', p1, _, p3⟩ := C45_certificate (s := ⟨s.st, s.w, out⟩) hst hd e3 he
  obtain ⟨p4, _, p5⟩ := p3 y hy
  obtain ⟨_, _, _, pk2, _, _, _, _, _, _, q1, q2, _⟩ := C25_certify (s := ⟨s.st, s.w, out⟩) hst hd he
  obtain rfl := keyFields_inj (q1.symm.trans k2)
  obtain ⟨ka, pka, r1, r2, rfl⟩ := hroot
  rw [← e6]
  refine ⟨y, hy, ?_, o1, o2, o3, ?_, m4 y hy, o5⟩
  · obtain ⟨⟨ka', t1, t2⟩, _⟩ := std_aliasSigned.1 p1
    rw [r1] at t1
    obtain rfl := Option.some.inj t1
    rw [p4, p5]
    exact hV _ _ _ _ _ r2 t2
  · rw [q2 y e3 hy, g6]
    exact hV _ _ _ _ _ (std_public.1 k1) (std_signed.1 k3)

/-- C76, with a certification request in a signed message instead of a certificate: the verifier checks the
message under the alias key and the request under its own key. -/
theorem C76_enrolled {V : Verifier} {root : Bytes} {h h' : Handle} {l kx ky msg : Bytes} {f : U32} {i : Nat}
    {path : List Nat} {q : SignData} {v : GoValue} {x : Option (Sys cfg _)}
    (hL : L.Total) (ha : a.Fit) (hb : Built cfg a) (hs : cfg.Standard) (hc : Connected L a cfg c)
    (hc' : Connected L a cfg c') (hV : V.Takes L) (hroot : Trusted L cfg.profile root)
    (hst : InService s.st) (hal : addr % 4 = 0) (hal' : addr' % 4 = 0)
    (hr : Resolves s.st h loc i) (hp : Path s.st i path) (hsvn : SvnsAlike (chainOf s.st path))
    (hdef : h = Handle.default → s.st.hasInitialized = true ∧ Sole s.st i)
    (h1 : c.call (simSend ((device L a cfg.profile).env cfg) loc addr) (.certifyKey h l 1 f) (some s) =
      (.ok (.key h' kx ky msg), some s1))
    (h2 : LeavesAncestry i s1.st s2.st) (hq : AsksSign cfg.profile k h' l q)
    (h3 : c'.call (simSend ((device L a cfg.profile).env cfg) loc addr') k (some s2) = (.ok v, x)) :
    Enrols V root msg q (v.answer cfg.profile) (reportOf s.st path) l := by
  obtain ⟨_, _, hd, hg, _, hsteady, _⟩ := C58_meets (cfg := cfg) (L := L) hL ha 0
  obtain ⟨j, n, out, r, h'', _, _, _, pk, rfl, rfl, e3, e4, e5, e6, e7, e8, _, he⟩ :=
    certify_call hL ha hb hs hc hst hal h1
  cases e5
  cases e4
  have hst2 : InService s2.st := by
    refine CallsWith.inService ?_ h2
    have := InService.step ((device L a cfg.profile).env cfg) (.certify j) loc s.st s.w out hst
    rw [he] at this
    exact this
  obtain ⟨j', n', out', r', sig, g1, g2, rfl, g4, g5, g6, he'⟩ := sign_call hL ha hb hs hc' hst2 hal' hq h3
  have hall := C74_certified (r := ⟨s.st, s.w, out⟩) (r' := r) (r'' := ⟨s2.st, s2.w, out'⟩) (r''' := r') (c' := j')
    hsteady hd hst hr hdef he h2 (by rw [g1]; exact e7) g2 he'
  obtain ⟨priv, pk', sig', k1, k2, k3, k4⟩ := hall
  obtain rfl := keyFields_inj (k2.symm.trans e8)
  obtain rfl := sigFields_inj (k4.symm.trans g5)
  obtain ⟨i', path', m, m1, m2, hm, _, m3, m4⟩ := C43_request_partial (s := ⟨s.st, s.w, out⟩) hst hd e3 he
  obtain rfl := m1.unique hr
  obtain rfl := m2.unique hp
  obtain ⟨y, hy⟩ := Option.isSome_iff_exists.1 (m3 hsvn)
  obtain ⟨o1, o2, o3, _, o5⟩ := C44_request (s := ⟨s.st, s.w, out⟩) hst hd e3 he hm hy
  obtain ⟨m', _, _, _, info, _, asig, _, _, _, w, w', p0, _, _, _, p1, p2, _⟩ :=
    C45_request (s := ⟨s.st, s.w, out⟩) hst hd e3 he
  obtain rfl := Option.some.inj (hm.symm.trans p0)
  obtain ⟨_, _, _, pk2, _, _, _, _, _, _, q1, _, q2⟩ := C25_certify (s := ⟨s.st, s.w, out⟩) hst hd he
  obtain rfl := keyFields_inj (q1.symm.trans k2)
  obtain ⟨priv2, pk3, sig2, u1, u2, u3, u4⟩ := C25_possession (r := ⟨s.st, s.w, out⟩) hd hst e3 he hm hy
  obtain ⟨ka, pka, r1, r2, rfl⟩ := hroot
  rw [← e6]
  refine ⟨m, y, hm, ?_, hy, ?_, o1, o2, o3, ?_, m4 y hy, o5⟩
  · obtain ⟨⟨ka', t1, t2⟩, _⟩ := std_aliasSigned.1 p1
    rw [r1] at t1
    obtain rfl := Option.some.inj t1
    rw [p2]
    exact hV _ _ _ _ _ r2 t2
  · rw [u2, u4]
    exact hV _ _ _ (.buffer _) _ (std_public.1 u1) (std_signed.1 u3)
  · rw [q2 m y e3 hm hy, g6]
    exact hV _ _ _ _ _ (std_public.1 k1) (std_signed.1 k3)

theorem kdf_same {p : Profile} {x y z u v : Bytes} (h : StdKdf L p x y z u) (h' : StdKdf L p x y z v) : u = v := by
  cases p <;> obtain ⟨a, h1, rfl⟩ := h <;> obtain ⟨b, h2, rfl⟩ := h' <;> rw [h1] at h2 <;> cases h2 <;> rfl

theorem SameEvidence.bytes {st st' : State cfg} {l l' : List Nat} (h : SameEvidence st l st' l') :
    measuredBytes a st l = measuredBytes a st' l' := by
  unfold measuredBytes contentBytes
  rw [h.info, h.dice, h.1, ← chunks_flatten, ← chunks_flatten, h.chunks]

theorem leafKey_same {st st' : State cfg} {l l' : List Nat} {label cdi priv cdi' priv' : Bytes}
    (h : SameEvidence st l st' l') (h1 : StdLeafKey L a st l label cdi priv)
    (h2 : StdLeafKey L a st' l' label cdi' priv') : priv = priv' := by
  obtain ⟨d, rfl, a1, a2⟩ := h1
  obtain ⟨d', rfl, b1, b2⟩ := h2
  rw [← h.bytes] at b1
  obtain rfl := kdf_same a1 b1
  exact kdf_same a2 b2

/-- C76: the client is not left without an answer.  If the context is not a simulation context, then after
the certification a well-formed call for a signature by the returned handle succeeds, unless the handle
is not the default handle and eight values of the generator in a row cannot serve as the next one. -/
theorem C76_available {h h' : Handle} {l kx ky cert : Bytes} {format f : U32} {i : Nat} {q : SignData}
    (hL : L.Total) (ha : a.Fit) (hb : Built cfg a) (hs : cfg.Standard) (hc : Connected L a cfg c)
    (hc' : Connected L a cfg c') (hst : InService s.st) (hal : addr % 4 = 0) (hal' : addr' % 4 = 0)
    (hr : Resolves s.st h loc i) (hn : (s.st.at i).ctype ≠ .simulation)
    (hdef : h = Handle.default → s.st.hasInitialized = true ∧ Sole s.st i)
    (h1 : c.call (simSend ((device L a cfg.profile).env cfg) loc addr) (.certifyKey h l format f) (some s) =
      (.ok (.key h' kx ky cert), some s1))
    (h2 : LeavesAncestry i s1.st s2.st) (hq : AsksSign cfg.profile k h' l q)
    (hw : ¬ Malformed cfg.profile k) (hk : ¬ Deadly cfg k) :
    (∃ v x, c'.call (simSend ((device L a cfg.profile).env cfg) loc addr') k (some s2) = (.ok v, x)) ∨
    (h' ≠ Handle.default ∧ ∃ r, Misses (L.crypto cfg.profile) s2.st 8 s2.w.1.rng r) := by
  obtain ⟨_, _, hd, hg, _, hsteady, _⟩ := C58_meets (cfg := cfg) (L := L) hL ha 0
  obtain ⟨j, n, out, r, h'', _, _, _, pk, rfl, rfl, e3, e4, e5, e6, e7, e8, _, he⟩ :=
    certify_call hL ha hb hs hc hst hal h1
  cases e5
  cases e4
  have hst2 : InService s2.st := by
    refine CallsWith.inService ?_ h2
    have := InService.step ((device L a cfg.profile).env cfg) (.certify j) loc s.st s.w out hst
    rw [he] at this
    exact this
  obtain ⟨q1, q2, q3⟩ := certified_kept (r := ⟨s.st, s.w, out⟩) (r' := r) (r'' := ⟨s2.st, s2.w, out⟩)
    hd hst hr hdef he h2 e7
  simp only at q1 q2 q3
  obtain ⟨cmd, hm, hin⟩ := ((C61_means hs k).resolve_left hw).resolve_left hk
  obtain ⟨y, rfl, g1, g2, g3⟩ := asks_means hq hm hin
  have hno : NoRefusal (rules s2.st loc (.sign y)) := by
    simp only [NoRefusal, rules, earlyRules, lateRules, lookupRules, List.cons_append, List.nil_append,
      List.append_nil, List.mem_cons, List.not_mem_nil, or_false, forall_eq_or_imp, forall_eq]
    rw [g1, named_iff q1]
    refine ⟨?_, ?_, ?_, by rw [q2]; exact hn⟩
    · cases y with
      | mldsa87Raw a b c d e => exact fun h => absurd hin.2.2 (Nat.not_le.2 h)
      | _ => exact id
    · exact fun h => h ⟨_, q1.1.1, q1.1.2.2⟩
    · exact fun h => h ⟨_, q1.1⟩
  by_cases hf : ∃ f, StdFails L a s2.st loc s2.w.1 (List.replicate 35392 0) (.sign y) f
  · right
    obtain ⟨f, i', path, cdi, priv, a1, a2, a3, a4⟩ := hf
    rw [g1] at a1
    obtain rfl := q1.unique a1
    obtain ⟨i1, path1, cdi1, priv1, pk1, b1, b2, b3, b4, b5⟩ := C66_certify (s := ⟨s.st, s.w, out⟩) hL ha hb hst he
    obtain rfl := hr.unique b1
    obtain ⟨c1, c2⟩ := q3 _ b2
    obtain rfl := c1.unique a2
    rw [g2] at a3
    obtain rfl := leafKey_same c2 b3 a3
    rcases a4 with ⟨a4, _⟩ | ⟨_, a4, _⟩ | ⟨_, _, r, ⟨a5, a6⟩, _⟩
    · exact absurd ⟨_, b4⟩ a4
    · refine absurd ?_ a4
      cases y with
      | p256 => exact fun h => by cases h.symm.trans (show cfg.profile = .p256 from hin)
      | p384 => exact fun h => by cases h.symm.trans (show cfg.profile = .p384 from hin)
      | mldsa87 => exact hin.1
      | mldsa87Raw => trivial
    · rw [q1.1.2.1] at a5
      exact ⟨a5, r, a6⟩
  · left
    obtain ⟨reply, st', w', hs'⟩ := (C67_dichotomy (s := ⟨s2.st, s2.w, List.replicate 35392 0⟩) (c := .sign y) hL ha hb
      hst2 (by rw [List.length_replicate]; exact Nat.le_refl _) hno).2 hf
    have hsv := (std_iff ha hb hL hno s2.w reply st' (w', ())).2 hs'
    have hlen : reply.length ≤ (Cmd.sign (cfg := cfg) y).respKind.size cfg := by
      obtain ⟨_, _, _, priv, sig, hd, _, _, _, _, k1, _, _, _, rfl⟩ := hs'
      have hsig := (hL.sound cfg.profile).sigOf (std_signed.2 k1)
      have h12 : (successBytes cfg.profile).length = 12 := by cases cfg.profile <;> rfl
      cases y with
      | p256 =>
        rw [show cfg.profile = .p256 from hin] at hsig h12 ⊢
        cases sig <;> first | exact hsig.elim | simp [signReply, h12, sigFields, Cmd.respKind, RespKind.size]
      | p384 =>
        rw [show cfg.profile = .p384 from hin] at hsig h12 ⊢
        cases sig <;> first | exact hsig.elim | simp [signReply, h12, sigFields, Cmd.respKind, RespKind.size]
      | mldsa87 =>
        rw [show cfg.profile = .mldsa87 from hin.1] at hsig h12 ⊢
        cases sig <;> first | exact hsig.elim | simp [signReply, h12, sigFields, Cmd.respKind, RespKind.size]
      | mldsa87Raw =>
        rw [show cfg.profile = .mldsa87 from hin.1] at hsig h12 ⊢
        cases sig <;> first | exact hsig.elim | simp [signReply, h12, sigFields, Cmd.respKind, RespKind.size]
    obtain ⟨v, hv, _⟩ := C61_served hL ha hb hs hc' hst2 hal' hm hin ⟨hno, hsv, hlen⟩
    exact ⟨v, _, hv⟩

/-- C76: the public key that the client returns is the one in the certificate or request. -/
theorem C76_key {h : Handle} {l kx ky cert : Bytes} {format f : U32} {h' : Handle} {x : Option (Sys cfg _)}
    (hL : L.Total) (ha : a.Fit) (hb : Built cfg a) (hs : cfg.Standard) (hc : Connected L a cfg c)
    (hst : InService s.st) (hal : addr % 4 = 0)
    (h1 : c.call (simSend ((device L a cfg.profile).env cfg) loc addr) (.certifyKey h l format f) (some s) =
      (.ok (.key h' kx ky cert), x)) :
    (∀ y, format = 0 → readCert cert = some y → y.key = (GoValue.key h' kx ky cert).keyInfo cfg.profile) ∧
    (∀ m y, format = 1 → readMessage cert = some m → readRequest m.content = some y →
      y.key = (GoValue.key h' kx ky cert).keyInfo cfg.profile) := by
  obtain ⟨_, _, hd, hg, _, hsteady, _⟩ := C58_meets (cfg := cfg) (L := L) hL ha 0
  obtain ⟨j, n, out, r, h'', _, _, _, pk, rfl, rfl, e3, e4, e5, e6, e7, e8, e9, he⟩ :=
    certify_call hL ha hb hs hc hst hal h1
  cases e5
  obtain ⟨_, _, _, pk2, _, _, _, _, _, _, q1, q2, q3⟩ := C25_certify (s := ⟨s.st, s.w, out⟩) hst hd he
  obtain rfl := keyFields_inj (q1.symm.trans e8)
  rw [e9, ← e6, ← e3]
  exact ⟨q2, q3⟩

end

namespace Ref

/-- The strictest check: the signature is one that the crates make with a private key of this public key. -/
def strict : Verifier := fun key d sig => ∃ p priv pk s, StdPublic lib p priv pk ∧ StdSigned lib p priv d s ∧
  key = (keyInfo p pk).der ∧ sig = sigContents s

theorem strict_takes : strict.Takes lib := fun p priv pk _ s h h' => ⟨p, priv, pk, s, h, h', rfl, rfl⟩

theorem talked {y : U32} (ht : talk y derived = true) : ∃ c s h l s1 kx ky h' crt v x, Connected lib cert std c ∧ InService s.st ∧ derived h s.st = true ∧
    l = List.replicate 32 1 ∧ c.call wires (.certifyKey h l y 0) (some s) = (.ok (.key h' kx ky crt), some s1) ∧
    c.call wires (.sign h' l 0 (List.replicate 32 5)) (some s1) = (.ok v, x) := by
  unfold talk at ht
  obtain ⟨s0, hs0, hr0, _⟩ := C59_start (cfg := std) (L := lib) (a := cert) features.args
  rw [hs0] at ht
  split at ht
  case h_2 => cases ht
  rename_i c s1 hc
  have hcon : Connected lib cert std c := ⟨_, _, _, _, _, .reached hr0, (by decide), hc⟩
  have hs1 : InService s1.st := by
    obtain ⟨c', h1, _⟩ := (C62_connects_partial (loc := 3) (addr := 8) lib_total cert_fit std_built std_standard
      (.reached hr0) (by decide) 3).1 rfl
    have := h1.symm.trans hc
    injection this with _ e
    injection e with e
    rw [← e]; exact .reached hr0
  split at ht
  case h_2 => cases ht
  rename_i v2 s2 hc2
  have hs2 := call_inService lib_total cert_fit std_built std_standard hcon hs1 (by decide) hc2
  split at ht
  case h_2 => cases ht
  rename_i h _ _ _ _ s3 hc3
  have hs3 := call_inService lib_total cert_fit std_built std_standard hcon hs2 (by decide) hc3
  rw [Bool.and_eq_true] at ht
  obtain ⟨hp, ht⟩ := ht
  split at ht
  case h_2 => cases ht
  rename_i h' kx ky crt s4 hc4
  split at ht
  case h_2 => cases ht
  rename_i v x hc5
  exact ⟨c, s3, h, _, s4, kx, ky, h', crt, v, x, hcon, hs3, hp, rfl, hc4, hc5⟩

theorem derived_facts {h : Handle} {st : State std} (hd : derived h st = true) :
    Resolves st h 3 1 ∧ Path st 1 [1, 0] ∧ h ≠ Handle.default ∧ (st.at 1).ctype ≠ .simulation ∧
      SvnsAlike (chainOf st [1, 0]) ∧ (st.at 1).tci.current.toList = List.replicate 32 7 ∧ (st.at 0).tci.current.toList = List.replicate 32 0 := by
  simp only [derived, Bool.and_eq_true, beq_iff_eq, bne_iff_ne] at hd
  obtain ⟨⟨⟨⟨⟨⟨⟨⟨⟨d1, d2⟩, d3⟩, d4⟩, d5⟩, d6⟩, d7⟩, d8⟩, d9⟩, d10⟩ := hd
  have hr : Resolves st h 3 1 := by
    split at d1
    · rename_i i hi
      rw [beq_iff_eq] at d1
      subst d1
      exact findActive_iff.1 hi
    · cases d1
  have hp : Path st 1 [1, 0] := by
    refine .step (by unfold Live; rw [hr.1.1]; decide) (by rw [d3]; decide) ?_
    rw [d3]
    exact .root d5 d4
  refine ⟨hr, hp, d2, d10, ?_, d8, d9⟩
  intro t ht u hu
  simp only [chainOf, List.reverse_cons, List.reverse_nil, List.nil_append, List.cons_append, List.map_cons,
    List.map_nil, List.mem_cons, List.not_mem_nil, or_false] at ht hu
  rcases ht with rfl | rfl <;> rcases hu with rfl | rfl <;> simp only [d6, d7]

/-- The alias key. -/
def root : Bytes := (keyInfo std.profile (.p256 (pad 32 [1, 2, 3]) (pad 32 [1, 2, 3]))).der

theorem root_trusted : Trusted lib std.profile root := ⟨[1, 2, 3], _, rfl, ⟨_, rfl, rfl⟩, rfl⟩

/-- The verifier is convinced that it talks to a context that has measured 32 sevens. -/
example : ∃ crt answer x y,
    Convinces strict root crt (.digest (List.replicate 32 5)) answer [x, y] (List.replicate 32 1) ∧
    x.fwids = [(hashArcs .p256, List.replicate 32 0)] ∧ y.fwids = [(hashArcs .p256, List.replicate 32 7)] := by
  obtain ⟨c, s, h, l, s1, kx, ky, h', crt, v, x, hcon, hst, hd, rfl, h1, h2⟩ := talked talked0
  obtain ⟨hr, hp, hne, _, hsv, d8, d9⟩ := derived_facts hd
  have hA := C76_attested lib_total cert_fit std_built std_standard hcon hcon strict_takes root_trusted hst
    (by decide) (by decide) hr hp hsv (fun e => absurd e hne) h1 .refl (.digest _ _ _ _ (by decide)) h2
  refine ⟨_, _, _, _, hA, ?_, ?_⟩
  · simp only [reported, d9]
    rfl
  · simp only [reported, d8]
    rfl

/-- The same with a certification request. -/
example : ∃ msg answer x y,
    Enrols strict root msg (.digest (List.replicate 32 5)) answer [x, y] (List.replicate 32 1) ∧
    y.fwids = [(hashArcs .p256, List.replicate 32 7)] := by
  obtain ⟨c, s, h, l, s1, kx, ky, h', crt, v, x, hcon, hst, hd, rfl, h1, h2⟩ := talked talked1
  obtain ⟨hr, hp, hne, _, hsv, d8, d9⟩ := derived_facts hd
  have hA := C76_enrolled lib_total cert_fit std_built std_standard hcon hcon strict_takes root_trusted hst
    (by decide) (by decide) hr hp hsv (fun e => absurd e hne) h1 .refl (.digest _ _ _ _ (by decide)) h2
  refine ⟨_, _, _, _, hA, ?_⟩
  simp only [reported, d8]
  rfl

/-- The certificate of that session reads, and its key is the one that the client returned. -/
example : ∃ h' kx ky crt y, readCert crt = some y ∧ y.key = (GoValue.key h' kx ky crt).keyInfo .p256 := by
  obtain ⟨c, s, h, l, s1, kx, ky, h', crt, v, x, hcon, hst, hd, rfl, h1, h2⟩ := talked talked0
  obtain ⟨hr, hp, hne, _, hsv, d8, d9⟩ := derived_facts hd
  obtain ⟨y, hy, _⟩ := C76_attested lib_total cert_fit std_built std_standard hcon hcon strict_takes root_trusted hst
    (by decide) (by decide) hr hp hsv (fun e => absurd e hne) h1 .refl (.digest _ _ _ _ (by decide)) h2
  exact ⟨h', kx, ky, crt, y, hy,
    (C76_key lib_total cert_fit std_built std_standard hcon hst (by decide) h1).1 y rfl hy⟩

theorem lands_not_misses {cfg : Cfg} {P : Prims} {st : State cfg} {n : Nat} {r r' r'' : P.Rng} {h : Handle} (h1 : Lands P st n r h r')
    (h2 : Misses P st n r r'') : False := by
  induction h1 with
  | hit h3 => cases h2 with | miss h4 => exact h4 h3
  | miss _ _ ih => cases h2 with | miss _ h4 => exact ih h4

/-- Every digest of the right length would be signed in that session, not only the one that was. -/
example : ∃ (c : Client) (s : Sys std (Soft (lib.crypto std.profile) × Unit)) (h' : Handle),
    ∀ d : Bytes, d.length = 32 →
      ∃ v x, c.call wires (.sign h' (List.replicate 32 1) 0 d) (some s) = (.ok v, x) := by
  obtain ⟨c, s, h, l, s1, kx, ky, h', crt, v, x, hcon, hst, hd, rfl, h1, h2⟩ := talked talked0
  have hst1 := call_inService lib_total cert_fit std_built std_standard hcon hst (by decide) h1
  obtain ⟨hr, hp, hne, hn, hsv, d8, d9⟩ := derived_facts hd
  refine ⟨c, s1, h', fun d hl => ?_⟩
  have := C76_available (addr := 8) (addr' := 8) lib_total cert_fit std_built std_standard hcon hcon hst rfl rfl hr hn
    (fun e => absurd e hne) h1 .refl (.digest h' (List.replicate 32 1) 0 d (by decide)) (by
      rintro (h | h)
      · exact h List.length_replicate
      · exact h hl) (by rintro ⟨h, _⟩; cases h)
  refine this.resolve_right ?_
  rintro ⟨hnd, r, hm⟩
  obtain ⟨j, n, out, y, sig, rfl, _, _, _, _, _, he⟩ := sign_call (addr := 8) lib_total cert_fit std_built std_standard
    hcon hst1 rfl (.digest _ _ _ _ (by decide)) h2
  obtain ⟨_, _, _, _, hs', _⟩ := (C66_exact (s := ⟨s1.st, s1.w, out⟩) lib_total cert_fit std_built hst1).1 he
  obtain ⟨_, _, _, _, _, _, _, a1, _, _, _, a2, _⟩ := hs'
  rcases a2 with ⟨a2, _⟩ | ⟨_, a2⟩
  · exact hnd (a1.1.2.1.symm.trans a2)
  · exact lands_not_misses a2 hm

end Ref
end Dpe
