import Verif.Spec.Session
import Verif.Props.Flow
import Verif.Props.Reboot
import Verif.Examples.Session1
/-
C86: while a context is only used, it has the same keys, certificates and signatures.
-/
namespace Dpe
section
variable {cfg : Cfg} {L : Lib} {a : Artifact} {c c' : Client} {loc : U32} {addr addr' : Nat} {i : Nat} {path : List Nat}
  {h h1 h2 h' h'' : Handle} {k : GoCall} {s s1 s2 s3 : Sys cfg (Soft (L.crypto cfg.profile) × Unit)}

theorem call_failed (hL : L.Total) (ha : a.Fit) (hb : Built cfg a) (hs : cfg.Standard) (hc : Connected L a cfg c)
    (hst : InService s.st) (hal : addr % 4 = 0) {e : ClErr} (hk : ∀ h d y, k ≠ .update h d y)
    (h : c.call (simSend ((device L a cfg.profile).env cfg) loc addr) k (some s) = (.error e, some s1)) :
    s1.st = s.st := by
  by_cases hm : Malformed cfg.profile k
  · obtain ⟨e', _, h'⟩ := C61_malformed hL ha hb hs hc (simSend ((device L a cfg.profile).env cfg) loc addr) (some s) hm
    rw [h] at h'
    injection h' with _ h'
    injection h' with h'
    rw [h']
  rcases C61_means hs k with h' | h' | ⟨cmd, h1, h2⟩
  · exact absurd h' hm
  · have := C61_deadly (addr := addr) (loc := loc) hL ha hb hs hc hst hm h'
    rw [h] at this
    injection this with _ this
    cases this
  · by_cases hx : ∃ reply st' w', Succeeds (device L a cfg.profile) s.st loc s.w cmd reply st' w'
    · obtain ⟨reply, st', w', hx⟩ := hx
      obtain ⟨v', h3, h4⟩ := C61_served hL ha hb hs hc hst hal h1 h2 hx
      rw [h] at h3
      injection h3 with h3 _
      cases h3
    · obtain ⟨e', s', h3, _, _, h5⟩ := C61_failed hL ha hb hs hc hst hal h1 h2 hx
      rw [h] at h3
      injection h3 with _ h3
      injection h3 with h3
      rw [h3]
      rcases h5 with h5 | ⟨u, rfl, _⟩
      · exact h5
      · cases h1
        exact absurd rfl (hk _ _ _)

/-- A context that only got another handle is measured as before. -/
theorem set_evidence {st st' : State cfg} {hd : Handle} (hset : SetSlot st i { st.at i with handle := hd } st')
    (hp : Path st i path) : Path st' i path ∧ SameEvidence st path st' path ∧ st'.flags = st.flags := by
  obtain ⟨e1, e2, e3⟩ := hset
  refine ⟨hp.transfer (P := fun _ => True) (fun k hk _ => ?_) trivial, ⟨e3.1.2.2.1.symm, ?_⟩, e3.1.2.2.2⟩
  · unfold Live at hk ⊢
    by_cases hki : k = i
    · subst hki; rw [e1]; exact ⟨hk, rfl, fun _ => trivial⟩
    · rw [e2 k hki]; exact ⟨hk, rfl, fun _ => trivial⟩
  · refine List.map_congr_left fun j _ => ?_
    by_cases hji : j = i
    · subst hji; rw [e1]; rfl
    · rw [e2 j hji]

/-- What a successful use does. -/
theorem used {v : GoValue} (hL : L.Total) (ha : a.Fit) (hb : Built cfg a) (hs : cfg.Standard)
    (hc : Connected L a cfg c) (hf : Firm s.st h loc i) (hal : addr % 4 = 0) (hk : UsesOnly k h)
    (hcall : c.call (simSend ((device L a cfg.profile).env cfg) loc addr) k (some s) = (.ok v, some s1))
    (hv : v.newHandle = some h') :
    Firm s1.st h' loc i ∧ SetSlot s.st i { s.st.at i with handle := h' } s1.st := by
  have hst1 := call_inService hL ha hb hs hc hf.serves hal hcall
  obtain ⟨cmd, reply, st', w', hm, hin, hans, hx, he⟩ := call_ok hL ha hb hs hc hf.serves hal hcall
  cases hx
  obtain ⟨hs', heff, hrep⟩ :=
    C52_success_effect (s := ⟨s.st, s.w, List.replicate reply.length 0⟩) hf.serves (digests_true _) he
  simp only at heff hrep
  have hw : ∃ rest, reply = successBytes cfg.profile ++ h'.toList ++ rest := by
    cases hk with
    | certify =>
      obtain ⟨hh, key, cert, _, g1, g2⟩ := hans
      have : v.newHandle = some hh := by cases key <;> rw [g2] <;> rfl
      obtain rfl := Option.some.inj (hv.symm.trans this)
      exact ⟨_, by rw [g1, certifyReply, List.append_assoc, List.append_assoc]⟩
    | sign =>
      obtain ⟨hh, sig, _, g1, g2⟩ := hans
      have : v.newHandle = some hh := by cases sig <;> rw [g2] <;> rfl
      obtain rfl := Option.some.inj (hv.symm.trans this)
      exact ⟨_, g1⟩
    | signRaw =>
      obtain ⟨hh, sig, _, g1, g2⟩ := hans
      have : v.newHandle = some hh := by cases sig <;> rw [g2] <;> rfl
      obtain rfl := Option.some.inj (hv.symm.trans this)
      exact ⟨_, g1⟩
    | rotate =>
      obtain ⟨hh, g1, g2⟩ := hans
      have : v.newHandle = some hh := by rw [g2]; rfl
      obtain rfl := Option.some.inj (hv.symm.trans this)
      exact ⟨[], by rw [g1]; simp [handlesReply]⟩
  have hat : ∀ x, hs' = [x] → x = h' := by
    rintro x rfl
    obtain ⟨rest, hw⟩ := hw
    have h1 := hrep.at (k := 0) (x := x) rfl
    have h2 : RepliesWith cfg.profile [h'] reply := ⟨rest, by rw [hw]; cases cfg.profile <;> simp [successBytes]⟩
    exact Vector.toList_inj.1 (h1.symm.trans (h2.at (k := 0) (x := h') rfl))
  have use : ∀ hh, UseEffect s.st h loc hh st' → hh = h' →
      Firm st' h' loc i ∧ SetSlot s.st i { s.st.at i with handle := h' } st' := by
    rintro hh ⟨i', u1, u2, u3⟩ rfl
    obtain rfl := u1.unique hf.resolves
    exact ⟨firm_next (c := { s.st.at i' with handle := hh }) hst1 hf.resolves (fun e => ⟨hf.init e, hf.sole⟩) u2
      ⟨rfl, rfl, rfl⟩ u3, u3⟩
  cases hk with
  | certify => cases hm <;> (obtain ⟨hh, e1, e2⟩ := heff; exact use hh e2 (hat hh e1))
  | sign => cases hm <;> (obtain ⟨hh, e1, e2⟩ := heff; exact use hh e2 (hat hh e1))
  | signRaw => cases hm; obtain ⟨hh, e1, e2⟩ := heff; exact use hh e2 (hat hh e1)
  | rotate _ _ hnd =>
    cases hm
    obtain ⟨hh, e1, i', u1, u2, u3⟩ := heff
    obtain rfl := u1.unique hf.resolves
    obtain rfl := hat hh e1
    rcases u3 with ⟨g, _⟩ | ⟨_, hun⟩
    · exact absurd g hnd
    have hname : Names st' hh loc i' := by
      unfold Names
      rw [u2.1]
      exact ⟨hf.resolves.1.1, rfl, hf.resolves.1.2.2⟩
    have hso : Sole st' i' := by
      intro j hj hsn
      refine Classical.byContradiction fun hne => ?_
      unfold SameName at hsn
      rw [u2.1, u2.2.1 j hne] at hsn
      rw [u2.2.1 j hne] at hj
      exact hun.2 j (active_at hj) hsn.1
    exact ⟨⟨hst1, resolves_of_sole hname hso, hso, fun e => absurd e hun.1⟩, u2⟩

theorem inUse_kept (hL : L.Total) (ha : a.Fit) (hb : Built cfg a) (hs : cfg.Standard) (hf : Firm s.st h loc i)
    (hp : Path s.st i path) (hu : InUse L a loc i s h s1 h1) :
    Firm s1.st h1 loc i ∧ Path s1.st i path ∧ SameEvidence s.st path s1.st path ∧ s1.st.flags = s.st.flags := by
  induction hu with
  | start => exact ⟨hf, hp, ⟨rfl, rfl⟩, rfl⟩
  | use _ hc hal hk hcall hv ih =>
    obtain ⟨f1, p1, e1, g1⟩ := ih
    obtain ⟨f2, hset⟩ := used hL ha hb hs hc f1 hal hk hcall hv
    obtain ⟨p2, e2, g2⟩ := set_evidence hset p1
    exact ⟨f2, p2, ⟨e1.1.trans e2.1, e1.2.trans e2.2⟩, g2.trans g1⟩
  | @failed s1 s2 h1 c addr k e _ hc hal hk hcall ih =>
    obtain ⟨f1, p1, e1, g1⟩ := ih
    have : s2.st = s1.st := call_failed hL ha hb hs hc f1.serves hal (by rintro _ _ _ rfl; cases hk) hcall
    rw [this]
    exact ⟨f1, p1, e1, g1⟩
  | others _ hl ih =>
    obtain ⟨f1, p1, e1, g1⟩ := ih
    obtain ⟨f2, _, _⟩ := f1.kept (hl.mono fun _ _ _ h => h.1)
    obtain ⟨p2, e2⟩ := C74_ancestry f1.serves f1.resolves.1.1 p1 hl
    exact ⟨f2, p2, ⟨e1.1.trans e2.1, e1.2.trans e2.2⟩,
      (C21_config_history f1.serves hl.calls).1.2.2.2.trans g1⟩

/-- What a client gets from CertifyKey, in terms of the crates. -/
theorem certify_std {l : Bytes} {format f : U32} {v : GoValue} {x : Option (Sys cfg _)}
    (hL : L.Total) (ha : a.Fit) (hb : Built cfg a) (hs : cfg.Standard) (hc : Connected L a cfg c)
    (hst : InService s.st) (hal : addr % 4 = 0) (hr : Resolves s.st h loc i) (hp : Path s.st i path)
    (hcall : c.call (simSend ((device L a cfg.profile).env cfg) loc addr) (.certifyKey h l format f) (some s) =
      (.ok v, x)) :
    ∃ h' cdi priv pk D cert, StdLeafKey L a s.st path l cdi priv ∧ StdPublic L cfg.profile priv pk ∧
      StdDraft L a s.st i path pk D ∧
      ((format = 0 ∧ StdCertificate L a s.st (leafArgs s.st h loc l) .leafX509 D cert) ∨
        (format = 1 ∧ StdRequest L s.st (leafArgs s.st h loc l) priv D cert)) ∧
      v = match pk with
        | .p256 x y => .key h' x.toList y.toList cert
        | .p384 x y => .key h' x.toList y.toList cert
        | .mldsa k => .key h' k.toList (List.replicate 2592 0) cert := by
  obtain ⟨cmd, reply, st', w', hm, hin, hans, rfl, he⟩ := call_ok hL ha hb hs hc hst hal hcall
  obtain ⟨h', pk, cert, hk, hrep, hv⟩ := hans
  obtain ⟨k, rfl, rfl, rfl, rfl, e4⟩ : ∃ k : CertifyCmd, cmd = .certify k ∧ k.handle = h ∧ k.label = l ∧
      k.format = format ∧ k.variant = cfg.profile := by
    cases hm with
    | certify256 h l y f => exact ⟨_, rfl, rfl, rfl, rfl, hin.symm⟩
    | certify384 h l y f => exact ⟨_, rfl, rfl, rfl, rfl, hin.symm⟩
    | certifyMl h l y f => exact ⟨_, rfl, rfl, rfl, rfl, hin.symm⟩
  obtain ⟨_, reply', st1, w1, hserve, _, hn, hs'⟩ :=
    (C66_exact (s := ⟨s.st, s.w, List.replicate reply.length 0⟩) hL ha hb hst).1 he
  have hrr : reply = reply' := by
    have := congrArg Sys.out hs'
    simp only at this
    rw [hn] at this
    simpa using this
  obtain ⟨i', path', cdi, priv, pk', D, cert', hd, r, a1, a2, a3, a4, a5, a6, a7, _, _, _, hrep'⟩ := hserve
  obtain rfl := a1.unique hr
  obtain rfl := a2.unique hp
  have hw : k.wants pk := (wants_iff hk).2 e4
  have hw' : k.wants pk' := (wants_iff ((hL.sound cfg.profile).pubOf (std_public.2 a4))).2 a6
  have hsame : certifyReply cfg.profile h' pk cert = certifyReply cfg.profile hd pk' cert' := by
    rw [← hrep, hrr, hrep']
  obtain rfl : pk = pk' := by
    have b1 := keyIn_reply (p := cfg.profile) (hd := h') (cert := cert) (rest := []) hw
    have b2 := keyIn_reply (p := cfg.profile) (hd := hd) (cert := cert') (rest := []) hw'
    rw [hsame] at b1
    exact keyFields_inj (b1.symm.trans b2)
  obtain rfl : cert = cert' := by
    have b1 := certIn_reply (p := cfg.profile) (hd := h') (cert := cert) (rest := []) hw
    have b2 := certIn_reply (p := cfg.profile) (hd := hd) (cert := cert') (rest := []) hw
    rw [hsame] at b1
    exact b1.symm.trans b2
  exact ⟨h', cdi, priv, pk, D, cert, a3, a4, a5, a7, hv⟩

/-- What a client gets signed, in terms of the crates. -/
theorem sign_std {l : Bytes} {q : SignData} {v : GoValue} {x : Option (Sys cfg _)}
    (hL : L.Total) (ha : a.Fit) (hb : Built cfg a) (hs : cfg.Standard) (hc : Connected L a cfg c)
    (hst : InService s.st) (hal : addr % 4 = 0) (hr : Resolves s.st h loc i) (hp : Path s.st i path)
    (hq : AsksSign cfg.profile k h l q)
    (hcall : c.call (simSend ((device L a cfg.profile).env cfg) loc addr) k (some s) = (.ok v, x)) :
    ∃ cdi priv sig, StdLeafKey L a s.st path l cdi priv ∧ StdSigned L cfg.profile priv q sig ∧
      v.answer cfg.profile = sigContents sig := by
  obtain ⟨j, n, out, r, sig, rfl, rfl, rfl, _, e5, e6, he⟩ := sign_call hL ha hb hs hc hst hal hq hcall
  obtain ⟨i', path', cdi, priv, sig', a1, a2, a3, a4, a5⟩ := C66_sign (s := ⟨s.st, s.w, out⟩) hL ha hb hst he
  obtain rfl := a1.unique hr
  obtain rfl := a2.unique hp
  obtain rfl := sigFields_inj (a5.symm.trans e5)
  exact ⟨cdi, priv, sig', a3, a4, e6⟩

/-! ### C86 -/

/-- C86: at any two times of use, CertifyKey returns the same key and the same certificate or request for the same
label. -/
theorem C86_certified {l kx ky kx' ky' cert cert' : Bytes} {format f f' : U32} {x x' : Option (Sys cfg _)}
    (hL : L.Total) (ha : a.Fit) (hb : Built cfg a) (hs : cfg.Standard)
    (hst : InService s.st) (hr : Resolves s.st h loc i) (hso : Sole s.st i)
    (hin : h = Handle.default → s.st.hasInitialized = true)
    (hu1 : InUse L a loc i s h s1 h1) (hu2 : InUse L a loc i s h s2 h2)
    (hc : Connected L a cfg c) (hc' : Connected L a cfg c') (hal : addr % 4 = 0) (hal' : addr' % 4 = 0)
    (hcall1 : c.call (simSend ((device L a cfg.profile).env cfg) loc addr) (.certifyKey h1 l format f) (some s1) =
      (.ok (.key h' kx ky cert), x))
    (hcall2 : c'.call (simSend ((device L a cfg.profile).env cfg) loc addr') (.certifyKey h2 l format f') (some s2) =
      (.ok (.key h'' kx' ky' cert'), x')) :
    kx = kx' ∧ ky = ky' ∧ cert = cert' := by
  obtain ⟨path, hp⟩ := hst.wf.path i (by unfold Live; rw [hr.1.1]; decide)
  obtain ⟨f1, p1, e1, g1⟩ := inUse_kept hL ha hb hs ⟨hst, hr, hso, hin⟩ hp hu1
  obtain ⟨f2, p2, e2, g2⟩ := inUse_kept hL ha hb hs ⟨hst, hr, hso, hin⟩ hp hu2
  have he : SameEvidence s1.st path s2.st path := ⟨e1.1.symm.trans e2.1, e1.2.symm.trans e2.2⟩
  obtain ⟨_, _, priv, pk, D, crt, a1, a2, a3, a4, a5⟩ := certify_std hL ha hb hs hc f1.serves hal f1.resolves p1 hcall1
  obtain ⟨_, _, _, pk', D', crt', b1, b2, b3, b4, b5⟩ := certify_std hL ha hb hs hc' f2.serves hal' f2.resolves p2 hcall2
  obtain rfl := leafKey_same he a1 b1
  obtain rfl := public_same a2 b2
  have hcrit : marksCritical s1.st = marksCritical s2.st := by unfold marksCritical; rw [g1, g2]
  obtain rfl : crt = crt' := by
    rcases a4 with ⟨f0, a7⟩ | ⟨f0, a7⟩ <;> rcases b4 with ⟨f1, b7⟩ | ⟨f1, b7⟩
    · exact certificate_same (x := leafArgs s1.st h1 loc l) (x' := leafArgs s2.st h2 loc l) he a3 b3 rfl hcrit a7 b7
    · rw [f1] at f0; exact absurd f0 (by decide)
    · rw [f1] at f0; exact absurd f0 (by decide)
    · exact request_same (x := leafArgs s1.st h1 loc l) (x' := leafArgs s2.st h2 loc l) he a3 b3 rfl hcrit a7 b7
  cases pk <;> cases a5 <;> cases b5 <;> exact ⟨rfl, rfl, rfl⟩

/-- C86: at any two times of use, the signature is the same for the same label and data. -/
theorem C86_signed {k' : GoCall} {l : Bytes} {q : SignData} {v v' : GoValue} {x x' : Option (Sys cfg _)}
    (hL : L.Total) (ha : a.Fit) (hb : Built cfg a) (hs : cfg.Standard)
    (hst : InService s.st) (hr : Resolves s.st h loc i) (hso : Sole s.st i)
    (hin : h = Handle.default → s.st.hasInitialized = true)
    (hu1 : InUse L a loc i s h s1 h1) (hu2 : InUse L a loc i s h s2 h2)
    (hc : Connected L a cfg c) (hc' : Connected L a cfg c') (hal : addr % 4 = 0) (hal' : addr' % 4 = 0)
    (hq : AsksSign cfg.profile k h1 l q) (hq' : AsksSign cfg.profile k' h2 l q)
    (hcall1 : c.call (simSend ((device L a cfg.profile).env cfg) loc addr) k (some s1) = (.ok v, x))
    (hcall2 : c'.call (simSend ((device L a cfg.profile).env cfg) loc addr') k' (some s2) = (.ok v', x')) :
    v.answer cfg.profile = v'.answer cfg.profile := by
  obtain ⟨path, hp⟩ := hst.wf.path i (by unfold Live; rw [hr.1.1]; decide)
  obtain ⟨f1, p1, e1, _⟩ := inUse_kept hL ha hb hs ⟨hst, hr, hso, hin⟩ hp hu1
  obtain ⟨f2, p2, e2, _⟩ := inUse_kept hL ha hb hs ⟨hst, hr, hso, hin⟩ hp hu2
  have he : SameEvidence s1.st path s2.st path := ⟨e1.1.symm.trans e2.1, e1.2.symm.trans e2.2⟩
  obtain ⟨_, priv, sig, a1, a2, a3⟩ := sign_std hL ha hb hs hc f1.serves hal f1.resolves p1 hq hcall1
  obtain ⟨_, _, sig', b1, b2, b3⟩ := sign_std hL ha hb hs hc' f2.serves hal' f2.resolves p2 hq' hcall2
  obtain rfl := leafKey_same he a1 b1
  obtain rfl := signed_same a2 b2
  rw [a3, b3]

/-- C86: whatever is signed at any time of use verifies with the key that CertifyKey returns for that label at any
time of use. -/
theorem C86_verifies {V : Verifier} {l kx ky cert : Bytes} {format f : U32} {q : SignData} {v : GoValue}
    {x x' : Option (Sys cfg _)}
    (hL : L.Total) (ha : a.Fit) (hb : Built cfg a) (hs : cfg.Standard) (hV : V.Takes L)
    (hst : InService s.st) (hr : Resolves s.st h loc i) (hso : Sole s.st i)
    (hin : h = Handle.default → s.st.hasInitialized = true)
    (hu1 : InUse L a loc i s h s1 h1) (hu2 : InUse L a loc i s h s2 h2)
    (hc : Connected L a cfg c) (hc' : Connected L a cfg c') (hal : addr % 4 = 0) (hal' : addr' % 4 = 0)
    (hcall1 : c.call (simSend ((device L a cfg.profile).env cfg) loc addr) (.certifyKey h1 l format f) (some s1) =
      (.ok (.key h' kx ky cert), x))
    (hq : AsksSign cfg.profile k h2 l q)
    (hcall2 : c'.call (simSend ((device L a cfg.profile).env cfg) loc addr') k (some s2) = (.ok v, x')) :
    V ((GoValue.key h' kx ky cert).keyInfo cfg.profile) q (v.answer cfg.profile) := by
  obtain ⟨path, hp⟩ := hst.wf.path i (by unfold Live; rw [hr.1.1]; decide)
  obtain ⟨f1, p1, e1, _⟩ := inUse_kept hL ha hb hs ⟨hst, hr, hso, hin⟩ hp hu1
  obtain ⟨f2, p2, e2, _⟩ := inUse_kept hL ha hb hs ⟨hst, hr, hso, hin⟩ hp hu2
  have he : SameEvidence s1.st path s2.st path := ⟨e1.1.symm.trans e2.1, e1.2.symm.trans e2.2⟩
  obtain ⟨_, _, priv, pk, D, crt, a1, a2, a3, a4, a5⟩ := certify_std hL ha hb hs hc f1.serves hal f1.resolves p1 hcall1
  obtain ⟨_, _, sig, b1, b2, b3⟩ := sign_std hL ha hb hs hc' f2.serves hal' f2.resolves p2 hq hcall2
  obtain rfl := leafKey_same he a1 b1
  have hkey : (GoValue.key h' kx ky cert).keyInfo cfg.profile = (keyInfo cfg.profile pk).der := by
    have hk := (hL.sound cfg.profile).pubOf (std_public.2 a2)
    rw [a5]
    cases pk <;> cases hp : cfg.profile <;> rw [hp] at hk <;> first | exact hk.elim | rfl
  rw [hkey, b3]
  exact hV _ _ _ _ _ a2 b2

/-- C86: with ML-DSA, signing a message gives the same signature as signing the value that the client calculates
from the message and the key it got from CertifyKey. -/
theorem C86_mu {shake256 : Bytes → BArr 64} {l m kx ky cert : Bytes} {format f f' : U32} {v v' : GoValue}
    {x x' x'' : Option (Sys cfg _)} {h3 : Handle} {c'' : Client} {addr'' : Nat}
    (hL : L.Total) (ha : a.Fit) (hb : Built cfg a) (hs : cfg.Standard) (hml : cfg.profile = .mldsa87)
    (hmu : SignsByMu L shake256)
    (hst : InService s.st) (hr : Resolves s.st h loc i) (hso : Sole s.st i)
    (hin : h = Handle.default → s.st.hasInitialized = true)
    (hu1 : InUse L a loc i s h s1 h1) (hu2 : InUse L a loc i s h s2 h2) (hu3 : InUse L a loc i s h s3 h3)
    (hc : Connected L a cfg c) (hc' : Connected L a cfg c') (hc'' : Connected L a cfg c'')
    (hal : addr % 4 = 0) (hal' : addr' % 4 = 0) (hal'' : addr'' % 4 = 0)
    (hcall1 : c.call (simSend ((device L a cfg.profile).env cfg) loc addr) (.certifyKey h1 l format f) (some s1) =
      (.ok (.key h' kx ky cert), x))
    (hcall2 : c'.call (simSend ((device L a cfg.profile).env cfg) loc addr') (.signRaw h2 l m) (some s2) = (.ok v, x'))
    (hcall3 : c''.call (simSend ((device L a cfg.profile).env cfg) loc addr'')
      (.sign h3 l f' (Suite.calculateExternalMu shake256 m kx).toList) (some s3) = (.ok v', x'')) :
    v.answer cfg.profile = v'.answer cfg.profile := by
  obtain ⟨path, hp⟩ := hst.wf.path i (by unfold Live; rw [hr.1.1]; decide)
  obtain ⟨f1, p1, e1, _⟩ := inUse_kept hL ha hb hs ⟨hst, hr, hso, hin⟩ hp hu1
  obtain ⟨f2, p2, e2, _⟩ := inUse_kept hL ha hb hs ⟨hst, hr, hso, hin⟩ hp hu2
  obtain ⟨f3, p3, e3, _⟩ := inUse_kept hL ha hb hs ⟨hst, hr, hso, hin⟩ hp hu3
  have he : SameEvidence s1.st path s2.st path := ⟨e1.1.symm.trans e2.1, e1.2.symm.trans e2.2⟩
  have he' : SameEvidence s1.st path s3.st path := ⟨e1.1.symm.trans e3.1, e1.2.symm.trans e3.2⟩
  obtain ⟨_, _, priv, pk, D, crt, a1, a2, a3, a4, a5⟩ := certify_std hL ha hb hs hc f1.serves hal f1.resolves p1 hcall1
  obtain ⟨_, _, sig, b1, b2, b3⟩ := sign_std hL ha hb hs hc' f2.serves hal' f2.resolves p2 (.raw h2 l m) hcall2
  obtain ⟨_, _, sig', d1, d2, d3⟩ := sign_std hL ha hb hs hc'' f3.serves hal'' f3.resolves p3 (.mu h3 l f' _ hml) hcall3
  obtain rfl := leafKey_same he a1 b1
  obtain rfl := leafKey_same he' a1 d1
  rw [b3, d3]
  rw [hml] at a2 b2 d2
  obtain ⟨sd, rfl, rfl⟩ := a2
  obtain ⟨x1, g1, rfl⟩ := b2
  obtain ⟨x2, g2, rfl⟩ := d2
  obtain rfl := Vector.toList_inj.1 g1
  obtain rfl := Vector.toList_inj.1 g2
  cases a5
  congr 2
  rw [hmu]
  simp [fipsMu, Suite.calculateExternalMu]

/-- A call succeeds exactly if its command does. -/
theorem call_succeeds {cmd : Cmd cfg} (hL : L.Total) (ha : a.Fit) (hb : Built cfg a) (hs : cfg.Standard)
    (hc : Connected L a cfg c) (hst : InService s.st) (hal : addr % 4 = 0) (hm : Means k cmd) (hin : InProfile cfg cmd) :
    (∃ v x, c.call (simSend ((device L a cfg.profile).env cfg) loc addr) k (some s) = (.ok v, x)) ↔
      ∃ reply st' w', Succeeds (device L a cfg.profile) s.st loc s.w cmd reply st' w' := by
  constructor
  · rintro ⟨v, s1, h⟩
    refine Classical.byContradiction fun hx => ?_
    obtain ⟨e', s', h3, _⟩ := C61_failed hL ha hb hs hc hst hal hm hin hx
    rw [h] at h3
    injection h3 with h3 _
    cases h3
  · rintro ⟨reply, st', w', h⟩
    obtain ⟨v, h3, _⟩ := C61_served hL ha hb hs hc hst hal hm hin h
    exact ⟨v, _, h3⟩

/-- The commands of two CertifyKey calls with the same label and format. -/
theorem certify_means {l : Bytes} {format f f' : U32} {cmd : Cmd cfg} (hm : Means (.certifyKey h1 l format f) cmd)
    (hin : InProfile cfg cmd) : ∃ k1 k2 : CertifyCmd, cmd = .certify k1 ∧
      Means (.certifyKey h2 l format f') (.certify k2 : Cmd cfg) ∧ InProfile cfg (.certify k2) ∧
      k1.handle = h1 ∧ k2.handle = h2 ∧ k1.label = l ∧ k2.label = l ∧ k1.format = format ∧ k2.format = format ∧
      k1.variant = cfg.profile ∧ k2.variant = cfg.profile ∧
      (Cmd.certify k1 : Cmd cfg).respKind = (Cmd.certify k2 : Cmd cfg).respKind := by
  cases hm with
  | certify256 h l y f => exact ⟨_, .p256 h2 f' format l, rfl, .certify256 .., hin, rfl, rfl, rfl, rfl, rfl, rfl, hin.symm, hin.symm, rfl⟩
  | certify384 h l y f => exact ⟨_, .p384 h2 f' format l, rfl, .certify384 .., hin, rfl, rfl, rfl, rfl, rfl, rfl, hin.symm, hin.symm, rfl⟩
  | certifyMl h l y f => exact ⟨_, .mldsa87 h2 f' format l, rfl, .certifyMl .., hin, rfl, rfl, rfl, rfl, rfl, rfl, hin.symm, hin.symm, rfl⟩

theorem lookup_ok (hr : Resolves s.st h loc i) : LocalityInUse s.st loc ∧ ∃ i, Names s.st h loc i :=
  ⟨⟨i, hr.1.1, hr.1.2.2⟩, i, hr.1⟩

/-- C86: what could be certified once can be certified again, unless no new handle is found. -/
theorem C86_certifiable {l : Bytes} {format f f' : U32} {v : GoValue} {x : Option (Sys cfg _)}
    (hL : L.Total) (ha : a.Fit) (hb : Built cfg a) (hs : cfg.Standard)
    (hst : InService s.st) (hr : Resolves s.st h loc i) (hso : Sole s.st i)
    (hin : h = Handle.default → s.st.hasInitialized = true)
    (hu1 : InUse L a loc i s h s1 h1) (hu2 : InUse L a loc i s h s2 h2)
    (hc : Connected L a cfg c) (hc' : Connected L a cfg c') (hal : addr % 4 = 0) (hal' : addr' % 4 = 0)
    (hcall : c.call (simSend ((device L a cfg.profile).env cfg) loc addr) (.certifyKey h1 l format f) (some s1) =
      (.ok v, x)) :
    (∃ v' x', c'.call (simSend ((device L a cfg.profile).env cfg) loc addr') (.certifyKey h2 l format f') (some s2) =
      (.ok v', x')) ↔ CanReplace (L.crypto cfg.profile) s2.st i s2.w.1.rng := by
  obtain ⟨path, hp⟩ := hst.wf.path i (by unfold Live; rw [hr.1.1]; decide)
  obtain ⟨f1, p1, e1, g1⟩ := inUse_kept hL ha hb hs ⟨hst, hr, hso, hin⟩ hp hu1
  obtain ⟨f2, p2, e2, g2⟩ := inUse_kept hL ha hb hs ⟨hst, hr, hso, hin⟩ hp hu2
  have he : SameEvidence s1.st path s2.st path := ⟨e1.1.symm.trans e2.1, e1.2.symm.trans e2.2⟩
  obtain ⟨cmd, _, _, _, hm, hin1, _⟩ := call_ok hL ha hb hs hc f1.serves hal hcall
  obtain ⟨k1, k2, rfl, hm2, hin2, rfl, rfl, rfl, l2, rfl, y2, v1, v2, hk⟩ := certify_means (h2 := h2) (f' := f') hm hin1
  obtain ⟨reply, st', w', hno, hserve, hlen⟩ := (call_succeeds hL ha hb hs hc f1.serves hal hm hin1).1 ⟨_, _, hcall⟩
  obtain ⟨i', path', cdi, priv, pk, D, cert, hd, r, a1, a2, a3, a4, a5, a6, a7, _, _, _, rfl⟩ :=
    (std_iff ha hb hL hno (st := s1.st) (a := a) s1.w reply st' w').1 hserve
  obtain rfl := a1.unique f1.resolves
  obtain rfl := a2.unique p1
  have hx509 : (s1.st.at i').allowX509 = (s2.st.at i').allowX509 := by
    obtain ⟨t, rfl⟩ := hp.head
    have := (List.map_inj_left.1 he.2) i' (List.mem_cons_self ..)
    exact congrArg (fun e => e.2.1) this
  have hsup : ∀ q, s2.st.supports q ↔ s1.st.supports q := fun q => by unfold State.supports; rw [he.1]
  have hno2 : NoRefusal (rules s2.st loc (.certify k2)) := by
    have hl := lookup_ok f2.resolves
    simp only [NoRefusal, rules, earlyRules, lateRules, lookupRules, List.cons_append, List.nil_append,
      List.append_nil, List.mem_cons, List.not_mem_nil, or_false, forall_eq_or_imp, forall_eq] at hno ⊢
    obtain ⟨_, _, b1, b2, b3, b4⟩ := hno
    refine ⟨fun h => h hl.1, fun h => h hl.2, ?_, ?_, ?_, ?_⟩
    · rw [y2, hsup]; exact b1
    · rw [y2, named_iff f2.resolves, ← hx509]; rw [named_iff f1.resolves] at b2; exact b2
    · rw [y2, hsup]; exact b3
    · rw [y2]; exact b4
  have hable : Able (L.crypto cfg.profile) a s2.st loc s2.w.1 (.certify k2) ↔
      CanReplace (L.crypto cfg.profile) s2.st i' s2.w.1.rng := by
    constructor
    · rintro ⟨j, q1, _, _, q2⟩
      obtain rfl := q1.unique f2.resolves
      exact q2
    · intro hcr
      have hb1 := std_leafKey.2 a3
      rw [he.bytes] at hb1
      exact ⟨i', f2.resolves, ⟨path', cdi, priv, p2, by rw [l2]; exact hb1, pk, std_public.2 a4⟩, v2, hcr⟩
  rw [call_succeeds hL ha hb hs hc' f2.serves hal' hm2 hin2, ← hable, ← C58_able hL ha hb f2.serves hno2]
  constructor
  · rintro ⟨reply, st', w', h⟩
    exact ⟨reply, st', w', h.2.1⟩
  · rintro ⟨reply, st'', w'', h⟩
    refine ⟨reply, st'', w'', hno2, h, ?_⟩
    obtain ⟨j, path2, cdi2, priv2, pk2, D2, cert2, hd2, r2, b1, b2, b3, b4, b5, b6, b7, _, _, _, rfl⟩ :=
      (std_iff ha hb hL hno2 (st := s2.st) (a := a) s2.w reply st'' w'').1 h
    obtain rfl := b1.unique f2.resolves
    obtain rfl := b2.unique p2
    rw [l2] at b3 b7
    obtain rfl := leafKey_same he a3 b3
    obtain rfl := public_same a4 b4
    have hcrit : marksCritical s1.st = marksCritical s2.st := by unfold marksCritical; rw [g1, g2]
    obtain rfl : cert = cert2 := by
      rcases a7 with ⟨f0, a7⟩ | ⟨f0, a7⟩ <;> rcases b7 with ⟨f1, b7⟩ | ⟨f1, b7⟩
      · exact certificate_same (x := leafArgs s1.st k1.handle loc k1.label) (x' := leafArgs s2.st k2.handle loc k1.label)
          he a5 b5 rfl hcrit a7 b7
      · rw [← y2, f1] at f0; exact absurd f0 (by decide)
      · rw [← y2, f1] at f0; exact absurd f0 (by decide)
      · exact request_same (x := leafArgs s1.st k1.handle loc k1.label) (x' := leafArgs s2.st k2.handle loc k1.label)
          he a5 b5 rfl hcrit a7 b7
    rw [← hk]
    refine Nat.le_trans (Nat.le_of_eq ?_) hlen
    simp [certifyReply]

/-- C86: with a key that has been certified, everything of the right size can be signed, unless no new handle is
found; contexts for simulation do not sign. -/
theorem C86_signable {l : Bytes} {format f : U32} {q : SignData} {v : GoValue} {x : Option (Sys cfg _)}
    (hL : L.Total) (ha : a.Fit) (hb : Built cfg a) (hs : cfg.Standard)
    (hst : InService s.st) (hr : Resolves s.st h loc i) (hso : Sole s.st i)
    (hin : h = Handle.default → s.st.hasInitialized = true)
    (hu1 : InUse L a loc i s h s1 h1) (hu2 : InUse L a loc i s h s2 h2)
    (hc : Connected L a cfg c) (hc' : Connected L a cfg c') (hal : addr % 4 = 0) (hal' : addr' % 4 = 0)
    (hcall : c.call (simSend ((device L a cfg.profile).env cfg) loc addr) (.certifyKey h1 l format f) (some s1) =
      (.ok v, x))
    (hq : AsksSign cfg.profile k h2 l q) (hm : ¬ Malformed cfg.profile k) (hd : ¬ Deadly cfg k) :
    (∃ v' x', c'.call (simSend ((device L a cfg.profile).env cfg) loc addr') k (some s2) = (.ok v', x')) ↔
      (s2.st.at i).ctype ≠ .simulation ∧ CanReplace (L.crypto cfg.profile) s2.st i s2.w.1.rng := by
  obtain ⟨path, hp⟩ := hst.wf.path i (by unfold Live; rw [hr.1.1]; decide)
  obtain ⟨f1, p1, e1, g1⟩ := inUse_kept hL ha hb hs ⟨hst, hr, hso, hin⟩ hp hu1
  obtain ⟨f2, p2, e2, g2⟩ := inUse_kept hL ha hb hs ⟨hst, hr, hso, hin⟩ hp hu2
  have he : SameEvidence s1.st path s2.st path := ⟨e1.1.symm.trans e2.1, e1.2.symm.trans e2.2⟩
  obtain ⟨_, cdi, priv, pk, _, _, a1, a2, _⟩ := certify_std hL ha hb hs hc f1.serves hal f1.resolves p1 hcall
  rcases C61_means hs k with h' | h' | ⟨cmd, hm2, hin2⟩
  · exact absurd h' hm
  · exact absurd h' hd
  obtain ⟨j, rfl, rfl, rfl, hsuit, hlong, hsize⟩ : ∃ j : SignCmd, cmd = .sign j ∧ j.handle = h2 ∧ j.label = l ∧
      j.Suits cfg.profile ∧ ¬ j.TooLong ∧ ∀ hd sig, SigOf cfg.profile sig →
        (signReply cfg.profile hd sig).length ≤ (Cmd.sign j : Cmd cfg).respKind.size cfg := by
    have hlen : ∀ (hd : Handle) (sig : Sig), (signReply cfg.profile hd sig).length = 28 + (sigFields sig).length := by
      intro hd sig
      simp [signReply, successBytes]; omega
    have hsz : ∀ sig, SigOf cfg.profile sig → (sigFields sig).length =
        (match cfg.profile with | .p256 => 64 | .p384 => 96 | .mldsa87 => 4628) := by
      intro sig hsig
      cases hp : cfg.profile <;> rw [hp] at hsig <;> cases sig <;> first | exact hsig.elim | simp [sigFields]
    cases hq with
    | digest h l f d hp =>
      cases hm2 with
      | sign256 _ l _ d =>
        exact ⟨_, rfl, rfl, rfl, hp, id, fun hd sig h => by rw [hlen, hsz sig h, show cfg.profile = .p256 from hin2]; exact Nat.le_refl _⟩
      | sign384 _ l _ d =>
        exact ⟨_, rfl, rfl, rfl, hp, id, fun hd sig h => by rw [hlen, hsz sig h, show cfg.profile = .p384 from hin2]; exact Nat.le_refl _⟩
      | signMl => exact absurd hin2.1 hp
    | mu h l f d hp =>
      generalize hdd : d.toList = dd at hm2
      cases hm2 with
      | sign256 _ l _ d => exact absurd (hp.symm.trans (show cfg.profile = .p256 from hin2)) (by decide)
      | sign384 _ l _ d => exact absurd (hp.symm.trans (show cfg.profile = .p384 from hin2)) (by decide)
      | signMl _ l _ d =>
        exact ⟨_, rfl, rfl, rfl, hp, id, fun hd sig h => by rw [hlen, hsz sig h, hp]; exact Nat.le_refl _⟩
    | raw h l m =>
      cases hm2 with
      | signRaw _ l _ d hpad =>
        exact ⟨_, rfl, rfl, rfl, trivial, fun h => absurd hin2.2.2 (by simpa [SignCmd.TooLong] using h),
          fun hd sig h => by rw [hlen, hsz sig h, hin2.1]; exact Nat.le_refl _⟩
  have hno2 : NoRefusal (rules s2.st loc (.sign j)) ↔ (s2.st.at i).ctype ≠ .simulation := by
    have hl := lookup_ok f2.resolves
    simp only [NoRefusal, rules, earlyRules, lateRules, lookupRules, List.cons_append, List.nil_append,
      List.append_nil, List.mem_cons, List.not_mem_nil, or_false, forall_eq_or_imp, forall_eq,
      named_iff f2.resolves]
    exact ⟨fun h => h.2.2.2, fun h => ⟨hlong, fun h => h hl.1, fun h => h hl.2, h⟩⟩
  have hable : Able (L.crypto cfg.profile) a s2.st loc s2.w.1 (.sign j) ↔
      CanReplace (L.crypto cfg.profile) s2.st i s2.w.1.rng := by
    constructor
    · rintro ⟨j, q1, _, _, q2⟩
      obtain rfl := q1.unique f2.resolves
      exact q2
    · intro hcr
      have hb1 := std_leafKey.2 a1
      rw [he.bytes] at hb1
      exact ⟨i, f2.resolves, ⟨path, cdi, priv, p2, hb1, pk, std_public.2 a2⟩, hsuit, hcr⟩
  rw [call_succeeds hL ha hb hs hc' f2.serves hal' hm2 hin2, ← hable, ← hno2]
  constructor
  · rintro ⟨reply, st', w', h⟩
    exact ⟨h.1, (C58_able hL ha hb f2.serves h.1).1 ⟨reply, st', w', h.2.1⟩⟩
  · rintro ⟨hno, h⟩
    obtain ⟨reply, st', w', h⟩ := (C58_able hL ha hb f2.serves hno).2 h
    refine ⟨reply, st', w', hno, h, ?_⟩
    obtain ⟨_, _, _, sig, _, _, hd, _, _, _, hsig, _, _, rfl⟩ := h
    obtain ⟨_, _, _, hg, _⟩ := C58_meets (cfg := cfg) (L := L) hL ha 0
    exact hsize hd sig (hg.sign _ _ _ _ _ hsig)

end

/-! ### Concrete cases -/
namespace Ref

theorem usage_facts {cfg : Cfg} {L : Lib} {p : U32} {k : Handle → GoCall} {k' : Handle → Bytes → GoCall}
    (hL : L.Total) (hb : Built cfg cert) (hs : cfg.Standard) (hp : p = wireProfile cfg.profile)
    (hf : usage cfg L p k k' = true) :
    ∃ (c : Client) (s s1 s2 s3 s4 s5 : Sys cfg (Soft (L.crypto cfg.profile) × Unit)) (h1 h2 h3 h4 h5 : Handle)
    (kx ky crt kx' ky' crt' : Bytes) (a1 b1 c1 a2 b2 c2 : Bytes),
    Connected L cert cfg c ∧ InService s.st ∧ Resolves s.st Handle.default 3 0 ∧ Sole s.st 0 ∧
    s.st.hasInitialized = true ∧
    c.call (simSend ((device L cert cfg.profile).env cfg) 3 8)
      (.certifyKey Handle.default (List.replicate cfg.tciSize 1) 0 0) (some s) = (.ok (.key h1 kx ky crt), some s1) ∧
    c.call (simSend ((device L cert cfg.profile).env cfg) 3 8) (k h1) (some s1) =
      (.ok (.signature h2 a1 b1 c1), some s2) ∧
    c.call (simSend ((device L cert cfg.profile).env cfg) 3 8) (.rotate h2 0) (some s2) = (.ok (.handle h3), some s3) ∧
    c.call (simSend ((device L cert cfg.profile).env cfg) 3 8) (k' h3 kx) (some s3) =
      (.ok (.signature h4 a2 b2 c2), some s4) ∧
    c.call (simSend ((device L cert cfg.profile).env cfg) 3 8)
      (.certifyKey h4 (List.replicate cfg.tciSize 1) 0 0) (some s4) = (.ok (.key h5 kx' ky' crt'), some s5) := by
  unfold usage at hf
  obtain ⟨s0, hs0, hr0, _⟩ := C59_start (cfg := cfg) (L := L) (a := cert) features.args
  simp only [hs0] at hf
  split at hf
  case h_2 => cases hf
  rename_i c s1 hc
  have hcon : Connected L cert cfg c := ⟨_, _, _, _, _, .reached hr0, (by decide), hc⟩
  have hs1 : InService s1.st := by
    obtain ⟨c', h1, _⟩ := (C62_connects_partial (loc := 3) (addr := 8) hL cert_fit hb hs (.reached hr0) (by decide) p).1 hp
    have := h1.symm.trans hc
    injection this with _ e
    injection e with e
    rw [← e]; exact .reached hr0
  split at hf
  case h_2 => cases hf
  rename_i v2 s2 hc2
  have hs2 := call_inService hL cert_fit hb hs hcon hs1 (by decide) hc2
  simp only [Bool.and_eq_true] at hf
  obtain ⟨⟨⟨d1, d2⟩, d3⟩, hf⟩ := hf
  have hr : Resolves s2.st Handle.default 3 0 := by
    split at d1
    · rename_i i hi
      rw [beq_iff_eq] at d1
      subst d1
      exact findActive_iff.1 hi
    · cases d1
  have hso : Sole s2.st 0 := by
    intro j hj _
    have hlt := active_at hj
    rw [List.all_eq_true] at d2
    have := d2 j (List.mem_range.2 (by omega))
    rw [hj] at this
    simpa using this
  split at hf
  case h_2 => cases hf
  rename_i h1 kx ky crt s3 hc3
  split at hf
  case h_2 => cases hf
  rename_i h2 a1 b1 c1 s4 hc4
  split at hf
  case h_2 => cases hf
  rename_i h3 s5 hc5
  split at hf
  case h_2 => cases hf
  rename_i h4 a2 b2 c2 s6 hc6
  split at hf
  case h_2 => cases hf
  rename_i h5 kx' ky' crt' s7 hc7
  exact ⟨c, s2, s3, s4, s5, s6, s7, h1, h2, h3, h4, h5, kx, ky, crt, kx', ky', crt', _, _, _, _, _, _, hcon, hs2, hr, hso,
    d3, hc3, hc4, hc5, hc6, hc7⟩

theorem one_built : Built one cert := ⟨rfl, by decide⟩

theorem one_standard : one.Standard := ⟨rfl, by decide⟩

/-- The transport of a client in locality 3. -/
def wire1 : Transport (Option (Sys one (Soft (lib.crypto one.profile) × Unit))) :=
  simSend ((device lib cert one.profile).env one) 3 8

/-- A client has the key of the default context certified, has a digest signed, gives the context another handle,
has the digest signed again and the key certified again: it gets the same signature, the same key and the same
certificate, and the signature verifies. -/
example (V : Verifier) (hV : V.Takes lib) :
    ∃ (c : Client) (s s1 s2 s3 s4 s5 : Sys one (Soft (lib.crypto one.profile) × Unit)) (h1 h2 h3 h4 h5 : Handle)
    (kx ky crt : Bytes) (v v' : GoValue),
    c.call wire1 (.certifyKey Handle.default (List.replicate 32 1) 0 0) (some s) = (.ok (.key h1 kx ky crt), some s1) ∧
    c.call wire1 (.sign h1 (List.replicate 32 1) 0 (List.replicate 32 5)) (some s1) = (.ok v, some s2) ∧
    c.call wire1 (.rotate h2 0) (some s2) = (.ok (.handle h3), some s3) ∧
    c.call wire1 (.sign h3 (List.replicate 32 1) 0 (List.replicate 32 5)) (some s3) = (.ok v', some s4) ∧
    c.call wire1 (.certifyKey h4 (List.replicate 32 1) 0 0) (some s4) = (.ok (.key h5 kx ky crt), some s5) ∧
    v.answer .p256 = v'.answer .p256 ∧ CanReplace (lib.crypto .p256) s4.st 0 s4.w.1.rng ∧
    V ((GoValue.key h1 kx ky crt).keyInfo .p256) (.digest (List.replicate 32 5)) (v'.answer .p256) := by
  obtain ⟨c, s, s1, s2, s3, s4, s5, h1, h2, h3, h4, h5, kx, ky, crt, kx', ky', crt', a1, b1, c1, a2, b2, c2, hcon, hst, hr,
    hso, hin, e1, e2, e3, e4, e5⟩ := usage_facts lib_total one_built one_standard rfl used256
  have u1 : InUse lib cert 3 0 s Handle.default s1 h1 := .use .start hcon (by decide) (.certify ..) e1 rfl
  have u2 : InUse lib cert 3 0 s Handle.default s2 h2 := .use u1 hcon (by decide) (.sign ..) e2 rfl
  have u3 : InUse lib cert 3 0 s Handle.default s3 h3 := .use u2 hcon (by decide) (.rotate _ _ (by decide)) e3 rfl
  have u4 : InUse lib cert 3 0 s Handle.default s4 h4 := .use u3 hcon (by decide) (.sign ..) e4 rfl
  obtain ⟨rfl, rfl, rfl⟩ := C86_certified lib_total cert_fit one_built one_standard hst hr hso (fun _ => hin) .start u4
    hcon hcon (by decide) (by decide) e1 e5
  have hsame := C86_signed lib_total cert_fit one_built one_standard hst hr hso (fun _ => hin) u1 u3 hcon hcon
    (by decide) (by decide) (.digest _ _ _ _ (by decide)) (.digest _ _ _ _ (by decide)) e2 e4
  have hver := C86_verifies lib_total cert_fit one_built one_standard hV hst hr hso (fun _ => hin) .start u3 hcon hcon
    (by decide) (by decide) e1 (.digest _ _ _ _ (by decide)) e4
  have hcan := (C86_certifiable lib_total cert_fit one_built one_standard hst hr hso (fun _ => hin) .start u4 hcon hcon
    (by decide) (by decide) e1).1 ⟨_, _, e5⟩
  exact ⟨c, s, s1, s2, s3, s4, s5, h1, h2, h3, h4, h5, kx, ky, crt, _, _, e1, e2, e3, e4, e5, hsame, hcan, hver⟩

/-- The default context of a device with ML-DSA, and a client. -/
theorem created_facts : ∃ (c : Client) (s : Sys ml (Soft (muLib.crypto ml.profile) × Unit)),
    Connected muLib cert ml c ∧ InService s.st ∧ Resolves s.st Handle.default 3 0 ∧ Sole s.st 0 ∧
    s.st.hasInitialized = true ∧ Path s.st 0 [0] ∧ (s.st.at 0).allowX509 = true ∧ (s.st.at 0).ctype ≠ .simulation ∧
    s.st.supports Feature.x509 := by
  have hf := created
  obtain ⟨s0, hs0, hr0, _⟩ := C59_start (cfg := ml) (L := muLib) (a := cert) features.args
  rw [hs0] at hf
  split at hf
  case h_2 => cases hf
  rename_i c s1 hc
  have hcon : Connected muLib cert ml c := ⟨_, _, _, _, _, .reached hr0, (by decide), hc⟩
  have hs1 : InService s1.st := by
    obtain ⟨c', h1, _⟩ := (C62_connects_partial (loc := 3) (addr := 8) muLib_total cert_fit ml_built ml_standard
      (.reached hr0) (by decide) 5).1 rfl
    have := h1.symm.trans hc
    injection this with _ e
    injection e with e
    rw [← e]; exact .reached hr0
  split at hf
  case h_2 => cases hf
  rename_i v2 s2 hc2
  have hs2 := call_inService muLib_total cert_fit ml_built ml_standard hcon hs1 (by decide) hc2
  simp only [Bool.and_eq_true, beq_iff_eq, bne_iff_ne, decide_eq_true_eq] at hf
  obtain ⟨⟨⟨⟨⟨d1, d2⟩, d3⟩, d4⟩, d5⟩, d6⟩ := hf
  have hr : Resolves s2.st Handle.default 3 0 := by
    split at d1
    · rename_i i hi
      rw [beq_iff_eq] at d1
      subst d1
      exact findActive_iff.1 hi
    · cases d1
  refine ⟨c, s2, hcon, hs2, hr, fun j hj _ => ?_, d2, .root (by unfold Live; rw [hr.1.1]; decide) d3, d4, d5, d6⟩
  have h1 := active_at hj
  have h2 : ml.maxHandles = 1 := rfl
  omega

/-- A client has the key of the default context certified with ML-DSA; it can have a message signed, or the `mu` that
it calculates from the message and the key, and it gets the same signature. -/
example : ∃ (c : Client) (s : Sys ml (Soft (muLib.crypto ml.profile) × Unit)) (h1 : Handle) (kx ky crt : Bytes)
    (v v' : GoValue) (x x' x'' : Option (Sys ml _)),
    c.call wireMl (.certifyKey Handle.default (List.replicate 48 1) 0 0) (some s) = (.ok (.key h1 kx ky crt), x) ∧
    c.call wireMl (.signRaw Handle.default (List.replicate 48 1) [1, 2, 3]) (some s) = (.ok v, x') ∧
    c.call wireMl (.sign Handle.default (List.replicate 48 1) 0
      (Suite.calculateExternalMu turn [1, 2, 3] kx).toList) (some s) = (.ok v', x'') ∧
    v.answer .mldsa87 = v'.answer .mldsa87 := by
  obtain ⟨c, s, hcon, hst, hr, hso, hin, hp, hx, hsim, hsup⟩ := created_facts
  let k : CertifyCmd := .mldsa87 Handle.default 0 0 (Vector.replicate 48 1)
  have hm : Means (.certifyKey Handle.default (List.replicate 48 1) 0 0) (.certify k : Cmd ml) :=
    Means.certifyMl Handle.default (Vector.replicate 48 1) 0 0
  have hdef : (s.st.at 0).handle = Handle.default := hr.1.2.1
  have hno : NoRefusal (rules s.st 3 (.certify k)) := by
    have hl := lookup_ok hr
    simp only [NoRefusal, rules, earlyRules, lateRules, lookupRules, List.cons_append, List.nil_append,
      List.append_nil, List.mem_cons, List.not_mem_nil, or_false, forall_eq_or_imp, forall_eq]
    refine ⟨fun h => h hl.1, fun h => h hl.2, fun h => h.2 hsup, fun h => ?_, fun h => absurd h.1 (by decide),
      fun h => h.1 rfl⟩
    have := (named_iff hr).1 h.2
    rw [hx] at this
    cases this
  have hleaf : LeafValid (muLib.crypto ml.profile) cert s.st 0 k.label := by
    refine ⟨[0], _, _, hp, ⟨rfl, rfl⟩, _, std_public.2 ⟨_, rfl, rfl⟩⟩
  obtain ⟨reply, st', w', hserve⟩ := (C58_able muLib_total cert_fit ml_built hst hno).2 ⟨0, hr, hleaf, rfl, .inl hdef⟩
  obtain ⟨hfit, hser, _, hg, hpl, _⟩ := C58_meets (cfg := ml) (L := muLib) muLib_total cert_fit (digestLength ml.profile)
  have hcert : ∃ v x, c.call wireMl (.certifyKey Handle.default (List.replicate 48 1) 0 0) (some s) = (.ok v, x) := by
    refine (call_succeeds muLib_total cert_fit ml_built ml_standard hcon hst (by decide) hm rfl).2 ?_
    obtain ⟨kind, D, w1, t, w2, hd, hk, hD, hI, hw, _, hre, _, _⟩ := hserve
    have hkind : kind = .leafX509 := by
      rcases hk with ⟨_, rfl⟩ | ⟨h, _⟩
      · rfl
      · exact absurd h (by decide)
    subst hkind
    obtain ⟨n, s', he⟩ := C46_certify_partial (s := ⟨s.st, s.w, List.replicate (2624 + ml.maxCertSize) 0⟩) hst hfit hser
      ml_standard hg hno hk hD hI hw hre hpl (fun _ h => by cases h)
      (by rw [List.length_replicate]; exact Nat.le_refl _)
    obtain ⟨_, reply, st', w', h1, h2, _⟩ := (C57_exact (s := ⟨s.st, s.w, List.replicate (2624 + ml.maxCertSize) 0⟩) hst (fun _ => ⟨hfit, hser⟩)).1 he
    refine ⟨reply, st', w', hno, h1, ?_⟩
    rw [List.length_replicate] at h2
    exact h2
  obtain ⟨v0, x0, hcert⟩ := hcert
  obtain ⟨h1, kx, ky, crt, rfl⟩ : ∃ h kx ky crt, v0 = .key h kx ky crt := by
    obtain ⟨h', _, _, pk, _, crt, _, _, _, _, rfl⟩ :=
      certify_std muLib_total cert_fit ml_built ml_standard hcon hst (by decide) hr hp hcert
    cases pk <;> exact ⟨_, _, _, _, rfl⟩
  have hraw := (C86_signable (addr' := 8) muLib_total cert_fit ml_built ml_standard hst hr hso (fun _ => hin) .start .start hcon hcon
    (by decide) (by decide) hcert (.raw Handle.default (List.replicate 48 1) [1, 2, 3])
    (by simp [Malformed, labelSize, ml]) id).2 ⟨hsim, .inl hdef⟩
  obtain ⟨v, x, hraw⟩ := hraw
  obtain ⟨v', x', hmu⟩ := (C86_signable (addr' := 8) muLib_total cert_fit ml_built ml_standard hst hr hso (fun _ => hin) .start .start hcon
    hcon (by decide) (by decide) hcert
    (.mu Handle.default (List.replicate 48 1) 0 (Suite.calculateExternalMu turn [1, 2, 3] kx) rfl)
    (by simp [Malformed, labelSize, signDataSize, ml]) (fun h => absurd h.2 (by decide))).2 ⟨hsim, .inl hdef⟩
  exact ⟨c, s, h1, kx, ky, crt, v, v', x0, x, x', hcert, hraw, hmu,
    C86_mu muLib_total cert_fit ml_built ml_standard rfl muLib_signs hst hr hso (fun _ => hin) .start .start .start
      hcon hcon hcon (by decide) (by decide) (by decide) hcert hraw hmu⟩

end Ref
end Dpe
