import Verif.Model.Suite
import Verif.Props.Anchor
/-
C84: the checks on certificates of the project's conformance tests pass for whatever the reference device
issues to the Go client.
-/
namespace Dpe
section
variable {es : List Ext} {α : Type}

theorem getter_found {oid : Bytes} {critical : Bool} {zero v : α}
    (hc : ∀ e ∈ es, e.oid = oid → e.critical = critical) : Suite.getter oid critical zero (some v) es = some v ∨
      (extOf oid es = none ∧ Suite.getter oid critical zero (some v) es = some zero) := by
  unfold Suite.getter
  cases h : extOf oid es with
  | none => exact .inr ⟨rfl, rfl⟩
  | some e =>
    left
    unfold extOf at h
    have h1 := hc e (List.mem_of_find?_eq_some h) (by simpa using List.find?_some h)
    simp [h1]

theorem getter_some {oid : Bytes} {critical : Bool} {zero v : α} {r : Option α} (hr : r = some v)
    (hp : extOf oid es = none → r = none) (hc : ∀ e ∈ es, e.oid = oid → e.critical = critical) :
    Suite.getter oid critical zero r es = some v := by
  subst hr
  rcases getter_found (zero := zero) (v := v) hc with h | ⟨h, _⟩
  · exact h
  · cases hp h

theorem getter_none {oid : Bytes} {critical : Bool} {zero : α} {r : Option α} (h : extOf oid es = none) :
    Suite.getter oid critical zero r es = some zero := by
  unfold Suite.getter; rw [h]

theorem critical_of {b : Bool} (h : CriticalOnes b es) :
    (∀ e ∈ es, e.oid = Suite.oidBasicConstraints → e.critical = true) ∧
    (∀ e ∈ es, e.oid = Suite.oidKeyUsage → e.critical = true) ∧
    (∀ e ∈ es, e.oid = Suite.oidExtKeyUsage → e.critical = true) ∧
    (∀ e ∈ es, e.oid = Suite.oidSubjectKeyId → e.critical = false) ∧
    (∀ e ∈ es, e.oid = Suite.oidAuthorityKeyId → e.critical = false) ∧
    (∀ e ∈ es, e.oid = Suite.oidTcgUeid → e.critical = b) ∧
    (∀ e ∈ es, e.oid = Suite.oidMultiTcb → e.critical = b) := by
  have n : ∀ (x : Bytes), x ∈ [Suite.oidSubjectKeyId, Suite.oidAuthorityKeyId] →
      ¬ (x = basicConstraintsId ∨ x = keyUsageId ∨ x = extKeyUsageId ∨ (b = true ∧ (x = multiTcbInfoId ∨ x = ueidId))) := by
    have : ∀ (x : Bytes), x ∈ [Suite.oidSubjectKeyId, Suite.oidAuthorityKeyId] →
      ¬ (x = basicConstraintsId ∨ x = keyUsageId ∨ x = extKeyUsageId ∨ (x = multiTcbInfoId ∨ x = ueidId)) := by
      decide +kernel
    intro x hx h
    exact this x hx (h.imp id (Or.imp id (Or.imp id And.right)))
  have m : ∀ (x : Bytes), x ∈ [Suite.oidTcgUeid, Suite.oidMultiTcb] →
      ¬ (x = basicConstraintsId ∨ x = keyUsageId ∨ x = extKeyUsageId) ∧ (x = multiTcbInfoId ∨ x = ueidId) := by
    decide +kernel
  have mark : ∀ (x : Bytes), x ∈ [Suite.oidTcgUeid, Suite.oidMultiTcb] → ∀ e ∈ es, e.oid = x → e.critical = b := by
    intro x hx e he ho
    have := h e he
    obtain ⟨m1, m2⟩ := m x hx
    rw [ho] at this
    rw [Bool.eq_iff_iff, this]
    constructor
    · rintro (h | h | h | h)
      · exact absurd (.inl h) m1
      · exact absurd (.inr (.inl h)) m1
      · exact absurd (.inr (.inr h)) m1
      · exact h.1
    · exact fun h => .inr (.inr (.inr ⟨h, m2⟩))
  refine ⟨fun e he ho => (h e he).2 (.inl ho), fun e he ho => (h e he).2 (.inr (.inl ho)),
    fun e he ho => (h e he).2 (.inr (.inr (.inl ho))), fun e he ho => ?_, fun e he ho => ?_,
    mark _ (by simp), mark _ (by simp)⟩
  · exact Bool.eq_false_iff.2 fun hc => n _ (by simp) (ho ▸ (h e he).1 hc)
  · exact Bool.eq_false_iff.2 fun hc => n _ (by simp) (ho ▸ (h e he).1 hc)

theorem registers_fine {cfg : Cfg} (p : Profile) (r : Bool) (l : List (Tci cfg)) :
    ((l.map (reported p r)).all fun t => decide (t.registers.length ≤ 1) && t.registers.all fun r => decide (r.1 = 0)) =
      true := by
  rw [List.all_eq_true]
  intro t ht
  obtain ⟨u, _, rfl⟩ := List.mem_map.1 ht
  cases r <;> simp [reported]

/-- What the checks come to. -/
theorem suite_passes {cfg : Cfg} {b ca : Bool} {label : Option Bytes} {pub : Option (Bytes × Bytes)} {isX509 r : Bool}
    {issuer : Bytes} {p : Profile} {l : List (Tci cfg)} {sha256 sha384 : Bytes → Bytes} (hcr : CriticalOnes b es)
    (h1 : isCa es = some ca) (h2 : keyUsages es = some (if ca then [0, 5] else [0]))
    (h3 : keyPurposes es = some [if ca then embeddedCa else attestLoc])
    (h4 : if ca then ∃ k, skidOf es = some k ∧ ∀ x y, pub = some (x, y) → Suite.expectedKeyId sha256 sha384 x y = some k
      else extOf Suite.oidSubjectKeyId es = none)
    (h5 : isX509 = true → akidOf es = some issuer) (h6 : ∀ u, label = some u → ueidOf es = some u)
    (h7 : tcbInfosOf es = some (l.map (reported p r))) :
    Suite.checkCertificateExtension sha256 sha384 es label pub isX509 issuer ca b = true := by
  obtain ⟨c1, c2, c3, c4, c5, c6, c7⟩ := critical_of hcr
  have e1 : Suite.getBasicConstraints es = some ca := getter_some h1 (fun h => by unfold isCa; rw [show extOf (oidBody [2, 5, 29, 19]) es = none from h]) c1
  have e2 : Suite.getKeyUsage es = some ((List.range 9).map fun i => decide (i = 0 ∨ (ca = true ∧ i = 5))) := by
    unfold Suite.getKeyUsage
    rw [getter_some h2 (fun h => by unfold keyUsages; rw [show extOf (oidBody [2, 5, 29, 15]) es = none from h]) c2]
    cases ca <;> rfl
  have e3 : Suite.getExtendedKeyUsages es = some [if ca then embeddedCa else attestLoc] :=
    getter_some h3 (fun h => by unfold keyPurposes; rw [show extOf (oidBody [2, 5, 29, 37]) es = none from h]) c3
  have e7 : Suite.getMultiTcbInfo es b = some (l.map (reported p r)) :=
    getter_some h7 (fun h => by unfold tcbInfosOf; rw [show extOf (oidBody [2, 23, 133, 5, 4, 5]) es = none from h]) c7
  have e6 : ∀ u, label = some u → Suite.getUeid es b = some u := fun u hu =>
    getter_some (h6 u hu) (fun h => by unfold ueidOf; rw [show extOf (oidBody [2, 23, 133, 5, 4, 4]) es = none from h]) c6
  have e5 : isX509 = true → Suite.getAuthorityKeyIdentifier es = some (some issuer) := fun hx =>
    getter_some (by rw [h5 hx]; rfl)
      (fun h => by unfold akidOf; rw [show extOf (oidBody [2, 5, 29, 35]) es = none from h]; rfl) c5
  have e4 : Suite.checkSubjectKeyIdentifier sha256 sha384 es ca pub = true := by
    unfold Suite.checkSubjectKeyIdentifier
    cases ca with
    | false =>
      rw [show Suite.getSubjectKeyIdentifier es = some none from getter_none (by simpa using h4)]
      rfl
    | true =>
      obtain ⟨k, hk, hp⟩ := by simpa only [if_true] using h4
      rw [show Suite.getSubjectKeyIdentifier es = some (some k) from getter_some (by rw [hk]; rfl)
        (fun h => by unfold skidOf; rw [show extOf (oidBody [2, 5, 29, 14]) es = none from h]; rfl) c4]
      cases pub with
      | none => rfl
      | some q =>
        obtain ⟨x, y⟩ := q
        simp [hp x y rfl]
  unfold Suite.checkCertificateExtension
  rw [e1]
  simp only [Bool.and_eq_true]
  refine ⟨⟨⟨⟨⟨?_, ?_⟩, ?_⟩, ?_⟩, ?_⟩, ?_⟩
  · unfold Suite.checkBasicConstraints; rw [e1]; cases ca <;> rfl
  · unfold Suite.checkExtendedKeyUsages; rw [e3]
    cases ca
    · show List.contains [attestLoc] Suite.oidKpAttestLoc = true
      simp [attestLoc, Suite.oidKpAttestLoc]
    · show List.contains [embeddedCa] Suite.oidKpEca = true
      simp [embeddedCa, Suite.oidKpEca]
  · cases label with
    | none => rfl
    | some u => show (Suite.getUeid es b == some u) = true; rw [e6 u rfl]; simp
  · rw [e4]
    cases isX509 with
    | false => rfl
    | true => unfold Suite.checkKeyIdentifier; rw [e5 rfl]; simp
  · unfold Suite.checkMultiTcbInfo; rw [e7]; exact registers_fine p r l
  · rw [e2]; simp

end

section
variable {cfg : Cfg}

theorem noSki_found {p : Profile} {a : Attested cfg} {cert : Bool} (hc : (a.ca && cert) = false) :
    extOf Suite.oidSubjectKeyId (foundExts p a cert) = none := by
  refine extOf_none ?_
  unfold extSpecs
  rw [if_neg (by rw [hc]; decide)]
  cases cert <;> cases a.altName <;>
    simp only [if_true, Bool.false_eq_true, if_false, List.append_nil, List.cons_append,
      List.nil_append, List.mem_cons, List.not_mem_nil, or_false, forall_eq_or_imp, forall_eq] <;>
    decide +kernel

theorem keyChunks_flatten (k : PubKey) : (keyChunks k).flatten = keyOctets k := by
  cases k <;> simp [keyChunks, keyOctets]

theorem keyInfo_bits {p : Profile} {k : PubKey} {b : Bytes}
    (h : (keyInfo p k).der = (seqOf [keyAlgorithm p, bits b]).der) : keyOctets k = b := by
  simp only [keyInfo, seqOf, bits, Asn.der, Asn.ders, List.append_nil, List.nil_append] at h
  have := tlv_inj (List.append_cancel_left (tlv_inj h))
  injection this

/-- The length of the first field of a public key in Go. -/
def firstLength : Profile → Nat
  | .p256 => 32
  | .p384 => 48
  | .mldsa87 => 2592

theorem expected_of {L : Lib} {p : Profile} {k : PubKey} {v : Handle} {kx ky crt : Bytes} (hl : kx.length = firstLength p)
    (h : (keyInfo p k).der = (GoValue.key v kx ky crt).keyInfo p) :
    Suite.expectedKeyId (fun b => (L.sha256 b).toList) (fun b => (L.sha384 b).toList) kx ky =
      some ((stdHash L p (keyChunks k).flatten).take 20) := by
  rw [keyChunks_flatten]
  cases p <;> simp only [firstLength] at hl <;> simp only [GoValue.keyInfo] at h <;> rw [keyInfo_bits h] <;>
    simp [Suite.expectedKeyId, hl, stdHash]

end

section
variable {cfg : Cfg} {L : Lib} {a : Artifact} {x : Cert} {V : Verifier} {loc : U32} {n : Nat}
  {s s' : Sys cfg (Soft (L.crypto cfg.profile) × Unit)}

/-- C84: the certificate of an exported CDI passes the checks of the conformance tests, with the built-in
certificate as the issuer's: without a public key, as the tests do it, and with the one in the certificate. -/
theorem C84_exported {c : DeriveCmd cfg} (hL : L.Total) (ha : a.Fit) (hx : AliasCert L cfg.profile a x)
    (hst : InService s.st) (he : Bit c.flags DFlag.exportCdi) {i : Nat} {path : List Nat}
    (hr : Resolves s.st c.handle loc i) (hp : Path s.st i path) (hsvn : SvnsAlike (chainOf s.st path))
    (h : exec ((device L a cfg.profile).env cfg) (.derive c) loc s = (.ok n, s')) :
    ∃ y k, readCert (exportedCertIn s'.out n) = some y ∧ skidOf x.exts = some k ∧
      ∀ pub, (∀ kx ky, pub = some (kx, ky) → kx.length = firstLength cfg.profile ∧
          y.key = (GoValue.key Handle.default kx ky []).keyInfo cfg.profile) →
        Suite.checkCertificateExtension (fun b => (L.sha256 b).toList) (fun b => (L.sha384 b).toList)
          y.exts none pub true k true (marksCritical s.st) = true := by
  obtain ⟨_, _, hd, _⟩ := C58_meets (cfg := cfg) (L := L) hL ha 0
  obtain ⟨i', path', m1, m2, _, m3, m4⟩ := C43_exported_partial hst hd he h
  obtain rfl := m1.unique hr
  obtain rfl := m2.unique hp
  obtain ⟨y, hy⟩ := Option.isSome_iff_exists.1 (m3 hsvn)
  obtain ⟨c1, c2, c3, ⟨k, w, w', hk, hak⟩, ⟨key, d, w1, w2, hh, hkey, hski⟩, _⟩ := C44_exported hst hd he h hy
  refine ⟨y, a.keyId, hy, hx.keyId, fun pub hpub => ?_⟩
  have hdg : d = stdHash L cfg.profile (keyChunks key).flatten := by
    rw [((hashed_iff (hL.sound cfg.profile)).1 hh).1, std_hash]
  refine suite_passes (ca := true) (C77_exported_partial hst hd (device_hashes hL) he h hy).critical c1 c2 c3
    ?_ (fun _ => by rw [hak, given_keyId hx hk]) (fun u hu => nomatch hu) (m4 y hy)
  rw [if_pos rfl]
  refine ⟨_, hski, fun kx ky hq => ?_⟩
  obtain ⟨q1, q2⟩ := hpub kx ky hq
  rw [hdg]
  exact expected_of q1 (hkey.symm.trans q2)

end

section
variable {cfg : Cfg} {L : Lib} {a : Artifact} {x : Cert} {V : Verifier} {loc : U32} {addr : Nat} {c : Client}
  {s s1 : Sys cfg (Soft (L.crypto cfg.profile) × Unit)}

theorem kept_default {k : CertifyCmd} {n : Nat} {r : Sys cfg (Soft (L.crypto cfg.profile) × Unit)} {h' : Handle}
    (hst : InService s.st) (he : exec ((device L a cfg.profile).env cfg) (.certify k) loc s = (.ok n, r))
    (hh : h'.toList = handleIn r.out) : Suite.checkCertifyKeyRespHandle h' k.handle = true := by
  obtain ⟨hs, ⟨h1, rfl, _, _, hn, _⟩, hr⟩ := C52_success_effect hst (digests_true _) he
  have := hr.at (k := 0) (x := h1) rfl
  have e : h' = h1 := Vector.toList_inj.1 (hh.trans this)
  unfold Suite.checkCertifyKeyRespHandle
  rcases hn with ⟨o, q⟩ | ⟨o, _⟩
  · rw [e, q, o]; simp
  · simp [o]

theorem pubKey_passes {p : Profile} {v : Handle} {kx ky crt key : Bytes}
    (h : key = (GoValue.key v kx ky crt).keyInfo p) : Suite.checkPubKey p key kx ky = true := by
  cases p <;> simp [Suite.checkPubKey, h, GoValue.keyInfo]

/-- C84: a client that has a key certified and retrieves the certificate chain finds that the certificate
passes the checks of the conformance tests on extensions and public key, and that the handle in the response
is the default handle if the request's was. -/
theorem C84_certificate {h h' : Handle} {l kx ky cert : Bytes} {f : U32} {i fuel : Nat} {path : List Nat}
    (hL : L.Total) (ha : a.Fit) (hb : Built cfg a) (hs : cfg.Standard) (hc : Connected L a cfg c)
    (hx : AliasCert L cfg.profile a x) (hst : InService s.st) (hal : addr % 4 = 0)
    (hn : a.chain.length % 2048 ≠ 0) (hfu : a.chain.length / 2048 + 1 ≤ fuel)
    (hr : Resolves s.st h loc i) (hp : Path s.st i path) (hsvn : SvnsAlike (chainOf s.st path))
    (h1 : c.call (simSend ((device L a cfg.profile).env cfg) loc addr) (.certifyKey h l 0 f) (some s) =
      (.ok (.key h' kx ky cert), some s1)) :
    ∃ chain k y, c.getChain (simSend ((device L a cfg.profile).env cfg) loc addr) fuel (some s1) =
        some (.ok chain, some s1) ∧
      readCert chain = some x ∧ skidOf x.exts = some k ∧ readCert cert = some y ∧
      Suite.checkCertificateExtension (fun b => (L.sha256 b).toList) (fun b => (L.sha384 b).toList)
        y.exts (some l) (some (kx, ky)) true k false (marksCritical s.st) = true ∧
      Suite.checkPubKey cfg.profile y.key kx ky = true ∧ Suite.checkCertifyKeyRespHandle h' h = true := by
  obtain ⟨_, _, hd, _⟩ := C58_meets (cfg := cfg) (L := L) hL ha 0
  have hst1 := call_inService hL ha hb hs hc hst hal h1
  have hkey := (C76_key hL ha hb hs hc hst hal h1).1
  obtain ⟨j, m, out, r, h'', _, _, _, pk, rfl, rfl, e3, e4, e5, e6, e7, _, _, he⟩ :=
    certify_call hL ha hb hs hc hst hal h1
  cases e5
  obtain ⟨i', path', m1, m2, _, m3, m4⟩ := C43_certificate_partial (s := ⟨s.st, s.w, out⟩) hst hd e3 he
  obtain rfl := m1.unique hr
  obtain rfl := m2.unique hp
  obtain ⟨y, hy⟩ := Option.isSome_iff_exists.1 (m3 hsvn)
  obtain ⟨c1, c2, c3, _, c5, k, w, w', hk, hak⟩ := C44_certificate (s := ⟨s.st, s.w, out⟩) hst hd e3 he hy
  have hno : extOf Suite.oidSubjectKeyId y.exts = none := by
    obtain ⟨D, w1, t, w2, g1, g2, g3, g4⟩ := leaf_cert (s := ⟨s.st, s.w, out⟩) hst hd e3 he
    obtain ⟨_, _, _, _, _, _, _, _, f6⟩ := cert_facts g2 (chain_le hst g1) (by decide) hd.issuer g3
    rw [g4] at hy
    obtain ⟨rfl, _⟩ := f6 y hy
    exact noSki_found (by simp [Draft.subject])
  refine ⟨_, a.keyId, y, C63_chain_partial hL ha hb hs hc hst1 hal hn hfu, hx.cert, hx.keyId, e6 ▸ hy, ?_,
    pubKey_passes (hkey y rfl (e6 ▸ hy)), kept_default (s := ⟨s.st, s.w, out⟩) hst he e7⟩
  exact suite_passes (ca := false)
    (C77_certificate_partial (s := ⟨s.st, s.w, out⟩) hst hd (device_hashes hL) e3 he hy).critical c1 c2 c3 hno
    (fun _ => by rw [hak, given_keyId hx hk]) (fun u hu => by cases hu; exact c5) (m4 y hy)

/-- C84: the same for a certification request, whose wrapper the built-in certificate's key has signed. -/
theorem C84_request {h h' : Handle} {l kx ky cert : Bytes} {f : U32} {i : Nat} {path : List Nat} {issuerSki : Bytes}
    (hL : L.Total) (ha : a.Fit) (hb : Built cfg a) (hs : cfg.Standard) (hc : Connected L a cfg c)
    (hx : AliasCert L cfg.profile a x) (hV : V.Takes L) (hst : InService s.st) (hal : addr % 4 = 0)
    (hr : Resolves s.st h loc i) (hp : Path s.st i path) (hsvn : SvnsAlike (chainOf s.st path))
    (h1 : c.call (simSend ((device L a cfg.profile).env cfg) loc addr) (.certifyKey h l 1 f) (some s) =
      (.ok (.key h' kx ky cert), some s1)) :
    ∃ m y, readMessage cert = some m ∧ SignedBy V x m ∧ readRequest m.content = some y ∧
      Suite.checkCertificateExtension (fun b => (L.sha256 b).toList) (fun b => (L.sha384 b).toList)
        y.exts (some l) (some (kx, ky)) false issuerSki false (marksCritical s.st) = true ∧
      Suite.checkPubKey cfg.profile y.key kx ky = true ∧ Suite.checkCertifyKeyRespHandle h' h = true := by
  obtain ⟨_, _, hd, _⟩ := C58_meets (cfg := cfg) (L := L) hL ha 0
  have hkey := (C76_key hL ha hb hs hc hst hal h1).2
  obtain ⟨j, n, out, r, h'', _, _, _, pk, rfl, rfl, e3, e4, e5, e6, e7, _, _, he⟩ :=
    certify_call hL ha hb hs hc hst hal h1
  cases e5
  obtain ⟨i', path', m, m1, m2, hm, _, m3, m4⟩ := C43_request_partial (s := ⟨s.st, s.w, out⟩) hst hd e3 he
  obtain rfl := m1.unique hr
  obtain rfl := m2.unique hp
  obtain ⟨y, hy⟩ := Option.isSome_iff_exists.1 (m3 hsvn)
  obtain ⟨m', hm', hsig⟩ := C82_request (s := ⟨s.st, s.w, out⟩) hL ha hx hV hst e3 he
  obtain rfl := Option.some.inj (hm'.symm.trans hm)
  obtain ⟨c1, c2, c3, _, c5⟩ := C44_request (s := ⟨s.st, s.w, out⟩) hst hd e3 he hm hy
  have hno : extOf Suite.oidSubjectKeyId y.exts = none := by
    obtain ⟨D, w1, t, w2, g1, g2, g3, g4⟩ := leaf_csr (s := ⟨s.st, s.w, out⟩) hst hd e3 he
    obtain ⟨_, _, _, _, _, _, _, _, _, _, _, _, _, f3, _, _, f6⟩ := request_facts g2 (chain_le hst g1) (hd.named g1) g3
    rw [g4] at hm
    obtain rfl := Option.some.inj (hm.symm.trans f3)
    obtain ⟨rfl, _⟩ := f6 y hy
    exact noSki_found (by simp [Draft.subject])
  refine ⟨m', y, e6 ▸ hm, hsig, hy, ?_, pubKey_passes (hkey m' y rfl (e6 ▸ hm) hy),
    kept_default (s := ⟨s.st, s.w, out⟩) hst he e7⟩
  exact suite_passes (ca := false)
    (C77_request (s := ⟨s.st, s.w, out⟩) hst hd (device_hashes hL) e3 he hm hy).2.1 c1 c2 c3 hno
    (fun hf => nomatch hf) (fun u hu => by cases hu; exact c5) (m4 y hy)

/-- C84: the check of measurements passes exactly for the measurements of the context, and only if the
instance supports recursive measurements; without, the certificate has no cumulative one. -/
theorem C84_measurements {h h' : Handle} {l kx ky cert : Bytes} {f : U32} {i : Nat} {path : List Nat}
    (hL : L.Total) (ha : a.Fit) (hb : Built cfg a) (hs : cfg.Standard) (hc : Connected L a cfg c)
    (hst : InService s.st) (hal : addr % 4 = 0)
    (hr : Resolves s.st h loc i) (hp : Path s.st i path) (hsvn : SvnsAlike (chainOf s.st path))
    (h1 : c.call (simSend ((device L a cfg.profile).env cfg) loc addr) (.certifyKey h l 0 f) (some s) =
      (.ok (.key h' kx ky cert), some s1)) :
    ∃ y t, readCert cert = some y ∧ Suite.getTcbInfo y.exts (marksCritical s.st) = some t ∧
      ∀ current cumulative, Suite.verifyMeasurements t current cumulative = true ↔
        s.st.supports Feature.recursive ∧ current = (s.st.at i).tci.current.toList ∧
          cumulative = (s.st.at i).tci.cumulative.toList := by
  obtain ⟨_, _, hd, _⟩ := C58_meets (cfg := cfg) (L := L) hL ha 0
  obtain ⟨j, m, out, r, h'', _, _, _, pk, rfl, rfl, e3, e4, e5, e6, e7, _, _, he⟩ :=
    certify_call hL ha hb hs hc hst hal h1
  cases e5
  obtain ⟨i', path', m1, m2, _, m3, m4⟩ := C43_certificate_partial (s := ⟨s.st, s.w, out⟩) hst hd e3 he
  obtain rfl := m1.unique hr
  obtain rfl := m2.unique hp
  obtain ⟨y, hy⟩ := Option.isSome_iff_exists.1 (m3 hsvn)
  have hcr := (C77_certificate_partial (s := ⟨s.st, s.w, out⟩) hst hd (device_hashes hL) e3 he hy).critical
  have hg : Suite.getMultiTcbInfo y.exts (marksCritical s.st) = _ :=
    getter_some (m4 y hy) (fun h => by
      unfold tcbInfosOf; rw [show extOf (oidBody [2, 23, 133, 5, 4, 5]) y.exts = none from h])
      (critical_of hcr).2.2.2.2.2.2
  obtain ⟨tl, htl⟩ : ∃ tl, path' = i' :: tl := by cases hp <;> exact ⟨_, rfl⟩
  refine ⟨y, reported cfg.profile (s.st.supports Feature.recursive) (s.st.at i').tci, e6 ▸ hy, ?_, ?_⟩
  · unfold Suite.getTcbInfo
    rw [hg, htl]
    simp [chainOf]
  · intro current cumulative
    by_cases hR : s.st.supports Feature.recursive
    · simp only [Suite.verifyMeasurements, reported, hR, decide_true, if_true, Bool.and_eq_true, beq_iff_eq, true_and]
      exact and_congr eq_comm eq_comm
    · simp [Suite.verifyMeasurements, reported, hR]

end

namespace Ref

/-- A client connects, creates the default context and has its key certified. -/
def meetFor (format : U32) : Bool :=
  match newClient anchorWires 3 (some (simStart std lib anchor features.args).2) with
  | (.ok c, some s) =>
    match c.call anchorWires (.initialize 0x40000000) (some s) with
    | (.ok _, some s) =>
      (match s.st.findActive Handle.default 3 with | .ok i => i == 0 | _ => false) &&
      (s.st.at 0).parentIdx == 255 && (s.st.at 0).state != .inactive &&
      (s.st.at 0).tci.current.toList == List.replicate 32 0 &&
      match c.call anchorWires (.certifyKey Handle.default (List.replicate 32 1) format 0) (some s) with
      | (.ok (.key _ _ _ _), some _) => true
      | _ => false
    | _ => false
  | _ => false

/-- The client before it has the key certified. -/
theorem met_facts {format : U32} (ht : meetFor format = true) :
    ∃ (c : Client) (s s1 : Sys std (Soft (lib.crypto std.profile) × Unit)) (h : Handle)
    (kx ky crt : Bytes), Connected lib anchor std c ∧ InService s.st ∧ Resolves s.st Handle.default 3 0 ∧
    Path s.st 0 [0] ∧ SvnsAlike (chainOf s.st [0]) ∧ (s.st.at 0).tci.current.toList = List.replicate 32 0 ∧
    c.call anchorWires (.certifyKey Handle.default (List.replicate 32 1) format 0) (some s) =
      (.ok (.key h kx ky crt), some s1) := by
  have hbu : Built std anchor := ⟨rfl, by decide +kernel⟩
  unfold meetFor at ht
  obtain ⟨s0, hs0, hr0, _⟩ := C59_start (cfg := std) (L := lib) (a := anchor) features.args
  rw [hs0] at ht
  split at ht
  case h_2 => cases ht
  rename_i c s1 hc
  have hcon : Connected lib anchor std c := ⟨_, _, _, _, _, .reached hr0, (by decide), hc⟩
  have hs1 : InService s1.st := by
    obtain ⟨c', h1, _⟩ := (C62_connects_partial (loc := 3) (addr := 8) lib_total anchor_fit hbu std_standard
      (.reached hr0) (by decide) 3).1 rfl
    have := h1.symm.trans hc
    injection this with _ e
    injection e with e
    rw [← e]; exact .reached hr0
  split at ht
  case h_2 => cases ht
  rename_i v2 s2 hc2
  have hs2 := call_inService lib_total anchor_fit hbu std_standard hcon hs1 (by decide) hc2
  simp only [Bool.and_eq_true, beq_iff_eq, bne_iff_ne] at ht
  obtain ⟨⟨⟨⟨d1, d2⟩, d3⟩, d4⟩, ht⟩ := ht
  have hr : Resolves s2.st Handle.default 3 0 := by
    split at d1
    · rename_i i hi
      rw [beq_iff_eq] at d1
      subst d1
      exact findActive_iff.1 hi
    · cases d1
  split at ht
  case h_2 => cases ht
  rename_i h kx ky crt s3 hc3
  refine ⟨c, s2, s3, h, kx, ky, crt, hcon, hs2, hr, .root d3 d2, ?_, d4, hc3⟩
  intro t ht u hu
  simp only [chainOf, List.reverse_singleton, List.map_cons, List.map_nil, List.mem_singleton] at ht hu
  rw [ht, hu]

/-- The checks pass for the key of the default context; they would not with the label 2, 2, ..., nor with
another issuer's key identifier. -/
example : ∃ (c : Client) (s : Sys std (Soft (lib.crypto std.profile) × Unit)) (r : _) (h : Handle)
    (kx ky crt : Bytes) (y : Cert),
    c.call anchorWires (.certifyKey Handle.default (List.replicate 32 1) 0 0) (some s) = (.ok (.key h kx ky crt), r) ∧
    h = Handle.default ∧ readCert crt = some y ∧ ∀ label ski,
    (Suite.checkCertificateExtension (fun b => (lib.sha256 b).toList) (fun b => (lib.sha384 b).toList)
      y.exts (some label) (some (kx, ky)) true ski false (marksCritical s.st) = true ↔
      label = List.replicate 32 1 ∧ ski = List.replicate 20 8) := by
  obtain ⟨c, s, s1, h, kx, ky, crt, hcon, hs, hr, hp, hsvn, _, hc⟩ := met_facts (format := 0) (by decide +kernel)
  have hbu : Built std anchor := ⟨rfl, by decide +kernel⟩
  obtain ⟨x, hx, h1, h2⟩ := anchor_alias
  obtain ⟨chain, k, y, _, _, g3, g4, g5, _, g7⟩ := C84_certificate (fuel := 1) lib_total anchor_fit hbu std_standard hcon hx hs
    (by decide) (by decide +kernel) (by decide +kernel) hr hp hsvn hc
  have hk : k = List.replicate 20 8 := Option.some.inj (g3.symm.trans hx.keyId)
  refine ⟨c, s, _, h, kx, ky, crt, y, hc, by simpa [Suite.checkCertifyKeyRespHandle] using g7, g4, fun label ski => ?_⟩
  constructor
  · intro hl
    unfold Suite.checkCertificateExtension at hl g5
    split at g5
    · cases g5
    rename_i ca hca
    rw [hca] at hl
    simp only [Bool.and_eq_true, Bool.not_true, Bool.false_or, Suite.checkTcgUeid, Suite.checkKeyIdentifier,
      beq_iff_eq] at hl g5
    have e1 := hl.1.1.1.2.symm.trans g5.1.1.1.2
    have e2 := hl.1.1.2.2.symm.trans g5.1.1.2.2
    exact ⟨Option.some.inj e1, (Option.some.inj (Option.some.inj e2)).trans hk⟩
  · rintro ⟨rfl, rfl⟩
    exact hk ▸ g5

/-- The same for a request; the issuer's key identifier does not matter. -/
example : ∃ (c : Client) (s : Sys std (Soft (lib.crypto std.profile) × Unit)) (r : _) (h : Handle)
    (kx ky crt : Bytes) (x : Cert) (m : Message) (y : Request),
    c.call anchorWires (.certifyKey Handle.default (List.replicate 32 1) 1 0) (some s) = (.ok (.key h kx ky crt), r) ∧
    readMessage crt = some m ∧ SignedBy strict x m ∧ readRequest m.content = some y ∧
    Suite.checkCertificateExtension (fun b => (lib.sha256 b).toList) (fun b => (lib.sha384 b).toList)
      y.exts (some (List.replicate 32 1)) (some (kx, ky)) false [] false (marksCritical s.st) = true ∧
    Suite.checkPubKey std.profile y.key kx ky = true := by
  obtain ⟨c, s, s1, h, kx, ky, crt, hcon, hs, hr, hp, hsvn, _, hc⟩ := met_facts (format := 1) (by decide +kernel)
  have hbu : Built std anchor := ⟨rfl, by decide +kernel⟩
  obtain ⟨x, hx, _⟩ := anchor_alias
  obtain ⟨m, y, g1, g2, g3, g4, g5, _⟩ := C84_request (issuerSki := []) lib_total anchor_fit hbu std_standard hcon hx
    strict_takes hs (by decide) hr hp hsvn hc
  exact ⟨c, s, _, h, kx, ky, crt, x, m, y, hc, g1, g2, g3, g4, g5⟩

/-- Nothing but 32 zeros passes as the current measurement of the default context. -/
example : ∃ (c : Client) (s : Sys std (Soft (lib.crypto std.profile) × Unit)) (r : _) (h : Handle)
    (kx ky crt : Bytes) (y : Cert) (t : TcbFields),
    c.call anchorWires (.certifyKey Handle.default (List.replicate 32 1) 0 0) (some s) = (.ok (.key h kx ky crt), r) ∧
    readCert crt = some y ∧ Suite.getTcbInfo y.exts (marksCritical s.st) = some t ∧
    ∀ current cumulative, Suite.verifyMeasurements t current cumulative = true → current = List.replicate 32 0 := by
  obtain ⟨c, s, s1, h, kx, ky, crt, hcon, hs, hr, hp, hsvn, hz, hc⟩ := met_facts (format := 0) (by decide +kernel)
  have hbu : Built std anchor := ⟨rfl, by decide +kernel⟩
  obtain ⟨y, t, g1, g2, g3⟩ := C84_measurements lib_total anchor_fit hbu std_standard hcon hs (by decide) hr hp hsvn hc
  exact ⟨c, s, _, h, kx, ky, crt, y, t, hc, g1, g2, fun a b hv => ((g3 a b).1 hv).2.1.trans hz⟩

/-- The certificate of an exported CDI passes. -/
example (w : Soft (lib.crypto cfg.profile)) (hw : w.slots = []) : ∃ n s' y,
    exec ((device lib anchor cfg.profile).env cfg) (.derive exportCmd) 3 (sys w) = (.ok n, s') ∧
    readCert (exportedCertIn s'.out n) = some y ∧
    Suite.checkCertificateExtension (fun b => (lib.sha256 b).toList) (fun b => (lib.sha384 b).toList)
      y.exts none none true (List.replicate 20 8) true (marksCritical (sys w).st) = true := by
  obtain ⟨n, s', h⟩ : ∃ n s', exec ((device lib anchor cfg.profile).env cfg) (.derive exportCmd) 3 (sys w) =
      (.ok n, s') := by
    rw [C58_succeeds (s := sys w) lib_total anchor_fit anchor_built (.reached booted_reach) fresh_out]
    refine ⟨export_allowed, 0, booted_resolves, ?_⟩
    rw [if_neg (by decide), if_pos (by decide)]
    refine ⟨hw, ⟨[0], _, _, booted_path, ⟨rfl, rfl⟩, ?_⟩, fun _ => .inl booted_at.2.1⟩
    exact valid_of (b := 69) (by decide) rfl
  obtain ⟨x, hx, _⟩ := anchor_alias
  obtain ⟨y, k, g1, g2, g3⟩ := C84_exported (s := sys w) (c := exportCmd) (loc := 3) lib_total anchor_fit hx (.reached booted_reach) (by decide)
    booted_resolves booted_path booted_svns h
  obtain rfl : k = List.replicate 20 8 := Option.some.inj (g2.symm.trans hx.keyId)
  exact ⟨n, s', y, h, g1, g3 none nofun⟩

end Ref
end Dpe
