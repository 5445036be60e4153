import Verif.Spec.Anchor
import Verif.Props.Rfc
import Verif.Examples.Anchor
/-
C82: what the reference device issues chains to the built-in certificate, which it also hands out.
-/
namespace Dpe
section
variable {cfg : Cfg} {L : Lib} {a : Artifact} {x y : Cert} {V : Verifier} {loc : U32} {n : Nat}
  {s s' : Sys cfg (Soft (L.crypto cfg.profile) × Unit)}

theorem given_issuer (ha : a.Fit) {w w' : Soft (L.crypto cfg.profile) × Unit} {i : Bytes}
    (h : IssuerGiven (device L a cfg.profile) w i w') : i = a.issuer := by
  obtain ⟨num, name, h3, h4, h5⟩ := h
  rw [device, device_issuer ha] at h3
  obtain ⟨rfl, rfl⟩ := Prod.mk.inj (Except.ok.inj (Prod.mk.inj h3).1)
  rw [h5, zeroPadded_take ha.issuer]

theorem given_keyId (hx : AliasCert L cfg.profile a x) {w w' : Soft (L.crypto cfg.profile) × Unit} {k : BArr 20}
    (h : (device L a cfg.profile).issuerKeyId w = (.ok k, w')) : k.toList = a.keyId := by
  have h1 : ¬ a.keyId.length < 20 := by rw [hx.size]; decide
  simp only [device, softOps, defaultPlatform, if_neg h1] at h
  have := Except.ok.inj (Prod.mk.inj h).1
  rw [← this, zeroPadded_all (Nat.not_lt.1 h1), ← hx.size, List.take_length]

theorem alias_signed (hV : V.Takes L) (hx : AliasCert L cfg.profile a x) {w w' : Soft (L.crypto cfg.profile) × Unit}
    {m : Bytes} {sig : Sig} (h : (device L a cfg.profile).signAlias (.buffer m) w = (.ok sig, w')) :
    V x.key (.buffer m) (sigContents sig) := by
  obtain ⟨ka, pka, r1, r2, r3⟩ := hx.key
  obtain ⟨⟨ka', t1, t2⟩, _⟩ := std_aliasSigned.1 h
  rw [r1] at t1
  obtain rfl := Option.some.inj t1
  rw [r3]
  exact hV _ _ _ _ _ r2 t2

theorem critical_known {b : Bool} {es : List Ext} (h : CriticalOnes b es) : ∀ e ∈ es, e.critical = true →
    e.oid ∈ [basicConstraintsId, keyUsageId, extKeyUsageId, multiTcbInfoId, ueidId] := by
  intro e he hc
  rcases (h e he).1 hc with h | h | h | ⟨_, h | h⟩ <;> rw [h] <;> simp

/-- C82: every certificate that CertifyKey of the reference device makes and that can be read is certified
by the built-in certificate, if that is self-issued, and only then. -/
theorem C82_certificate {c : CertifyCmd} (hL : L.Total) (ha : a.Fit) (hx : AliasCert L cfg.profile a x)
    (hV : V.Takes L) (hst : InService s.st) (hf : c.format = 0)
    (h : exec ((device L a cfg.profile).env cfg) (.certify c) loc s = (.ok n, s'))
    (hy : readCert (certIn c s'.out n) = some y) :
    y.issuer = x.issuer ∧ (Certifies V x y ↔ x.subject = x.issuer) := by
  obtain ⟨_, _, hd, _⟩ := C58_meets (cfg := cfg) (L := L) hL ha 0
  have hfol := C77_certificate_partial hst hd (device_hashes hL) hf h hy
  obtain ⟨_, _, hi⟩ := hfol.issuer
  have hi := (given_issuer ha hi).trans hx.issuer
  obtain ⟨_, _, _, _, _, k, w, w', hk, hak⟩ := C44_certificate hst hd hf h hy
  obtain ⟨tbs, sig, w2, w3, hs, _, hr⟩ := C45_certificate hst hd hf h
  obtain ⟨e1, _, e2⟩ := hr y hy
  refine ⟨hi, fun hc => hc.name.symm.trans hi, fun hself => ⟨?_, hi.trans hself.symm, ?_, hx.ca, hx.usage,
    critical_known hfol.critical⟩⟩
  · rw [e1, e2]; exact alias_signed hV hx hs
  · intro k' hk'
    rw [hak, given_keyId hx hk, ← hk', hx.keyId]

/-- C82: the same for the certificate of an exported CDI. -/
theorem C82_exported {c : DeriveCmd cfg} (hL : L.Total) (ha : a.Fit) (hx : AliasCert L cfg.profile a x)
    (hV : V.Takes L) (hst : InService s.st) (he : Bit c.flags DFlag.exportCdi)
    (h : exec ((device L a cfg.profile).env cfg) (.derive c) loc s = (.ok n, s'))
    (hy : readCert (exportedCertIn s'.out n) = some y) :
    y.issuer = x.issuer ∧ (Certifies V x y ↔ x.subject = x.issuer) := by
  obtain ⟨_, _, hd, _⟩ := C58_meets (cfg := cfg) (L := L) hL ha 0
  have hfol := C77_exported_partial hst hd (device_hashes hL) he h hy
  obtain ⟨_, _, hi⟩ := hfol.issuer
  have hi := (given_issuer ha hi).trans hx.issuer
  obtain ⟨_, _, _, ⟨k, w, w', hk, hak⟩, _⟩ := C44_exported hst hd he h hy
  obtain ⟨tbs, sig, w2, w3, hs, _, hr⟩ := C45_exported hst hd he h
  obtain ⟨e1, _, e2⟩ := hr y hy
  refine ⟨hi, fun hc => hc.name.symm.trans hi, fun hself => ⟨?_, hi.trans hself.symm, ?_, hx.ca, hx.usage,
    critical_known hfol.critical⟩⟩
  · rw [e1, e2]; exact alias_signed hV hx hs
  · intro k' hk'
    rw [hak, given_keyId hx hk, ← hk', hx.keyId]

theorem beValue_intBody (m : Nat) : beValue (intBody m) = m := by
  unfold intBody
  have := beValue_digits m
  split
  · rename_i h; rw [h] at this; rw [← this]; rfl
  · rename_i d ds h
    rw [h] at this
    split
    · exact this
    · rw [← this]; simp [beValue]

/-- C82: every message with a certification request names the built-in certificate as its signer's and is
signed with its key, whoever issued that. -/
theorem C82_request {c : CertifyCmd} (hL : L.Total) (ha : a.Fit) (hx : AliasCert L cfg.profile a x)
    (hV : V.Takes L) (hst : InService s.st) (hf : c.format = 1)
    (h : exec ((device L a cfg.profile).env cfg) (.certify c) loc s = (.ok n, s')) :
    ∃ m, readMessage (certIn c s'.out n) = some m ∧ SignedBy V x m := by
  obtain ⟨_, _, hd, _⟩ := C58_meets (cfg := cfg) (L := L) hL ha 0
  obtain ⟨D, w1, t, w2, h1, h2, h3, h4⟩ := leaf_csr hst hd hf h
  obtain ⟨cdi, key, sig, sig', _, _, _, _, _, _, g4, _, _, f3, _⟩ :=
    request_facts h2 (chain_le hst h1) (hd.named h1) h3
  obtain ⟨_, _, _, _, _, _, _, _, _, _, _, _, _, _, _, _, _, _, _, _, _, _, _, hsig⟩ := h1
  rw [device, device_signer ha] at hsig
  have hsig := Except.ok.inj (Prod.mk.inj hsig).1
  rw [h4]
  refine ⟨_, f3, ?_, ?_, alias_signed hV hx g4⟩
  · obtain ⟨m, hm⟩ := hx.number
    show (signerIdentifier' D.signer).der = _
    rw [← hsig, ← hx.issuer, ← hx.serial, hx.serial, hm]
    simp only [signerIdentifier', seqOf, asnInt, Asn.der, Asn.ders, beValue_intBody, List.append_nil, List.nil_append]
  · show [UInt8.ofNat (cmsVersionOf D.signer)] = _
    rw [← hsig]; rfl

end

section
variable {cfg : Cfg} {L : Lib} {a : Artifact} {x y : Cert} {V : Verifier} {loc : U32} {addr : Nat} {c : Client}
  {s s1 : Sys cfg (Soft (L.crypto cfg.profile) × Unit)}

/-- C82, over the Go client: who retrieves the certificate chain and has a key certified holds a certificate
that the retrieved one certifies, provided that the built-in certificate is self-issued and its length is
no multiple of 2048 (`C63_multiple`), and that the SVNs on the way to the root have encodings of the
same length (`C41_false`). -/
theorem C82_client {h h' : Handle} {l kx ky cert : Bytes} {f : U32} {i fuel : Nat} {path : List Nat}
    (hL : L.Total) (ha : a.Fit) (hb : Built cfg a) (hs : cfg.Standard) (hc : Connected L a cfg c)
    (hx : AliasCert L cfg.profile a x) (hself : x.subject = x.issuer) (hV : V.Takes L)
    (hst : InService s.st) (hal : addr % 4 = 0) (hn : a.chain.length % 2048 ≠ 0)
    (hfu : a.chain.length / 2048 + 1 ≤ fuel)
    (hr : Resolves s.st h loc i) (hp : Path s.st i path) (hsvn : SvnsAlike (chainOf s.st path))
    (h1 : c.call (simSend ((device L a cfg.profile).env cfg) loc addr) (.certifyKey h l 0 f) (some s) =
      (.ok (.key h' kx ky cert), some s1)) :
    ∃ chain y, c.getChain (simSend ((device L a cfg.profile).env cfg) loc addr) fuel (some s) =
        some (.ok chain, some s) ∧
      readCert chain = some x ∧ readCert cert = some y ∧ Certifies V x y := by
  obtain ⟨_, _, hd, _⟩ := C58_meets (cfg := cfg) (L := L) hL ha 0
  obtain ⟨j, m, out, r, h'', _, _, _, pk, rfl, rfl, e3, e4, e5, e6, _, _, _, he⟩ :=
    certify_call hL ha hb hs hc hst hal h1
  cases e5
  obtain ⟨i', path', m1, m2, _, m3, _⟩ := C43_certificate_partial (s := ⟨s.st, s.w, out⟩) hst hd e3 he
  obtain rfl := m1.unique hr
  obtain rfl := m2.unique hp
  obtain ⟨y, hy⟩ := Option.isSome_iff_exists.1 (m3 hsvn)
  refine ⟨_, y, C63_chain_partial hL ha hb hs hc hst hal hn hfu, hx.cert, e6 ▸ hy, ?_⟩
  exact (C82_certificate (s := ⟨s.st, s.w, out⟩) hL ha hx hV hst e3 he hy).2.2 hself

end

namespace Ref

theorem cnOf_wellFormed {x : Bytes} (h : x.length < 100) : WellFormed (cnOf x) := by
  have l : ∀ (t : UInt8) (b : Bytes), b.length < 127 → (tlv t b).length ≤ b.length + 2 := by
    intro t b h
    rw [tlv_length]
    unfold tlvLen derLen
    rw [if_pos (by omega), List.length_singleton]
    omega
  have o : (tlv 0x06 commonNameId).length = 5 := by decide +kernel
  have l1 := l 0x0C x (by omega)
  have l2 := l 0x30 (tlv 0x06 commonNameId ++ tlv 0x0C x) (by rw [List.length_append]; omega)
  rw [List.length_append] at l2
  have l3 := l 0x31 (tlv 0x30 (tlv 0x06 commonNameId ++ tlv 0x0C x)) (by omega)
  have one : ∀ {b : Bytes}, WellFormed b → WellFormedAll b := fun {b} h => by
    have := WellFormedAll.cons h .nil
    rwa [List.append_nil] at this
  refine .node rfl rfl (by omega) (one (.node rfl rfl (by omega) (one (.node rfl rfl
    (by rw [List.length_append]; omega) (.cons (.prim rfl rfl (by decide)) (one (.prim rfl rfl (by omega))))))))

theorem anchor_fit : anchor.Fit where
  der := by decide +kernel
  short := by decide +kernel
  issuer := by decide +kernel
  issuerDer := cnOf_wellFormed (by decide)
  issuerSeq := ⟨_, rfl⟩
  serial := by decide
  serialShort := by decide
  keyId := by decide

theorem leased_fit : leased.Fit where
  der := by decide +kernel
  short := by decide +kernel
  issuer := by decide +kernel
  issuerDer := cnOf_wellFormed (by decide)
  issuerSeq := ⟨_, rfl⟩
  serial := by decide
  serialShort := by decide
  keyId := by decide

/-- What is to be known about a certificate. -/
def facts (x : Cert) : List Bytes × Option Bytes × Option Bool × Option (List Nat) :=
  ([x.issuer, x.subject, x.serial, x.key], skidOf x.exts, isCa x.exts, keyUsages x.exts)

theorem alias_of {i : Bytes} (h : (readCert (aliasCertOf i)).map facts =
    some ([i, aliasName, [0, 0x80, 6], aliasInfo], some (List.replicate 20 8), some true, some [5])) :
    ∃ x, AliasCert lib .p256 (anchorOf i) x ∧ x.issuer = i ∧ x.subject = aliasName := by
  obtain ⟨x, hx, hf⟩ := Option.map_eq_some_iff.1 h
  simp only [facts, Prod.mk.injEq, List.cons.injEq, and_true] at hf
  obtain ⟨⟨h1, h2, h3, h4⟩, h5, h6, h7⟩ := hf
  exact ⟨x, ⟨hx, h1.symm, h3.symm, h5, ⟨0x8006, h3.trans (by decide +kernel)⟩, rfl,
    h4 ▸ ⟨[1, 2, 3], _, rfl, ⟨_, rfl, rfl⟩, rfl⟩, h6, _, h7, by simp⟩, h1, h2⟩

theorem anchor_alias : ∃ x, AliasCert lib .p256 anchor x ∧ x.issuer = aliasName ∧ x.subject = aliasName :=
  alias_of (by decide +kernel)

theorem leased_alias : ∃ x, AliasCert lib .p256 leased x ∧ x.issuer = cnOf (ascii "Vendor CA") ∧ x.subject = aliasName :=
  alias_of (by decide +kernel)

/-- CertifyKey for the default context. -/
def certifyCmd (format : U32) : CertifyCmd := .p256 Handle.default 0 format (Vector.replicate 32 1)

theorem certify_allowed {x : U32} (hx : x = 0 ∨ x = 1) : NoRefusal (rules booted 3 (.certify (certifyCmd x))) := by
  have h : (exec (cfg := cfg) { Toy.ops with certGen := fun _ _ _ n win =>
      ((.ok ⟨3, .p256 (Vector.replicate 32 3) (Vector.replicate 32 4), Vector.replicate 32 9⟩, n),
        [1, 2, 3] ++ win.drop 3) } (.certify (certifyCmd x)) 3 ⟨booted, 0, Toy.buf⟩).1.toBool = true := by
    rcases hx with rfl | rfl <;> decide +kernel
  generalize hy : exec (cfg := cfg) { Toy.ops with certGen := fun _ _ _ n win =>
      ((.ok ⟨3, .p256 (Vector.replicate 32 3) (Vector.replicate 32 4), Vector.replicate 32 9⟩, n),
        [1, 2, 3] ++ win.drop 3) } (.certify (certifyCmd x)) 3 ⟨booted, 0, Toy.buf⟩ = y at h
  obtain ⟨r, s'⟩ := y
  cases r with
  | error e => cases h
  | ok n => exact C53_success (σ := Nat) (s := ⟨booted, 0, Toy.buf⟩) (.reached booted_reach) hy

theorem valid_of {cdi info priv : Bytes} {b : UInt8} {label : Bytes} (hb : b ≠ 0xFF)
    (h : (lib.crypto cfg.profile).hkdfKey cdi (b :: label) info = .ok priv) :
    ValidKey (lib.crypto cfg.profile) priv := by
  have h : (.ok (pad 32 ((b :: label) ++ (info ++ cdi))).toList : Except CryptoErr Bytes) = .ok priv := h
  have h := Except.ok.inj h
  refine valid256.2 ⟨priv, ?_⟩
  show (if priv.head? = some 0xFF then none else some priv) = some priv
  rw [if_neg]
  rw [← h]
  unfold pad
  rw [List.head?_eq_getElem?]
  simp [hb]

theorem certifies {a : Artifact} (ha : a.Fit) (hb : Built cfg a) (w : Soft (lib.crypto cfg.profile)) {x : U32}
    (hx : x = 0 ∨ x = 1) : ∃ n s', exec ((device lib a cfg.profile).env cfg) (.certify (certifyCmd x)) 3 (sys w) =
      (.ok n, s') := by
  rw [C58_succeeds (s := sys w) lib_total ha hb (.reached booted_reach) fresh_out]
  refine ⟨certify_allowed hx, 0, booted_resolves, ⟨[0], _, _, booted_path, ⟨rfl, rfl⟩, ?_⟩, rfl, .inl booted_at.2.1⟩
  exact valid_of (b := 1) (label := List.replicate 31 1) (by decide) rfl

theorem anchor_built : Built cfg anchor := ⟨rfl, by decide +kernel⟩
theorem leased_built : Built cfg leased := ⟨rfl, by decide +kernel⟩

theorem booted_svns : SvnsAlike (chainOf booted [0]) := by
  intro t ht u hu
  simp only [chainOf, List.reverse_singleton, List.map_cons, List.map_nil, List.mem_singleton] at ht hu
  rw [ht, hu]

theorem issued {a : Artifact} (ha : a.Fit) (hb : Built cfg a) (w : Soft (lib.crypto cfg.profile)) :
    ∃ n s' y, exec ((device lib a cfg.profile).env cfg) (.certify (certifyCmd 0)) 3 (sys w) = (.ok n, s') ∧
      readCert (certIn (certifyCmd 0) s'.out n) = some y := by
  obtain ⟨_, _, hd, _⟩ := C58_meets (cfg := cfg) (L := lib) lib_total ha 0
  obtain ⟨n, s', h⟩ := certifies ha hb w (.inl rfl)
  obtain ⟨i, path, m1, m2, _, m3, _⟩ := C43_certificate_partial (s := sys w) (.reached booted_reach) hd rfl h
  obtain rfl := m1.unique booted_resolves
  obtain rfl := m2.unique booted_path
  obtain ⟨y, hy⟩ := Option.isSome_iff_exists.1 (m3 booted_svns)
  exact ⟨n, s', y, h, hy⟩

/-- With a self-issued built-in certificate, the certificate of the default context chains to it. -/
example (w : Soft (lib.crypto cfg.profile)) : ∃ n s' x y,
    exec ((device lib anchor cfg.profile).env cfg) (.certify (certifyCmd 0)) 3 (sys w) = (.ok n, s') ∧
    readCert anchor.chain = some x ∧ readCert (certIn (certifyCmd 0) s'.out n) = some y ∧
    Certifies strict x y ∧ y.issuer = aliasName := by
  obtain ⟨n, s', y, h, hy⟩ := issued anchor_fit anchor_built w
  obtain ⟨x, hx, h1, h2⟩ := anchor_alias
  have := C82_certificate (s := sys w) lib_total anchor_fit hx strict_takes (.reached booted_reach) rfl h hy
  exact ⟨n, s', x, y, h, hx.cert, hy, this.2.2 (h2.trans h1.symm), this.1.trans h1⟩

/-- With one that somebody else has issued it does not: the device names the issuer of the alias key's
certificate as the issuer of its own certificates. -/
example (w : Soft (lib.crypto cfg.profile)) : ∃ n s' x y,
    exec ((device lib leased cfg.profile).env cfg) (.certify (certifyCmd 0)) 3 (sys w) = (.ok n, s') ∧
    readCert leased.chain = some x ∧ readCert (certIn (certifyCmd 0) s'.out n) = some y ∧
    ¬ Certifies strict x y ∧ y.issuer = cnOf (ascii "Vendor CA") ∧ x.subject = cnOf (ascii "DPE Test Alias") := by
  obtain ⟨n, s', y, h, hy⟩ := issued leased_fit leased_built w
  obtain ⟨x, hx, h1, h2⟩ := leased_alias
  have := C82_certificate (s := sys w) lib_total leased_fit hx strict_takes (.reached booted_reach) rfl h hy
  refine ⟨n, s', x, y, h, hx.cert, hy, fun hc => ?_, this.1.trans h1, h2⟩
  have h3 := this.2.1 hc
  rw [h1, h2] at h3
  exact absurd h3 (by decide +kernel)

/-- A message names either of them. -/
example (w : Soft (lib.crypto cfg.profile)) : ∃ n s' x m,
    exec ((device lib leased cfg.profile).env cfg) (.certify (certifyCmd 1)) 3 (sys w) = (.ok n, s') ∧
    readCert leased.chain = some x ∧ readMessage (certIn (certifyCmd 1) s'.out n) = some m ∧
    SignedBy strict x m ∧ m.signer = tlv 0x30 (cnOf (ascii "Vendor CA") ++ [2, 3, 0, 0x80, 6]) := by
  obtain ⟨n, s', h⟩ := certifies leased_fit leased_built w (.inr rfl)
  obtain ⟨x, hx, h1, h2⟩ := leased_alias
  obtain ⟨m, hm, hs⟩ := C82_request (s := sys w) lib_total leased_fit hx strict_takes (.reached booted_reach) rfl h
  refine ⟨n, s', x, m, h, hx.cert, hm, hs, ?_⟩
  rw [hs.signer, h1, ← hx.serial]
  decide +kernel

/-- The certificate of an exported CDI chains to the self-issued certificate. -/
example (w : Soft (lib.crypto cfg.profile)) (hw : w.slots = []) : ∃ n s' x y,
    exec ((device lib anchor cfg.profile).env cfg) (.derive exportCmd) 3 (sys w) = (.ok n, s') ∧
    readCert anchor.chain = some x ∧ readCert (exportedCertIn s'.out n) = some y ∧ Certifies strict x y := by
  obtain ⟨n, s', h⟩ : ∃ n s', exec ((device lib anchor cfg.profile).env cfg) (.derive exportCmd) 3 (sys w) =
      (.ok n, s') := by
    rw [C58_succeeds (s := sys w) lib_total anchor_fit anchor_built (.reached booted_reach) fresh_out]
    refine ⟨export_allowed, 0, booted_resolves, ?_⟩
    rw [if_neg (by decide), if_pos (by decide)]
    refine ⟨hw, ⟨[0], _, _, booted_path, ⟨rfl, rfl⟩, ?_⟩, fun _ => .inl booted_at.2.1⟩
    exact valid_of (b := 69) (by decide) rfl
  obtain ⟨_, _, hd, _⟩ := C58_meets (cfg := cfg) (L := lib) lib_total anchor_fit 0
  obtain ⟨i, path, m1, m2, _, m3, _⟩ := C43_exported_partial (s := sys w) (.reached booted_reach) hd (by decide) h
  obtain rfl := m1.unique booted_resolves
  obtain rfl := m2.unique booted_path
  obtain ⟨y, hy⟩ := Option.isSome_iff_exists.1 (m3 booted_svns)
  obtain ⟨x, hx, h1, h2⟩ := anchor_alias
  have := C82_exported (s := sys w) lib_total anchor_fit hx strict_takes (.reached booted_reach) (by decide) h hy
  exact ⟨n, s', x, y, h, hx.cert, hy, this.2.2 (h2.trans h1.symm)⟩

/-- A client gets both certificates, and the one certifies the other. -/
example : ∃ (c : Client) (s : Sys std (Soft (lib.crypto std.profile) × Unit)) (r : _) (h : Handle)
    (kx ky chain cert : Bytes) (x y : Cert),
    c.getChain anchorWires 1 (some s) = some (.ok chain, some s) ∧
    c.call anchorWires (.certifyKey Handle.default (List.replicate 32 1) 0 0) (some s) = (.ok (.key h kx ky cert), r) ∧
    readCert chain = some x ∧ readCert cert = some y ∧ Certifies strict x y := by
  have hbu : Built std anchor := ⟨rfl, by decide +kernel⟩
  have ht := met
  unfold meet at ht
  obtain ⟨s0, hs0, hr0, _⟩ := C59_start (cfg := std) (L := lib) (a := anchor) features.args
  rw [hs0] at ht
  split at ht
  case h_2 => cases ht
  rename_i c s1 hc
  have hcon : Connected lib anchor std c := ⟨_, _, _, _, _, .reached hr0, (by decide), hc⟩
  have hs1 : InService s1.st := by
    obtain ⟨c', h1, _⟩ := (C62_connects_partial (loc := 3) (addr := 8) lib_total anchor_fit hbu std_standard
      (.reached hr0) (by decide) 3).1 rfl
    have := h1.symm.trans hc
    injection this with _ e
    injection e with e
    rw [← e]; exact .reached hr0
  split at ht
  case h_2 => cases ht
  rename_i v2 s2 hc2
  have hs2 := call_inService lib_total anchor_fit hbu std_standard hcon hs1 (by decide) hc2
  simp only [Bool.and_eq_true, beq_iff_eq, bne_iff_ne] at ht
  obtain ⟨⟨⟨d1, d2⟩, d3⟩, ht⟩ := ht
  have hr : Resolves s2.st Handle.default 3 0 := by
    split at d1
    · rename_i i hi
      rw [beq_iff_eq] at d1
      subst d1
      exact findActive_iff.1 hi
    · cases d1
  split at ht
  case h_2 => cases ht
  rename_i h kx ky crt s3 hc3
  obtain ⟨x, hx, h1, h2⟩ := anchor_alias
  obtain ⟨chain, y, g1, g2, g3, g4⟩ := C82_client (fuel := 1) (path := [0]) lib_total anchor_fit hbu std_standard hcon hx
    (h2.trans h1.symm) strict_takes hs2 (by decide) (by decide +kernel) (by decide +kernel) hr (.root d3 d2) (by
      intro t ht u hu
      simp only [chainOf, List.reverse_singleton, List.map_cons, List.map_nil, List.mem_singleton] at ht hu
      rw [ht, hu]) hc3
  exact ⟨c, s2, _, h, kx, ky, chain, crt, x, y, g1, hc3, g2, g3, g4⟩

end Ref
end Dpe
