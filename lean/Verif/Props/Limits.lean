import Verif.Proofs.X509Max
import Verif.Props.Truncation
/-
C46: certificates and the advertised maximum size.

`issuedLen` (Spec/Limits) computes a length from the lengths of the ingredients, `advertised` is the
maximum certificate size of the build.
-/
namespace Dpe
variable {cfg : Cfg} {σ : Type} {ops : Ops σ} {loc : U32} {s s' : Sys cfg σ}

/-- The length of what is issued is bounded by the lengths of its ingredients. -/
theorem C46_size {kind : CertKind} {a : CertArgs} {st : State cfg} {w w1 w2 : σ} {D : Draft} {t : Asn}
    {z : Sizes} (hg : Genuine cfg.profile ops) (hp : PlatformData ops z)
    (hD : Drafted ops kind a st w D w1) (hI : Issued ops a st D kind w1 t w2)
    (hc : D.path.length ≤ z.chain) (ht : cfg.tciSize ≤ z.tci) (hl : a.ueid.length ≤ z.label)
    (hs : ∀ i ∈ D.path, (intBody (st.at i).tci.svn.toNat).length ≤ z.svn) :
    t.written.length ≤ issuedLen cfg.profile z kind :=
  (issued_max hg hp hD hI hc ht hl hs).1

theorem roomy_fits : ∀ p : Profile, ∀ n, n < 65 → 0 < n →
    issuedLen p (roomy p .leafX509 n (digestLength p)) .leafX509 ≤ advertised p n ∧
    issuedLen p (roomy p .leafCsr n (digestLength p)) .leafCsr ≤ advertised p n ∧
    issuedLen p (roomy p .exportedX509 n 48) .exportedX509 ≤ advertised p n := by
  intro p
  cases p <;> decide +kernel

/-- Security version numbers that take no fifth octet, where this matters: requests under the ML-DSA
profile. -/
def SvnsFit (cfg : Cfg) (kind : CertKind) (st : State cfg) : Prop :=
  cfg.profile = .mldsa87 → kind = .leafCsr → ∀ i, i < cfg.maxHandles → (st.at i).tci.svn.toNat < 2147483648

/-- Within the limits of `roomy` the advertised maximum is kept. -/
theorem C46_advertised_partial {kind : CertKind} {a : CertArgs} {st : State cfg} {w w1 w2 : σ}
    {D : Draft} {t : Asn} (hstd : cfg.Standard) (hg : Genuine cfg.profile ops)
    (hD : Drafted ops kind a st w D w1) (hI : Issued ops a st D kind w1 t w2)
    (hl : a.ueid.length ≤ if kind = .exportedX509 then 48 else digestLength cfg.profile)
    (hp : PlatformData ops (roomy cfg.profile kind cfg.maxHandles
      (if kind = .exportedX509 then 48 else digestLength cfg.profile)))
    (hs : SvnsFit cfg kind st) :
    t.written.length ≤ advertised cfg.profile cfg.maxHandles := by
  have hpath : Path st D.slot D.path := hD.path
  have hc := hpath.length_le
  have hf := roomy_fits cfg.profile cfg.maxHandles (by have := cfg.le64; omega) cfg.pos
  have hz : issuedLen cfg.profile (roomy cfg.profile kind cfg.maxHandles
      (if kind = .exportedX509 then 48 else digestLength cfg.profile)) kind ≤
      advertised cfg.profile cfg.maxHandles := by
    cases kind
    · exact hf.1
    · exact hf.2.1
    · exact hf.2.2
  refine Nat.le_trans (C46_size hg hp hD hI ?_ ?_ ?_ ?_) hz
  · refine Nat.le_trans hc (Nat.le_of_eq ?_)
    cases cfg.profile <;> cases kind <;> rfl
  · rw [hstd.tci]
    refine Nat.le_of_eq ?_
    cases cfg.profile <;> cases kind <;> rfl
  · refine Nat.le_trans hl (Nat.le_of_eq ?_)
    cases cfg.profile <;> cases kind <;> rfl
  · intro i hi
    by_cases h : cfg.profile = .mldsa87 ∧ kind = .leafCsr
    · obtain ⟨h1, h2⟩ := h
      have := hs h1 h2 i (lt_of_live (hpath.all_live hi))
      subst h2
      rw [h1]
      exact intBody_length_low (k := 3) (by omega)
    · have h5 := intBody_u32 (st.at i).tci.svn
      refine Nat.le_trans h5 (Nat.le_of_eq ?_)
      revert h
      cases cfg.profile <;> cases kind <;> intro h <;> first | rfl | exact absurd ⟨rfl, rfl⟩ h

theorem CertifyCmd.label_length {c : CertifyCmd} {p : Profile} {k : PubKey} (h : c.wants k)
    (hk : KeyOf p k) : c.label.length = digestLength p := by
  cases c <;> cases k <;> first | exact h.elim | (cases p <;> first | exact hk.elim | skip)
  all_goals simp [CertifyCmd.label, digestLength]

theorem Drafted.keyOf {kind : CertKind} {a : CertArgs} {st : State cfg} {w w' : σ} {D : Draft}
    (hg : Genuine cfg.profile ops) (h : Drafted ops kind a st w D w') : KeyOf cfg.profile D.key := by
  obtain ⟨_, _, _, _, _, _, _, _, _, _, _, _, _, h5, _⟩ := h
  exact hg.key _ _ _ _ h5

theorem advertised_le (p : Profile) : advertised p cfg.maxHandles ≤ 65539 := by
  have := cfg.le64
  unfold advertised
  split <;> omega

/-- Within these limits CertifyKey succeeds in a buffer of the size of the whole response structure,
if nothing else prevents it. -/
theorem C46_certify_partial {c : CertifyCmd} {kind : CertKind} {D : Draft} {w1 w2 w3 : σ} {t : Asn}
    {hd : Handle} (hst : InService s.st) (hfit : AlgorithmFits cfg ops) (hser : SerialGiven ops)
    (hstd : cfg.Standard) (hg : Genuine cfg.profile ops)
    (hno : NoRefusal (rules s.st loc (.certify c))) (hk : Format c.format kind)
    (hD : Drafted ops kind (leafArgs s.st c.handle loc c.label) s.st s.w D w1)
    (hI : Issued ops (leafArgs s.st c.handle loc c.label) s.st D kind w1 t w2)
    (hw : c.wants D.key) (hr : Redrawn ops s.st (s.st.at D.slot).handle w2 hd w3)
    (hp : PlatformData ops (roomy cfg.profile kind cfg.maxHandles (digestLength cfg.profile)))
    (hs : SvnsFit cfg kind s.st)
    (hout : (Cmd.respKind (cfg := cfg) (.certify c)).size cfg ≤ s.out.length) :
    ∃ n s', exec (ops.env cfg) (.certify c) loc s = (.ok n, s') := by
  have hkx : kind ≠ .exportedX509 := by
    rcases hk with ⟨_, rfl⟩ | ⟨_, rfl⟩ <;> intro h <;> cases h
  have hl := CertifyCmd.label_length hw (hD.keyOf hg)
  have hb := C46_advertised_partial hstd hg hD hI (by rw [if_neg hkx]; exact Nat.le_of_eq hl)
    (by rw [if_neg hkx]; exact hp) hs
  refine (C42_certify_fits hst hfit hser hno hk hD hI hw (Nat.le_trans hb (advertised_le _)) hr).2 ?_
  have hsz' : (Cmd.respKind (cfg := cfg) (.certify c)).size cfg =
      32 + c.keyBytes + cfg.maxCertSize := by cases c <;> rfl
  rw [hsz', hstd.cert] at hout
  omega

/-- The same for an exporting DeriveContext. -/
theorem C46_exported_partial {c : DeriveCmd cfg} {u : BArr 48} {k : U32} {w0 w1 w2 w3 : σ} {D : Draft}
    {t : Asn} (hst : InService s.st) (hfit : AlgorithmFits cfg ops) (hser : SerialGiven ops)
    (hstd : cfg.Standard) (hg : Genuine cfg.profile ops)
    (hx : Bit c.flags DFlag.exportCdi) (hno : NoRefusal (rules s.st loc (.derive c)))
    (hp0 : ParentDrawn ops c s.st D.slot s.w w0)
    (hu : ops.ueid w0 = (.ok (u, k), w1)) (hk : k.toNat ≤ 48)
    (hD : Drafted ops .exportedX509 (exportedArgs s.st c.handle loc (u.toList.take k.toNat)) s.st w1 D w2)
    (hI : Issued ops (exportedArgs s.st c.handle loc (u.toList.take k.toNat)) s.st D .exportedX509 w2 t w3)
    (hp : PlatformData ops (roomy cfg.profile .exportedX509 cfg.maxHandles 48))
    (hout : RespKind.exported.size cfg ≤ s.out.length) :
    ∃ n s', exec (ops.env cfg) (.derive c) loc s = (.ok n, s') := by
  have hb := C46_advertised_partial hstd hg hD hI (by
    show (u.toList.take k.toNat).length ≤ 48
    rw [List.length_take]; omega) hp (fun _ h => by cases h)
  refine (C42_exported_fits hst hfit hser hx hno hp0 hu hk hD hI (Nat.le_trans hb (advertised_le _))).2 ?_
  have hsz' : RespKind.exported.size cfg = 80 + cfg.maxCertSize := rfl
  rw [hsz', hstd.cert] at hout
  omega

/-! ### The advertised maximum is not enough within the limits of the platform interface -/

namespace Toy

/-- A standard build for one context. -/
def cfg1 : Cfg :=
  { maxHandles := 1, tciSize := 32, profile := .p256, disabled := 0, maxCertSize := 772,
    diceFuel := 5, pos := by decide, le64 := by decide }

theorem cfg1_standard : cfg1.Standard := ⟨rfl, by decide⟩

/-- An issuer name of 128 octets. -/
def longName : Bytes := [0x30, 126] ++ (List.replicate 63 [5, 0]).flatten

/-- No alternative name, and this signer identifier. -/
def ops1 (sid : SignerId) : Ops Nat := { certOps with
  subjectAltName := fun n => (.error .notImplemented, n)
  signerId := fun n => (.ok sid, n) }

/-- A signer named by issuer and serial number. -/
def longSigner : SignerId := .issuerAndSerial longName (List.replicate 20 0x5A)

/-- A signer named by a key identifier. -/
def shortSigner : SignerId := .subjectKeyId (List.replicate 20 8)

/-- The state after initialisation: one root context. -/
def root1 : State cfg1 := (exec (certOps.env cfg1) (.init 0x40000000) 0
  ⟨State.new cfg1 support 0, 0, buf⟩).2.st

theorem root1_reach : Reachable root1 := .step (certOps.env cfg1) _ _ _ _ _ (.new _ _)

attribute [irreducible] root1

/-- CertifyKey for the root, with a request as result. -/
def requestCmd1 : CertifyCmd := .p256 Handle.default 0 1 label

/-- The ingredients that `ops1` yields for the root. -/
def draft1 (sid : SignerId) : Draft where
  slot := 0
  path := [0]
  digest := List.replicate 32 0xAB
  key := .p256 (Vector.replicate 32 3) (Vector.replicate 32 4)
  exportedCdi := none
  nameHash := List.replicate 32 0xAB
  idHash := List.replicate 32 0xAB
  issuerKeyId := Vector.replicate 20 7
  altName := none
  validity := ⟨ascii "20230227000000Z", ascii "99991231235959Z"⟩
  signer := sid

theorem updated1 (sid : SignerId) (n : Nat) : ∀ l : List Bytes, Updated (ops1 sid) l n n
  | [] => rfl
  | _ :: l => ⟨n, rfl, updated1 sid n l⟩

theorem hashed1 (sid : SignerId) (n : Nat) (l : List Bytes) :
    Hashed (ops1 sid) l n (List.replicate 32 0xAB) n :=
  ⟨n, n, n, rfl, rfl, updated1 sid n l, rfl⟩

theorem root1_resolves : Resolves root1 Handle.default 0 0 := findActive_iff.1 (by decide +kernel)

theorem root1_default : (root1.at 0).handle = Handle.default := by decide +kernel

theorem root1_path : Path root1 0 [0] := .root (by unfold Live; decide +kernel) (by decide +kernel)

/-- The arguments of `requestCmd1`. -/
def args1 : CertArgs := leafArgs root1 Handle.default 0 label.toList

theorem drafted1 (sid : SignerId) (n : Nat) : Drafted (ops1 sid) .leafCsr args1 root1 n (draft1 sid) n := by
  have h1 : ([0].any fun i => (root1.at i).usesInfo) = false := by decide +kernel
  have h2 : ([0].any fun i => (root1.at i).usesDice) = false := by decide +kernel
  refine ⟨(), n, n, n, n, n, n, n, n, root1_resolves, root1_path,
    ⟨n, n, n, n, n, rfl, rfl, updated1 sid n _, ?_, ?_, rfl⟩,
    ⟨(), n, rfl, rfl, rfl⟩, rfl, rfl, (show 32 ≤ 48 by decide), hashed1 sid n _,
    (show 32 ≤ 48 by decide), hashed1 sid n _, (show 20 ≤ 32 by decide), rfl, rfl, rfl, rfl⟩
  · show InfoFed _ _ _ ([0].any fun i => (root1.at i).usesInfo) _ _
    rw [h1]; rfl
  · show DiceFed _ _ ([0].any fun i => (root1.at i).usesDice) _ _
    rw [h2]; rfl

/-- The request of the root. -/
def tree1 (sid : SignerId) : Asn :=
  signedRequest .p256 (cmsVersionOf sid) (signerIdentifier' sid)
    (request .p256 ((draft1 sid).info args1 root1) keySig) aliasSig

theorem issued1 (sid : SignerId) (n : Nat) :
    Issued (ops1 sid) args1 root1 (draft1 sid) .leafCsr n (tree1 sid) n :=
  .request (cdi := ()) (key := ()) (w1 := n) (w2 := n) (w3 := n) rfl rfl rfl rfl

theorem fits1 (sid : SignerId) : AlgorithmFits cfg1 (ops1 sid) := by
  show false = true ↔ Profile.p256 = Profile.mldsa87
  decide

theorem serial1 {sid : SignerId} (h : ∀ i, sid ≠ .issuerAndSerial i []) : SerialGiven (ops1 sid) := by
  intro w i w' h'
  simp only [ops1] at h'
  injection h' with h' _
  injection h' with h'
  exact h i h'

theorem genuine1 (sid : SignerId) : Genuine cfg1.profile (ops1 sid) where
  key := by
    intro k w pk w' h
    have h : (Except.ok (PubKey.p256 (Vector.replicate 32 3) (Vector.replicate 32 4)), w) =
      ((Except.ok pk : Except CryptoErr PubKey), w') := h
    cases h
    exact trivial
  sign := by
    intro k d w sig w' h
    have h : (Except.ok keySig, w) = ((Except.ok sig : Except CryptoErr Sig), w') := h
    cases h
    exact trivial
  signAlias := by
    intro d w sig w' h
    have h : (Except.ok aliasSig, w) = ((Except.ok sig : Except CryptoErr Sig), w') := h
    cases h
    exact trivial

theorem platform1 {sid : SignerId} {z : Sizes} (h1 : 2 ≤ z.issuer) (h2 : 15 ≤ z.validity)
    (h3 : (signerIdentifier' sid).der.length ≤ z.signer) : PlatformData (ops1 sid) z where
  issuer := by
    intro w n b w' h
    have h : (Except.ok (2, (Vector.replicate 128 (0 : UInt8)).set 0 0x30), w) =
      ((Except.ok (n, b) : Except PlatErr (Nat × BArr 128)), w') := h
    injection h with h _
    injection h with h
    injection h with h _
    omega
  validity := by
    intro w v w' h
    have h : (Except.ok (⟨ascii "20230227000000Z", ascii "99991231235959Z"⟩ : Validity), w) =
      ((Except.ok v : Except PlatErr Validity), w') := h
    cases h
    exact ⟨h2, h2⟩
  alt := by
    intro w o w' h
    have h : (Except.error PlatErr.notImplemented, w) = ((Except.ok o : Except PlatErr OtherName), w') := h
    cases h
  signer := by
    intro w s w' h
    have h : (Except.ok sid, w) = ((Except.ok s : Except PlatErr SignerId), w') := h
    cases h
    exact h3

theorem allowed1 : NoRefusal (rules root1 0 (.certify requestCmd1)) := by
  simp only [NoRefusal, rules, earlyRules, lateRules, lookupRules, List.cons_append, List.nil_append,
    List.append_nil, List.mem_cons, List.not_mem_nil, or_false, forall_eq_or_imp, forall_eq]
  have e : requestCmd1.format = 1 := rfl
  have e' : requestCmd1.handle = Handle.default := rfl
  have h3 : root1.supports Feature.csr := by decide +kernel
  rw [e, e', named_iff root1_resolves]
  have hr := root1_resolves
  refine ⟨fun h => h ⟨0, hr.1.1, hr.1.2.2⟩, fun h => h ⟨0, hr.1⟩, fun h => absurd h.1 (by decide),
    fun h => absurd h.1 (by decide), fun h => h.2 h3, fun h => h.2 rfl⟩

theorem request1_iff {sid : SignerId} (h : ∀ i, sid ≠ .issuerAndSerial i [])
    (hl : (tree1 sid).written.length ≤ 65539) (out : Bytes) :
    (∃ n s', exec ((ops1 sid).env cfg1) (.certify requestCmd1) 0 ⟨root1, 0, out⟩ = (.ok n, s')) ↔
      96 + (tree1 sid).written.length ≤ out.length :=
  C42_certify_fits (s := ⟨root1, 0, out⟩) (loc := 0) (c := requestCmd1) (hd := Handle.default)
    root1_reach (fits1 sid) (serial1 h) allowed1 (.inr ⟨rfl, rfl⟩) (drafted1 sid 0) (issued1 sid 0)
    trivial hl (.inl ⟨root1_default, rfl, rfl⟩)

end Toy

/-- The advertised maximum is too small: within the limits of the platform interface, a permitted
CertifyKey fails in a buffer of the size of the whole response structure, though it succeeds in a
larger one. -/
theorem C46_false : ∃ (cfg : Cfg) (ops : Ops Nat) (st : State cfg) (c : CertifyCmd),
    cfg.Standard ∧ Genuine cfg.profile ops ∧ AlgorithmFits cfg ops ∧ SerialGiven ops ∧
    PlatformData ops (platformLimits cfg.profile cfg.maxHandles (digestLength cfg.profile)) ∧
    Reachable st ∧ NoRefusal (rules st 0 (.certify c)) ∧
    (∀ out : Bytes, out.length ≤ (Cmd.respKind (cfg := cfg) (.certify c)).size cfg →
      ∃ e s', exec (ops.env cfg) (.certify c) 0 ⟨st, 0, out⟩ = (.error e, s')) ∧
    (∀ out : Bytes, 1000 ≤ out.length →
      ∃ n s', exec (ops.env cfg) (.certify c) 0 ⟨st, 0, out⟩ = (.ok n, s')) := by
  have hl : 772 < (Toy.tree1 Toy.longSigner).written.length ∧
      (Toy.tree1 Toy.longSigner).written.length ≤ 904 := by decide +kernel
  have hsz : (Cmd.respKind (cfg := Toy.cfg1) (.certify Toy.requestCmd1)).size Toy.cfg1 = 868 := rfl
  have hi := Toy.request1_iff (sid := Toy.longSigner) (by intro i h; cases h) (by omega)
  refine ⟨Toy.cfg1, Toy.ops1 Toy.longSigner, Toy.root1, Toy.requestCmd1, Toy.cfg1_standard,
    Toy.genuine1 _, Toy.fits1 _, Toy.serial1 (by intro i h; cases h),
    Toy.platform1 (by decide) (by decide) (by decide +kernel), Toy.root1_reach, Toy.allowed1, ?_, ?_⟩
  · intro out ho
    rw [hsz] at ho
    rcases hx : exec ((Toy.ops1 Toy.longSigner).env Toy.cfg1) (.certify Toy.requestCmd1) 0
      ⟨Toy.root1, 0, out⟩ with ⟨e | n, s'⟩
    · exact ⟨e, s', rfl⟩
    · have := (hi out).1 ⟨n, s', hx⟩
      omega
  · intro out ho
    exact (hi out).2 (by omega)

/-- With a key identifier instead, the request fits in the response structure. -/
example (out : Bytes) (h : 868 ≤ out.length) : ∃ n s', exec ((Toy.ops1 Toy.shortSigner).env Toy.cfg1)
    (.certify Toy.requestCmd1) 0 ⟨Toy.root1, 0, out⟩ = (.ok n, s') :=
  C46_certify_partial (s := ⟨Toy.root1, 0, out⟩) (hd := Handle.default) Toy.root1_reach (Toy.fits1 _)
    (Toy.serial1 (by intro i h; cases h)) Toy.cfg1_standard (Toy.genuine1 _) Toy.allowed1 (.inr ⟨rfl, rfl⟩)
    (Toy.drafted1 _ 0) (Toy.issued1 _ 0) trivial (.inl ⟨Toy.root1_default, rfl, rfl⟩)
    (Toy.platform1 (by decide) (by decide) (by decide +kernel)) (fun h => by cases h) h

/-- The length and its bound in this case. The bound allows for critical extensions, a longer security
version number and longer signatures. -/
example : (Toy.tree1 Toy.shortSigner).written.length = 737 ∧
    issuedLen .p256 (roomy .p256 .leafCsr 1 32) .leafCsr = 754 := by decide +kernel

/-- Export from the root. -/
def Toy.exportCmd1 : DeriveCmd Toy.cfg1 := ⟨Handle.default, Vector.replicate 32 5, Toy.fExport, 7, 0, 1⟩

theorem Toy.export1_allowed : NoRefusal (rules Toy.root1 0 (.derive Toy.exportCmd1)) := by
  simp only [NoRefusal, rules, earlyRules, lateRules, lookupRules, List.cons_append, List.nil_append,
    List.append_nil, List.mem_cons, List.not_mem_nil, or_false, forall_eq_or_imp, forall_eq]
  have hr := Toy.root1_resolves
  have e' : Toy.exportCmd1.handle = Handle.default := rfl
  have h3 : deriveUnsupported Toy.root1.support Toy.exportCmd1 = false := by decide +kernel
  have h4 : deriveBadArgs (Toy.root1.at 0) Toy.exportCmd1 = false := by decide +kernel
  have h5 : (Toy.root1.at 0).children = 0 := by decide +kernel
  rw [e', named_iff hr, named_iff hr, named_iff hr, named_iff hr, ← badArgs_iff, ← deriveUnsupported_iff]
  have hx : Bit Toy.exportCmd1.flags DFlag.exportCdi := by decide
  have hrec : ¬ Bit Toy.exportCmd1.flags DFlag.recursive := by decide
  refine ⟨by rw [h3]; exact Bool.false_ne_true, fun h => h ⟨0, hr.1.1, hr.1.2.2⟩,
    fun h => h ⟨0, hr.1⟩, by rw [h4]; exact Bool.false_ne_true, fun h => hrec h.1, fun h => hrec h.1, ?_,
    fun h => h.2.1 hx, fun h => h.2.1 hx⟩
  rintro ⟨_, j, hj, _⟩
  rw [Lists, h5] at hj
  simp at hj

/-- A certificate for the exported CDI of the root fits in the response structure. -/
example (out : Bytes) (h : 852 ≤ out.length) : ∃ n s', exec ((Toy.ops1 Toy.shortSigner).env Toy.cfg1)
    (.derive Toy.exportCmd1) 0 ⟨Toy.root1, 0, out⟩ = (.ok n, s') := by
  have h1 : ([0].any fun i => (Toy.root1.at i).usesInfo) = false := by decide +kernel
  have h2 : ([0].any fun i => (Toy.root1.at i).usesDice) = false := by decide +kernel
  refine C46_exported_partial (s := ⟨Toy.root1, 0, out⟩) (loc := 0) (c := Toy.exportCmd1)
    (u := Vector.replicate 48 3) (k := 4) (w0 := 0) (w1 := 0) (w2 := 0) (w3 := 0)
    (D := { Toy.draft1 Toy.shortSigner with exportedCdi := some (Vector.replicate 32 9) })
    Toy.root1_reach (Toy.fits1 _)
    (Toy.serial1 (by intro i h; cases h)) Toy.cfg1_standard (Toy.genuine1 _) (by decide)
    Toy.export1_allowed (.inl ⟨by decide, rfl⟩) rfl (by decide) ?_
    (.certificate (n := 2) (w1 := 0) (by intro h; cases h) rfl (by decide) rfl)
    (Toy.platform1 (by decide) (by decide) (by decide +kernel)) h
  refine ⟨(), 0, 0, 0, 0, 0, 0, 0, 0, Toy.root1_resolves, Toy.root1_path,
    ⟨0, 0, 0, 0, 0, rfl, rfl, Toy.updated1 _ 0 _, ?_, ?_, rfl⟩,
    ⟨_, 0, rfl, rfl, rfl⟩, rfl, rfl, (show 32 ≤ 48 by decide), Toy.hashed1 _ 0 _,
    (show 32 ≤ 48 by decide), Toy.hashed1 _ 0 _, (show 20 ≤ 32 by decide), rfl, rfl, rfl, rfl⟩
  · show InfoFed _ _ _ ([0].any fun i => (Toy.root1.at i).usesInfo) _ _
    rw [h1]; rfl
  · show DiceFed _ _ ([0].any fun i => (Toy.root1.at i).usesDice) _ _
    rw [h2]; rfl

end Dpe
