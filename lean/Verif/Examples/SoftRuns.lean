import Verif.Examples.CertRuns
import Verif.Proofs.SignRun
import Verif.Props.Soft
/-
Concrete runs of CertifyKey and Sign with the software back end.
-/
namespace Dpe.Toy

/-- The bytes in front, padded with zeros. -/
def padded (n : Nat) (x : Bytes) : BArr n := Vector.ofFn fun i => x.getD i.val 0

attribute [irreducible] padded

/-- Primitives that make the data visible: the hash is the first 32 bytes, the CDI is the measurement
and its label, the private key is the key's label in front of the CDI, the public key shows the private
key, a signature shows the private key and the data. -/
def keyPrims : Prims where
  Rng := Nat
  seed := 9
  hash x := (padded 32 x).toList
  digestSize := 32
  hkdfCdi m i := .ok (m ++ i)
  hkdfKey c l i := .ok (l ++ i ++ c)
  fill16 n := (hd n, n + 1)
  fill32 n := (Vector.replicate 32 (UInt8.ofNat n), n + 1)
  mldsa := false
  signDigest k d := .ok (.p256 (padded 32 k) (padded 32 d))
  signRaw k d := .ok (.p256 (padded 32 k) (padded 32 d))
  signMu _ _ := .error .mismatchedAlgorithm
  pub k := .ok (.p256 (padded 32 k) (padded 32 (k.drop 32)))
  aliasKey := .ok [1, 2, 3]

/-- The software back end beside the platform of `certOps`. -/
def softKey : Ops (Soft keyPrims × Nat) := softOps keyPrims certOps

abbrev SoftW : Type := Soft keyPrims × Nat

theorem soft_decent : Decent cfg softKey where
  fits := by
    show false = true ↔ Profile.p256 = Profile.mldsa87
    decide
  serial := by
    intro w i w' h
    have h := (Prod.mk.inj h).1
    simp only [certOps] at h
    injection h with h
    injection h with _ h
    cases h
  issuer := by
    intro w n name w' h _
    have h := (Prod.mk.inj h).1
    simp only [certOps] at h
    injection h with h
    injection h with h1 h2
    subst h1 h2
    rw [issuer_take]
    exact ⟨[], rfl, wellFormed_empty⟩
  signer := by
    intro w i sn w' h
    have h := (Prod.mk.inj h).1
    simp only [certOps] at h
    injection h with h
    injection h with h _
    subst h
    exact wellFormed_empty

/-- A world with the given hash, CDI and private key. -/
def wd (x : Option Bytes) (cdi priv : Bytes) (k : Nat := 9) : SoftW := (⟨k, [], x, cdi, priv⟩, 0)

theorem soft_feed {cdi priv : Bytes} {k : Nat} : ∀ (l : List Bytes) (x : Bytes),
    Updated softKey l (wd (some x) cdi priv k) (wd (some (x ++ l.flatten)) cdi priv k)
  | [], x => by rw [List.flatten_nil, List.append_nil]; rfl
  | b :: l, x => by
    refine ⟨wd (some (x ++ b)) cdi priv k, rfl, ?_⟩
    rw [List.flatten_cons, ← List.append_assoc]
    exact soft_feed l (x ++ b)

theorem hashFinish_ok {P : Prims} {τ : Type} {plat : Ops τ} {r : P.Rng} {sl : List (Bytes × BArr 32)}
    {cdi priv x : Bytes} {t : τ} (h : (P.hash x).length = P.digestSize) :
    (softOps P plat).hashFinish (⟨r, sl, some x, cdi, priv⟩, t) =
      (.ok (P.hash x), (⟨r, sl, none, cdi, priv⟩, t)) := by
  simp only [softOps, Soft.hashFinish, h, if_true]

theorem soft_finish {cdi priv x : Bytes} {k : Nat} :
    softKey.hashFinish (wd (some x) cdi priv k) = (.ok (padded 32 x).toList, wd none cdi priv k) := by
  exact hashFinish_ok Vector.length_toList

theorem soft_hash {o : Option Bytes} {k : Nat} {cdi priv : Bytes} (l : List Bytes) :
    Hashed softKey l (wd o cdi priv k) (padded 32 l.flatten).toList (wd none cdi priv k) := by
  have h := soft_feed (cdi := cdi) (priv := priv) (k := k) l []
  rw [List.nil_append] at h
  exact ⟨wd o cdi priv k, wd (some []) cdi priv k, _, rfl, rfl, h, soft_finish⟩

/-- What is measured for the grandchild. -/
def softDigest (st : State cfg) : Bytes :=
  (padded 32 ([2, 1, 0].flatMap fun i => nodeChunks (st.at i)).flatten).toList

theorem soft_measure {st : State cfg} {o : Option Bytes} {k : Nat} {cdi priv : Bytes}
    (h1 : ([2, 1, 0].any fun i => (st.at i).usesInfo) = false)
    (h2 : ([2, 1, 0].any fun i => (st.at i).usesDice) = false) :
    Measured softKey st [2, 1, 0] (wd o cdi priv k) (softDigest st) (wd none cdi priv k) := by
  have h := soft_feed (cdi := cdi) (priv := priv) (k := k) ([2, 1, 0].flatMap fun i => nodeChunks (st.at i)) []
  rw [List.nil_append] at h
  have e1 : InfoFed cfg softKey st.support ([2, 1, 0].any fun i => (st.at i).usesInfo)
      (wd (some ([2, 1, 0].flatMap fun i => nodeChunks (st.at i)).flatten) cdi priv k)
      (wd (some ([2, 1, 0].flatMap fun i => nodeChunks (st.at i)).flatten) cdi priv k) := by
    rw [h1]; rfl
  have e2 : DiceFed cfg softKey ([2, 1, 0].any fun i => (st.at i).usesDice)
      (wd (some ([2, 1, 0].flatMap fun i => nodeChunks (st.at i)).flatten) cdi priv k)
      (wd (some ([2, 1, 0].flatMap fun i => nodeChunks (st.at i)).flatten) cdi priv k) := by
    rw [h2]; rfl
  exact ⟨wd o cdi priv k, wd (some []) cdi priv k, _, _, _, rfl, rfl, h, e1, e2, soft_finish⟩

/-- The CDI and the private key of the grandchild for a label. -/
def softCdi (st : State cfg) : Bytes := softDigest st ++ ascii "DPE"
@[inherit_doc softCdi] def softPriv (st : State cfg) (label : Bytes) : Bytes :=
  label ++ ascii "ECC" ++ softCdi st

theorem soft_signing {st : State cfg} {o : Option Bytes} {k : Nat} {cdi priv label : Bytes}
    (h1 : ([2, 1, 0].any fun i => (st.at i).usesInfo) = false)
    (h2 : ([2, 1, 0].any fun i => (st.at i).usesDice) = false) :
    SigningKey softKey st [2, 1, 0] label (wd o cdi priv k) () (wd none (softCdi st) (softPriv st label) k) :=
  ⟨softDigest st, (), wd none cdi priv k, wd none (softCdi st) priv k, soft_measure h1 h2, rfl, rfl⟩

/-- The public key to a private key. -/
def pubOf (k : Bytes) : PubKey := .p256 (padded 32 k) (padded 32 (k.drop 32))

/-- The ingredients for the grandchild. -/
def softDraft (st : State cfg) (label : Bytes) : Draft where
  slot := 2
  path := [2, 1, 0]
  digest := softDigest st
  key := pubOf (softPriv st label)
  exportedCdi := none
  nameHash := (padded 32 (keyChunks (pubOf (softPriv st label))).flatten).toList
  idHash := (padded 32 (keyChunks (pubOf (softPriv st label))).flatten).toList
  issuerKeyId := Vector.replicate 20 7
  altName := some ⟨[0x2A, 3], ascii "ABC"⟩
  validity := ⟨ascii "20230227000000Z", ascii "99991231235959Z"⟩
  signer := .issuerAndSerial [0x30, 0] [5]

theorem soft_drafted {st : State cfg} {kind : CertKind} {handle : Handle} {label : Bytes}
    {o : Option Bytes} {k : Nat} {cdi priv : Bytes} (hk : kind ≠ .exportedX509)
    (hr : Resolves st handle 0 2) (hp : Path st 2 [2, 1, 0])
    (h1 : ([2, 1, 0].any fun i => (st.at i).usesInfo) = false)
    (h2 : ([2, 1, 0].any fun i => (st.at i).usesDice) = false) :
    Drafted softKey kind (leafArgs st handle 0 label) st (wd o cdi priv k) (softDraft st label)
      (wd none (softCdi st) (softPriv st label) k) := by
  refine ⟨(), wd none cdi priv k, wd none (softCdi st) (softPriv st label) k, _, _, _, _, _, _, hr, hp,
    soft_measure h1 h2, ?_, rfl, rfl, (show 32 ≤ 48 by decide), soft_hash _,
    (Nat.le_trans (Nat.le_of_eq Vector.length_toList) (by decide)), soft_hash _,
    (Nat.le_trans (by decide) (Nat.le_of_eq Vector.length_toList.symm)), rfl, rfl, rfl, rfl⟩
  cases kind with
  | exportedX509 => exact absurd rfl hk
  | leafX509 => exact ⟨(), wd none (softCdi st) priv k, rfl, rfl, rfl⟩
  | leafCsr => exact ⟨(), wd none (softCdi st) priv k, rfl, rfl, rfl⟩

/-- A signature as these primitives make it. -/
def sigOf (k d : Bytes) : Sig := .p256 (padded 32 k) (padded 32 d)

/-- What is issued for the grandchild. -/
def softTree (st : State cfg) (kind : CertKind) (handle : Handle) (label : Bytes) : Asn :=
  let D := softDraft st label
  let a := leafArgs st handle 0 label
  if kind = .leafCsr then
    let req := request .p256 (D.info a st) (sigOf (softPriv st label) (D.info a st).written)
    signedRequest .p256 (cmsVersionOf D.signer) (signerIdentifier' D.signer) req
      (sigOf [1, 2, 3] req.written)
  else certificate .p256 (D.tbs kind a st [0x30, 0]) (sigOf [1, 2, 3] (D.tbs kind a st [0x30, 0]).written)

theorem soft_issued {st : State cfg} {kind : CertKind} {handle : Handle} {label : Bytes} {k : Nat} :
    Issued softKey (leafArgs st handle 0 label) st (softDraft st label) kind
      (wd none (softCdi st) (softPriv st label) k) (softTree st kind handle label)
      (wd none (softCdi st) (softPriv st label) k) := by
  by_cases h : kind = .leafCsr
  · subst h
    exact .request (cdi := ()) (key := ()) (w1 := wd none (softCdi st) (softPriv st label) k)
      (w2 := wd none (softCdi st) (softPriv st label) k)
      (w3 := wd none (softCdi st) (softPriv st label) k) rfl rfl rfl rfl
  · unfold softTree
    simp only [if_neg h]
    rw [← issuer_take]
    exact .certificate (n := 2) (w1 := wd none (softCdi st) (softPriv st label) k) h rfl (by decide) rfl

/-- The situation before CertifyKey. -/
def softSys : Sys cfg SoftW := ⟨s4.st, wd none [] [], bigBuf⟩

/-- CertifyKey. -/
def softCertify (format : U32) : CertifyCmd := .p256 (hd 4) 0 format label

/-- The state afterwards: the handle is new. -/
def softNext : State cfg := s4.st.setCtx 2 { s4.st.at 2 with handle := hd 9 }

/-- Sign with the new handle. -/
def softSign : SignCmd := .p256 (hd 9) label 0 (Vector.replicate 32 0x77)

theorem soft_certify (kind : CertKind) (format : U32) (hk : Format format kind)
    (h8 : (softTree s4.st kind (hd 4) label.toList).written.length ≤ 904) :
    ∃ n out, exec (softKey.env cfg) (.certify (softCertify format)) 0 softSys =
      (.ok n, ⟨softNext, wd none (softCdi s4.st) (softPriv s4.st label.toList) 10, out⟩) ∧
      handleIn out = (hd 9).toList ∧
      certIn (softCertify format) out n = (softTree s4.st kind (hd 4) label.toList).written := by
  have hr := s4_resolves
  have hn : NoRefusal (rules s4.st 0 (.certify (cfg := cfg) (softCertify format))) := by
    simp only [NoRefusal, rules, earlyRules, lateRules, lookupRules, List.cons_append, List.nil_append,
      List.append_nil, List.mem_cons, List.not_mem_nil, or_false, forall_eq_or_imp, forall_eq]
    have e : (softCertify format).format = format := rfl
    have e' : (softCertify format).handle = hd 4 := rfl
    rw [e, e', named_iff hr]
    refine ⟨fun h => h ⟨2, hr.1.1, hr.1.2.2⟩, fun h => h ⟨2, hr.1⟩, fun h => h.2 (by decide +kernel), ?_,
      fun h => h.2 (by decide +kernel), ?_⟩
    · rintro ⟨_, h⟩
      have : (s4.st.at 2).allowX509 = true := by decide +kernel
      rw [this] at h; cases h
    · rintro ⟨g1, g2⟩
      rcases hk with hk | hk
      · exact g1 hk.1
      · exact g2 hk.1
  refine ⟨_, _, (certify_iff (s := softSys) (cfg := cfg) (ops := softKey) (loc := 0)
    (c := softCertify format) (.reached s4.reach) soft_decent.fits soft_decent.serial).2
    ⟨hn, kind, softDraft s4.st label.toList, _, _, _, hd 9, _, hk,
      soft_drafted hk.leaf hr s4_path (by decide +kernel) (by decide +kernel), soft_issued, trivial,
      Nat.le_trans h8 (by decide),
      .inr ⟨(by decide +kernel), .hit rfl (by unfold Unused; decide +kernel)⟩, rfl, ?_, rfl⟩, ?_, ?_⟩
  · show 32 + 64 + (softTree s4.st kind (hd 4) label.toList).written.length ≤ bigBuf.length
    rw [bigBuf, List.length_replicate]; omega
  · exact handleIn_certify
  · rw [← certifyReply_length (c := softCertify format) (p := cfg.profile) (hd := hd 9)
      (key := (softDraft s4.st label.toList).key) (cert := _) trivial]
    exact certIn_reply trivial

theorem softNext_resolves : Resolves softNext (hd 9) 0 2 := findActive_iff.1 (by decide +kernel)

theorem softNext_path : Path softNext 2 [2, 1, 0] :=
  grandchild_path (by unfold Live; decide +kernel) (by unfold Live; decide +kernel)
    (by unfold Live; decide +kernel) (by decide +kernel) (by decide +kernel) (by decide +kernel)

theorem softNext_reach : Reachable softNext := by
  obtain ⟨n, out, h, _⟩ := soft_certify .leafX509 0 (.inl ⟨rfl, rfl⟩) (by decide +kernel)
  have := Reachable.step (softKey.env cfg) (.certify (softCertify 0)) 0 softSys.st softSys.w
    softSys.out s4.reach
  rw [show exec (softKey.env cfg) (.certify (softCertify 0)) 0 ⟨softSys.st, softSys.w, softSys.out⟩ = _
    from h] at this
  exact this

/-- Sign succeeds in every state that has the grandchild under that handle. -/
theorem soft_sign_of {st : State cfg} {o : Option Bytes} {cdi priv : Bytes} (hst : Reachable st)
    (hr : Resolves st (hd 9) 0 2) (hp : Path st 2 [2, 1, 0])
    (h1 : ([2, 1, 0].any fun i => (st.at i).usesInfo) = false)
    (h2 : ([2, 1, 0].any fun i => (st.at i).usesDice) = false) (h4 : Unused st (hd 10))
    (h5 : (st.at 2).ctype ≠ .simulation) : ∃ n s', exec (softKey.env cfg) (.sign softSign) 0
    ⟨st, wd o cdi priv 10, bigBuf⟩ = (.ok n, s') := by
  have hn : NoRefusal (rules st 0 (.sign (cfg := cfg) softSign)) := by
    simp only [NoRefusal, rules, earlyRules, lateRules, lookupRules, List.cons_append, List.nil_append,
      List.append_nil, List.mem_cons, List.not_mem_nil, or_false, forall_eq_or_imp, forall_eq]
    have e' : softSign.handle = hd 9 := rfl
    rw [e', named_iff hr]
    exact ⟨id, fun h => h ⟨2, hr.1.1, hr.1.2.2⟩, fun h => h ⟨2, hr.1⟩, h5⟩
  have h3 : (st.at 2).handle ≠ Handle.default := by rw [hr.1.2.1]; decide
  refine ⟨_, _, (sign_iff (env := softKey.env cfg) (s := ⟨st, wd o cdi priv 10, bigBuf⟩)
    hst).2 ⟨hn, 2, [2, 1, 0], (), _, _, _, hd 10, _, hr, hp,
      soft_signing h1 h2, rfl, .inr ⟨h3, .hit rfl h4⟩, rfl, ?_, rfl⟩⟩
  have : (successBytes cfg.profile).length = 12 := rfl
  show List.length (successBytes cfg.profile ++ (hd 10).toList ++ (_ ++ _)) ≤ bigBuf.length
  rw [bigBuf, List.length_replicate]
  simp only [List.length_append, Vector.length_toList, this]
  decide

theorem soft_sign {o : Option Bytes} {cdi priv : Bytes} : ∃ n s', exec (softKey.env cfg) (.sign softSign) 0
    ⟨softNext, wd o cdi priv 10, bigBuf⟩ = (.ok n, s') :=
  soft_sign_of softNext_reach softNext_resolves softNext_path (by decide +kernel) (by decide +kernel)
    (by unfold Unused; decide +kernel) (by decide +kernel)

end Dpe.Toy
