import Verif.Examples.Cert
import Verif.Proofs.CertRun
import Verif.Proofs.CertDet
import Verif.Proofs.CertIssued
import Verif.Props.Sizes
/-
Concrete successful runs of CertifyKey and of an exporting DeriveContext.
-/
namespace Dpe.Toy

/-- Like `u4`, but the grandchild has the security version number 7, which takes one octet. -/
def v4 : R := s3.step (.derive ⟨hd 3, data 3 4, fX509 ||| fAllowExport, 6, 0, 7⟩) 0

attribute [irreducible] v4

theorem v4_path : Path v4.st 2 [2, 1, 0] :=
  grandchild_path (by unfold Live; decide +kernel) (by unfold Live; decide +kernel)
    (by unfold Live; decide +kernel) (by decide +kernel) (by decide +kernel) (by decide +kernel)

theorem issuer_take : ((Vector.replicate 128 (0 : UInt8)).set 0 0x30).toList.take 2 = [0x30, 0] := by
  decide +kernel

theorem wellFormed_empty : WellFormed [0x30, 0] := .node (tag := 0x30) (body := []) rfl rfl (by decide) .nil

theorem decent (sid : SignerId) (h1 : ∀ i, sid ≠ .issuerAndSerial i [])
    (h2 : ∀ i sn, sid = .issuerAndSerial i sn → WellFormed i) :
    Decent cfg { certOps with signerId := fun n => (.ok sid, n) } where
  fits := by
    show false = true ↔ Profile.p256 = Profile.mldsa87
    decide
  serial := by
    intro w i w' h
    simp only at h
    injection h with h _
    injection h with h
    exact h1 i h
  issuer := by
    intro w n name w' h _
    simp only [certOps] at h
    injection h with h _
    injection h with h
    injection h with h1 h2
    subst h1 h2
    rw [issuer_take]
    exact ⟨[], rfl, wellFormed_empty⟩
  signer := by
    intro w i sn w' h
    simp only at h
    injection h with h _
    injection h with h
    exact h2 i sn h

theorem decent_cert : Decent cfg certOps :=
  decent (.issuerAndSerial [0x30, 0] [5]) (by simp) (by
    intro i sn h; injection h with h _; subst h; exact wellFormed_empty)

theorem decent_skid : Decent cfg skidOps :=
  decent (.subjectKeyId (List.replicate 20 8)) (by simp) (by simp)

/-- The ingredients that `certOps` yields for the grandchild. -/
def draft (sid : SignerId) (kind : CertKind) : Draft where
  slot := 2
  path := [2, 1, 0]
  digest := List.replicate 32 0xAB
  key := .p256 (Vector.replicate 32 3) (Vector.replicate 32 4)
  exportedCdi := if kind = .exportedX509 then some (Vector.replicate 32 9) else none
  nameHash := List.replicate 32 0xAB
  idHash := List.replicate 32 0xAB
  issuerKeyId := Vector.replicate 20 7
  altName := some ⟨[0x2A, 3], ascii "ABC"⟩
  validity := ⟨ascii "20230227000000Z", ascii "99991231235959Z"⟩
  signer := sid

theorem updated (sid : SignerId) (n : Nat) : ∀ l : List Bytes,
    Updated { certOps with signerId := fun n => (.ok sid, n) } l n n
  | [] => rfl
  | _ :: l => ⟨n, rfl, updated sid n l⟩

theorem hashed (sid : SignerId) (n : Nat) (l : List Bytes) :
    Hashed { certOps with signerId := fun n => (.ok sid, n) } l n (List.replicate 32 0xAB) n :=
  ⟨n, n, n, rfl, rfl, updated sid n l, rfl⟩

theorem drafted (sid : SignerId) (kind : CertKind) (a : CertArgs) {st : State cfg} (n : Nat)
    (hr : Resolves st a.handle a.locality 2) (hp : Path st 2 [2, 1, 0])
    (h1 : ([2, 1, 0].any fun i => (st.at i).usesInfo) = false)
    (h2 : ([2, 1, 0].any fun i => (st.at i).usesDice) = false) :
    Drafted { certOps with signerId := fun n => (.ok sid, n) } kind a st n (draft sid kind) n := by
  refine ⟨(), n, n, n, n, n, n, n, n, hr, hp, ⟨n, n, n, n, n, rfl, rfl, updated sid n _, ?_, ?_, rfl⟩,
    ?_, rfl, rfl, (show 32 ≤ 48 by decide), hashed sid n _,
    (show 32 ≤ 48 by decide), hashed sid n _, (show 20 ≤ 32 by decide), rfl, rfl, rfl, rfl⟩
  · show InfoFed _ _ _ ([2, 1, 0].any fun i => (st.at i).usesInfo) _ _
    rw [h1]; rfl
  · show DiceFed _ _ ([2, 1, 0].any fun i => (st.at i).usesDice) _ _
    rw [h2]; rfl
  · cases kind
    · exact ⟨(), n, rfl, rfl, rfl⟩
    · exact ⟨(), n, rfl, rfl, rfl⟩
    · exact ⟨_, n, rfl, rfl, rfl⟩

/-- The signature of `certOps` with the alias key. -/
def aliasSig : Sig := .p256 (Vector.replicate 32 5) (Vector.replicate 32 6)

/-- The signature of `certOps` with a derived key. -/
def keySig : Sig := .p256 (Vector.replicate 32 1) (Vector.replicate 32 2)

/-- What is issued for the grandchild. -/
def tree (sid : SignerId) (st : State cfg) (kind : CertKind) (a : CertArgs) : Asn :=
  if kind = .leafCsr then
    signedRequest .p256 (cmsVersionOf sid) (signerIdentifier' sid)
      (request .p256 ((draft sid kind).info a st) keySig) aliasSig
  else certificate .p256 ((draft sid kind).tbs kind a st [0x30, 0]) aliasSig

theorem issued (sid : SignerId) (kind : CertKind) (a : CertArgs) (st : State cfg) (n : Nat) :
    Issued { certOps with signerId := fun n => (.ok sid, n) } a st (draft sid kind) kind n
      (tree sid st kind a) n := by
  by_cases h : kind = .leafCsr
  · subst h
    exact .request (cdi := ()) (key := ()) (w1 := n) (w2 := n) (w3 := n) rfl rfl rfl rfl
  · unfold tree
    rw [if_neg h, ← issuer_take]
    exact .certificate (n := 2) (w1 := n) h rfl (by decide) rfl

/-- The label of the key. -/
def label : BArr 32 := Vector.replicate 32 1

/-- CertifyKey succeeds for the grandchild. -/
theorem certify_ok (sid : SignerId) (x : R) (kind : CertKind) (format : U32)
    (hd1 : ∀ i, sid ≠ .issuerAndSerial i []) (hk : Format format kind)
    (hr : Resolves x.st (hd 4) 0 2) (hp : Path x.st 2 [2, 1, 0])
    (h1 : ([2, 1, 0].any fun i => (x.st.at i).usesInfo) = false)
    (h2 : ([2, 1, 0].any fun i => (x.st.at i).usesDice) = false)
    (h3 : x.st.supports Feature.x509) (h4 : x.st.supports Feature.csr)
    (h5 : (x.st.at 2).allowX509 = true) (h6 : (x.st.at 2).handle ≠ Handle.default)
    (h7 : Unused x.st (hd (x.p.2 + 1)))
    (h8 : (tree sid x.st kind (leafArgs x.st (hd 4) 0 label.toList)).written.length ≤ 904) :
    ∃ n s', exec (Ops.env cfg { certOps with signerId := fun n => (.ok sid, n) })
      (certifyCmd 4 format) 0 { x.sys with out := bigBuf } = (.ok n, s') := by
  have hc : certifyCmd 4 format = .certify (.p256 (hd 4) 0 format label) := rfl
  have hser : SerialGiven { certOps with signerId := fun n => (.ok sid, n) } := by
    intro w i w' h
    simp only at h
    injection h with h _
    injection h with h
    exact hd1 i h
  have hn : NoRefusal (rules x.st 0 (certifyCmd 4 format)) := by
    rw [hc]
    simp only [NoRefusal, rules, earlyRules, lateRules, lookupRules, List.cons_append, List.nil_append,
      List.append_nil, List.mem_cons, List.not_mem_nil, or_false, forall_eq_or_imp, forall_eq]
    have e : (CertifyCmd.p256 (hd 4) 0 format label).format = format := rfl
    have e' : (CertifyCmd.p256 (hd 4) 0 format label).handle = hd 4 := rfl
    rw [e, e', named_iff hr]
    refine ⟨fun h => h ⟨2, hr.1.1, hr.1.2.2⟩, fun h => h ⟨2, hr.1⟩, fun h => h.2 h3, ?_,
      fun h => h.2 h4, ?_⟩
    · rintro ⟨_, h⟩; rw [h5] at h; cases h
    · rintro ⟨g1, g2⟩
      rcases hk with hk | hk
      · exact g1 hk.1
      · exact g2 hk.1
  exact ⟨_, _, (certify_iff (s := { x.sys with out := bigBuf }) (cfg := cfg)
    (ops := { certOps with signerId := fun n => (.ok sid, n) }) (loc := 0)
    (c := .p256 (hd 4) 0 format label) x.reach
    (show false = true ↔ Profile.p256 = Profile.mldsa87 by decide) hser).2
    ⟨hn, kind, draft sid kind, _, _, _, hd (x.p.2 + 1), x.p.2 + 1, hk,
    drafted sid kind _ _ hr hp h1 h2, issued sid kind _ _ _, trivial,
    Nat.le_trans h8 (by decide), .inr ⟨h6, .hit rfl h7⟩, rfl, (by
      show 32 + 64 + (tree sid x.st kind (leafArgs x.st (hd 4) 0 label.toList)).written.length ≤
        bigBuf.length
      rw [bigBuf, List.length_replicate]; omega), rfl⟩⟩

/-- The certificate that the grandchild gets. -/
theorem certify_is (sid : SignerId) (x : R) (kind : CertKind) (format : U32)
    (hd1 : ∀ i, sid ≠ .issuerAndSerial i []) (hk : Format format kind)
    (hr : Resolves x.st (hd 4) 0 2) (hp : Path x.st 2 [2, 1, 0])
    (h1 : ([2, 1, 0].any fun i => (x.st.at i).usesInfo) = false)
    (h2 : ([2, 1, 0].any fun i => (x.st.at i).usesDice) = false) {out : Bytes} {n : Nat}
    {s' : Sys cfg Nat} (h : exec (Ops.env cfg { certOps with signerId := fun n => (.ok sid, n) })
      (certifyCmd 4 format) 0 { x.sys with out := out } = (.ok n, s')) :
    certIn (.p256 (hd 4) 0 format label) s'.out n =
      (tree sid x.st kind (leafArgs x.st (hd 4) 0 label.toList)).written := by
  have hser : SerialGiven { certOps with signerId := fun n => (.ok sid, n) } := by
    intro w i w' h
    simp only at h
    injection h with h _
    injection h with h
    exact hd1 i h
  obtain ⟨_, kind', D, w1, t, w2, hd', w3, g1, g2, g3, g4, _, _, g7, _, g9⟩ := (certify_iff
    (s := { x.sys with out := out }) (cfg := cfg)
    (ops := { certOps with signerId := fun n => (.ok sid, n) }) (loc := 0)
    (c := .p256 (hd 4) 0 format label) x.reach
    (show false = true ↔ Profile.p256 = Profile.mldsa87 by decide) hser).1 h
  obtain rfl : kind' = kind := by
    have g1 : Format format kind' := g1
    rcases hk with ⟨a1, rfl⟩ | ⟨a1, rfl⟩ <;> rcases g1 with ⟨b1, rfl⟩ | ⟨b1, rfl⟩
    · rfl
    · rw [a1] at b1; cases b1
    · rw [a1] at b1; cases b1
    · rfl
  obtain ⟨rfl, rfl⟩ := g2.det (drafted sid kind' (leafArgs x.st (hd 4) 0 label.toList) x.p.2 hr hp h1 h2)
  obtain ⟨rfl, rfl⟩ := g3.det (issued sid kind' _ _ _)
  subst g9
  rw [g7, ← certifyReply_length (p := cfg.profile) (hd := hd') g4, certIn_reply g4]
  rfl

/-- An exporting DeriveContext for the grandchild. -/
def exportCmd : DeriveCmd cfg := ⟨hd 4, data 5 6, fExport, 7, 0, 1⟩

/-- The exporting DeriveContext succeeds for the grandchild. -/
theorem export_ok (x : R) (hr : Resolves x.st (hd 4) 0 2) (hp : Path x.st 2 [2, 1, 0])
    (h1 : ([2, 1, 0].any fun i => (x.st.at i).usesInfo) = false)
    (h2 : ([2, 1, 0].any fun i => (x.st.at i).usesDice) = false)
    (h3 : deriveUnsupported x.st.support exportCmd = false)
    (h4 : deriveBadArgs (x.st.at 2) exportCmd = false) (h5 : (x.st.at 2).children = 0)
    (h8 : (tree (.issuerAndSerial [0x30, 0] [5]) x.st .exportedX509
      (exportedArgs x.st (hd 4) 0 [3, 3, 3, 3])).written.length ≤ 920) :
    ∃ n s', exec (certOps.env cfg) (.derive exportCmd) 0 { x.sys with out := bigBuf } = (.ok n, s') := by
  have hn : NoRefusal (rules x.st 0 (.derive exportCmd)) := by
    simp only [NoRefusal, rules, earlyRules, lateRules, lookupRules, List.cons_append, List.nil_append,
      List.append_nil, List.mem_cons, List.not_mem_nil, or_false, forall_eq_or_imp, forall_eq]
    have e' : exportCmd.handle = hd 4 := rfl
    rw [e', named_iff hr, named_iff hr, named_iff hr, named_iff hr, ← badArgs_iff, ← deriveUnsupported_iff]
    have hx : Bit exportCmd.flags DFlag.exportCdi := by decide
    have hrec : ¬ Bit exportCmd.flags DFlag.recursive := by decide
    refine ⟨by rw [h3]; exact Bool.false_ne_true, fun h => h ⟨2, hr.1.1, hr.1.2.2⟩,
      fun h => h ⟨2, hr.1⟩, by rw [h4]; exact Bool.false_ne_true, fun h => hrec h.1, fun h => hrec h.1, ?_,
      fun h => h.2.1 hx, fun h => h.2.1 hx⟩
    rintro ⟨_, j, hj, _⟩
    rw [Lists, h5] at hj
    simp at hj
  have ht : (Vector.replicate 48 (3 : UInt8)).toList.take (4 : U32).toNat = [3, 3, 3, 3] := by
    decide +kernel
  refine export_runs (s := { x.sys with out := bigBuf }) (w0 := x.p.2) (w1 := x.p.2) (w2 := x.p.2)
    (w3 := x.p.2) (u := Vector.replicate 48 3) (k := 4)
    (D := draft (.issuerAndSerial [0x30, 0] [5]) .exportedX509)
    (t := tree (.issuerAndSerial [0x30, 0] [5]) x.st .exportedX509
      (exportedArgs x.st (hd 4) 0 [3, 3, 3, 3])) (cdi := Vector.replicate 32 9)
    x.reach decent_cert.fits decent_cert.serial (by decide) hn (.inl ⟨by decide, rfl⟩) rfl (by decide)
    ?_ ?_ rfl (Nat.le_trans h8 (by decide)) ?_
  · rw [ht]
    exact drafted (.issuerAndSerial [0x30, 0] [5]) .exportedX509 _ _ hr hp h1 h2
  · rw [ht]
    exact issued (.issuerAndSerial [0x30, 0] [5]) .exportedX509 _ _ _
  · show _ ≤ bigBuf.length
    rw [bigBuf, List.length_replicate]; omega

theorem s4_resolves : Resolves s4.st (hd 4) 0 2 := findActive_iff.1 (by decide +kernel)

theorem u4_resolves : Resolves u4.st (hd 4) 0 2 := findActive_iff.1 (by decide +kernel)

theorem v4_resolves : Resolves v4.st (hd 4) 0 2 := findActive_iff.1 (by decide +kernel)

theorem s4_drafted (sid : SignerId) (kind : CertKind) (a : CertArgs) (n : Nat) (h1 : a.handle = hd 4)
    (h2 : a.locality = 0) :
    Drafted { certOps with signerId := fun n => (.ok sid, n) } kind a s4.st n (draft sid kind) n :=
  drafted sid kind a n (by rw [h1, h2]; exact s4_resolves) s4_path (by decide +kernel)
    (by decide +kernel)

theorem v4_drafted (kind : CertKind) (a : CertArgs) (n : Nat) (h1 : a.handle = hd 4)
    (h2 : a.locality = 0) :
    Drafted certOps kind a v4.st n (draft (.issuerAndSerial [0x30, 0] [5]) kind) n :=
  drafted (.issuerAndSerial [0x30, 0] [5]) kind a n (by rw [h1, h2]; exact v4_resolves) v4_path
    (by decide +kernel) (by decide +kernel)

/-- The grandchild of `s4` gets a certificate. -/
theorem s4_certificate : ∃ n s', exec (certOps.env cfg) (certifyCmd 4 0) 0
    { s4.sys with out := bigBuf } = (.ok n, s') :=
  certify_ok (.issuerAndSerial [0x30, 0] [5]) s4 .leafX509 0 (by simp) (.inl ⟨rfl, rfl⟩)
    s4_resolves s4_path (by decide +kernel) (by decide +kernel)
    (by decide +kernel) (by decide +kernel) (by decide +kernel) (by decide +kernel)
    (by unfold Unused; decide +kernel) (by decide +kernel)

/-- The grandchild of `s4` gets a request. -/
theorem s4_request : ∃ n s', exec (certOps.env cfg) (certifyCmd 4 1) 0
    { s4.sys with out := bigBuf } = (.ok n, s') :=
  certify_ok (.issuerAndSerial [0x30, 0] [5]) s4 .leafCsr 1 (by simp) (.inr ⟨rfl, rfl⟩)
    s4_resolves s4_path (by decide +kernel) (by decide +kernel)
    (by decide +kernel) (by decide +kernel) (by decide +kernel) (by decide +kernel)
    (by unfold Unused; decide +kernel) (by decide +kernel)

/-- The grandchild of `u4` gets a certificate. -/
theorem u4_certificate : ∃ n s', exec (certOps.env cfg) (certifyCmd 4 0) 0
    { u4.sys with out := bigBuf } = (.ok n, s') :=
  certify_ok (.issuerAndSerial [0x30, 0] [5]) u4 .leafX509 0 (by simp) (.inl ⟨rfl, rfl⟩)
    u4_resolves u4_path (by decide +kernel) (by decide +kernel)
    (by decide +kernel) (by decide +kernel) (by decide +kernel) (by decide +kernel)
    (by unfold Unused; decide +kernel) (by decide +kernel)

/-- With a subject key identifier as signer, the grandchild of `s4` gets a request. -/
theorem s4_request_skid : ∃ n s', exec (skidOps.env cfg) (certifyCmd 4 1) 0
    { s4.sys with out := bigBuf } = (.ok n, s') :=
  certify_ok (.subjectKeyId (List.replicate 20 8)) s4 .leafCsr 1 (by simp) (.inr ⟨rfl, rfl⟩)
    s4_resolves s4_path (by decide +kernel) (by decide +kernel)
    (by decide +kernel) (by decide +kernel) (by decide +kernel) (by decide +kernel)
    (by unfold Unused; decide +kernel) (by decide +kernel)

/-- The CDI of the grandchild of `v4` can be exported. -/
theorem v4_exported : ∃ n s', exec (certOps.env cfg) (.derive exportCmd) 0
    { v4.sys with out := bigBuf } = (.ok n, s') :=
  export_ok v4 v4_resolves v4_path (by decide +kernel) (by decide +kernel)
    (by decide +kernel) (by decide +kernel) (by decide +kernel) (by decide +kernel)

end Dpe.Toy
