import Verif.Spec.Writer
import Verif.Proofs.X509Chain
import Verif.Proofs.X509Tree
import Verif.Props.Structure
import Verif.Examples.Cert
/-
C39: the certificate writer foretells the size of every field correctly, except that of the
MultiTcbInfo extension, whose size is right only for chains with regular SVNs.
-/
namespace Dpe
variable {cfg : Cfg} {σ : Type}

theorem Step.wrote {w w' : Writer} {bs : Bytes} (h : Step w w' bs) : Wrote w w' bs :=
  ⟨h.offset, h.length, fun hf => by rw [h.fits hf, List.append_assoc]⟩

theorem Emits.puts {e : Enc} {bs : Bytes} (h : Emits e bs) : Puts e bs :=
  fun w => ⟨(h w).1, (h w).2.wrote⟩

theorem Emits.foretold {e : Enc} {bs : Bytes} {n : Nat} (h : Emits e bs) (hn : bs.length = n) :
    Foretold n e := ⟨bs, h.puts, hn⟩

theorem Goes.puts {m : W σ Nat} {bs : Bytes} (h : Goes 0 False m bs bs.length) :
    PutsIfFits m bs := by
  intro w x hs hb
  rcases h w x hs hb with ⟨w', h1, h2, _⟩ | ⟨e, w', h1, ⟨_, h2 | h2⟩ | ⟨_, h2⟩⟩
  · exact .inl ⟨w', h1, h2.wrote⟩
  · exact .inr ⟨e, w', h1, h2⟩
  · exact h2.elim
  · exact h2.elim

/-- Length octets, integers, algorithm identifiers, names of times and keys. -/
theorem C39_basic (n : Nat) (v : Bytes) (t : Validity) (p : Profile) (curve : Bytes) :
    Foretold (sizeWidth n) (encSize n) ∧
    Foretold (intBytesSize v true) (encIntBytes v true) ∧
    Foretold (intSize n true) (encInt n true) ∧
    Foretold (bytesSize v true) (encOid v) ∧
    Foretold (ecPubAlgSize curve true) (encEcPubAlg curve) ∧
    Foretold (sigAlgSize p true) (encSigAlg p) ∧
    Foretold (hashAlgSize p true) (encHashAlg p) ∧
    Foretold (validitySize t true) (encValidity t) := by
  refine ⟨(emits_size n).foretold (lenBytes_length n), (emits_intBytes v true).foretold ?_,
    (emits_intBytes (be64 n) true).foretold ?_, (emits_oid v).foretold ?_, ?_,
    (emits_sigAlg p).foretold ?_, (emits_hashAlg p).foretold ?_, (emits_validity t).foretold ?_⟩
  · rw [intBytesSize_true]; simp [tl, lenBytes_length]; omega
  · rw [intSize, intBytesSize_true]; simp [tl, lenBytes_length]; omega
  · rw [Asn.plain_length _ (plain_oid v)]; simp [oidOf, Asn.fs, bytesSize]; rfl
  · have h : Emits (encEcPubAlg curve) (seqOf [oidOf oidEcPub, oidOf curve]).wr := by
      apply Emits.cast
      · exact emits_cons (emits_byte _) (emits_cons (emits_size _) (emits_cons (emits_oid _)
          (emits_cons (emits_oid _) emits_nil)))
      · simp [ecPubAlgSize, bytesSize, seqOf_wr, seqOf_fs, wrs_cons, wrs_nil, fss_cons, fss_nil, fs_prim, oidOf,
      structSize_true, structSize_false, tagSequence]
    refine h.foretold ?_
    rw [Asn.plain_length _ (by simp [seqOf, Asn.Plain, Asn.Plains, plain_oid])]
    simp [ecPubAlgSize, bytesSize, seqOf_wr, seqOf_fs, wrs_cons, wrs_nil, fss_cons, fss_nil, fs_prim, oidOf,
      structSize_true, structSize_false, tagSequence]
  · rw [Asn.plain_length _ (plain_sigAlgorithm p), sigAlgSize_eq]
  · rw [Asn.plain_length _ (plain_hashAlgorithm p), hashAlgSize_eq]
  · rw [Asn.plain_length _ (plain_validity t)]; simp [validityOf, validitySize, bytesSize, seqOf_wr, seqOf_fs, wrs_cons, wrs_nil, fss_cons, fss_nil, fs_prim, oidOf,
      structSize_true, structSize_false, tagSequence]

/-- ML-DSA keys, signatures and signer information. -/
theorem C39_signer (p : Profile) (k : BArr 2592) (sig : Sig) (sid : SignerId)
    (h : ∀ i, sid ≠ .issuerAndSerial i []) :
    Foretold (mldsaSpkiSize .mldsa87 k.toList true) (encMldsaSpki .mldsa87 k.toList) ∧
    Foretold (sigOctetsSize p sig true) (encSigOctets p sig) ∧
    Foretold (signerIdSize sid true) (encSignerId sid) ∧
    Foretold (signerInfoSize p sig sid true) (encSignerInfo p sig sid) := by
  refine ⟨(emits_mldsaSpki k).foretold ?_, (emits_sigOctets p sig).foretold ?_,
    (emits_signerId sid h).foretold ?_, (emits_signerInfo p sig sid h).foretold ?_⟩
  · rw [Asn.plain_length _ (plain_keyInfo _ _)]
    simp [keyInfo, keyAlgorithm, mldsaSpkiSize, sigAlgSize_eq, sigAlgorithm, keyOctets, bits,
      Nat.add_comm, seqOf_wr, seqOf_fs, wrs_cons, wrs_nil, fss_cons, fss_nil, fs_prim, oidOf,
      structSize_true, structSize_false, tagSequence]
  · rw [List.length_append, Asn.plain_length _ (plain_sigAlgorithm p),
      Asn.plain_length _ (plain_sigOctets sig), sigOctetsSize_eq]
  · rw [Asn.plain_length _ (plain_signerId sid), signerIdSize_eq sid h]
  · rw [Asn.plain_length _ (plain_signerInfo ..), signerInfoSize_eq p sig sid h]

/-- TcbInfo and the extensions other than MultiTcbInfo. -/
theorem C39_fields (p : Profile) (t : Tci cfg) (d : Bytes) (md : MeasData cfg)
    (recursive crit cert : Bool) :
    Foretold (fwidSize p d true) (encFwid p d) ∧
    Foretold (tcbInfoSize p t recursive true) (encTcbInfo p t recursive) ∧
    Foretold (ueidSize crit md true) (encUeid crit md) ∧
    Foretold (basicSize md true) (encBasic md) ∧
    Foretold (keyUsageSize true) (encKeyUsage md.isCa) ∧
    Foretold (extKeyUsageSize md true) (encExtKeyUsage md) ∧
    Foretold (subjectKeyIdSize md true cert) (encSubjectKeyId md cert) ∧
    Foretold (authorityKeyIdSize md true cert) (encAuthorityKeyId md cert) ∧
    Foretold (altNameSize md true) (encAltName md) := by
  have hall : ∀ {ts : List Asn} (h : ∀ x ∈ ts, x.Plain), (Asn.wrs ts).length = Asn.fss ts :=
    fun h => Asn.plains_length _ (Asn.Plains.of_forall h)
  have ho := plain_other (md.attested crit ([] : List (Tci cfg))) cert
  have hm : ∀ x, x ∈ otherExtensions (md.attested crit ([] : List (Tci cfg))) cert → x.Plain := ho
  rw [otherExtensions_eq] at hm
  refine ⟨(emits_fwid p d).foretold ?_, (emits_tcbInfo p t recursive).foretold ?_,
    (emits_ueid crit md).foretold ?_, (emits_basic md).foretold ?_,
    (emits_keyUsage md.isCa).foretold ?_, (emits_extKeyUsage md).foretold ?_,
    (emits_subjectKeyId md cert).foretold ?_, (emits_authorityKeyId md cert).foretold ?_,
    (emits_altName md).foretold ?_⟩
  · rw [Asn.plain_length _ (plain_fwid p d), fwidSize_eq]
  · rw [Asn.plain_length _ (plain_tcbInfo ..), tcbInfoSize_eq]
  · rw [Asn.plain_length _ (hm _ (by simp)), ueidSize_eq]
  · rw [Asn.plain_length _ (hm _ (by simp)), basicSize_eq]
  · rw [Asn.plain_length _ (hm _ (by simp)), keyUsageSize_eq]
  · rw [Asn.plain_length _ (hm _ (by simp)), extKeyUsageSize_eq]
  · rw [hall fun x hx => hm x (by simp [hx]), subjectKeyIdSize_eq]
  · rw [hall fun x hx => hm x (by simp [hx]), authorityKeyIdSize_eq]
  · rw [hall fun x hx => hm x (by simp [hx]), altNameSize_eq]

/-! ### MultiTcbInfo -/

theorem inherits_exact : Inherits (fun t => t.wr.length = t.fs)
    (fun ts => (Asn.wrs ts).length = Asn.fss ts) where
  plain := Asn.plain_length
  node n l ps h := by
    rw [wr_node, fs_node]
    simp only [tl, List.length_cons, List.length_append, lenBytes_length, h]; omega
  outer n ps h := by
    rw [outer_wr, Asn.fs]
    simp only [tl, List.length_cons, List.length_append, lenBytes_length, h]; omega
  all := by
    intro ps h
    induction ps with
    | nil => simp [wrs_nil, fss_nil]
    | cons t ts ih =>
      rw [wrs_cons, fss_cons, List.length_append, h t (by simp), ih fun u hu => h u (by simp [hu])]

/-- The sizes of the TcbInfos of a chain add up to what the first one suggests. -/
def SizesAddUp (p : Profile) (recursive : Bool) (chain : List (Tci cfg)) : Prop :=
  (chain.map fun t => tcbInfoSize p t recursive true).sum =
    chain.length * tcbInfoSize p (chain.headD Tci.new) recursive true

theorem sizesAddUp_iff {p : Profile} {a : Attested cfg} (hne : a.chain ≠ []) :
    (multiTcbInfo p a).wr.length = (multiTcbInfo p a).fs ↔ SizesAddUp p a.recursive a.chain := by
  have hs : ∀ ts : List (Tci cfg), (Asn.wrs (ts.map (tcbInfo p a.recursive))).length =
      (ts.map fun t => tcbInfoSize p t a.recursive true).sum := by
    intro ts
    induction ts with
    | nil => simp [wrs_nil]
    | cons t ts ih =>
      rw [List.map_cons, wrs_cons, List.length_append, ih, List.map_cons, List.sum_cons,
        Asn.plain_length _ (plain_tcbInfo ..), tcbInfoSize_eq]
  obtain ⟨t, ts, hch⟩ := List.exists_cons_of_ne_nil hne
  have hh : Asn.fsHead (a.chain.map (tcbInfo p a.recursive)) =
      tcbInfoSize p (a.chain.headD Tci.new) a.recursive true := by
    rw [hch, List.map_cons, Asn.fsHead, List.headD_cons, tcbInfoSize_eq]
  unfold SizesAddUp
  rw [multiTcbInfo, Asn.wr, Asn.fs, List.length_map, hh]
  simp only [tl, List.length_cons, List.length_append, lenBytes_length, hs]
  omega

theorem SvnsAlike.addUp {p : Profile} {r : Bool} {chain : List (Tci cfg)} (h : SvnsAlike chain) :
    SizesAddUp p r chain := by
  cases chain with
  | nil => simp [SizesAddUp]
  | cons t ts =>
    have hsz : ∀ u ∈ t :: ts, tcbInfoSize p u r true = tcbInfoSize p t r true := by
      intro u hu
      have h1 := h u hu t (by simp)
      simp only [tcbInfoSize, intSize_true (svn_lt u.svn), intSize_true (svn_lt t.svn), h1]
      simp [fwidSize]
    have hsum : ∀ us : List (Tci cfg), (∀ u ∈ us, tcbInfoSize p u r true = tcbInfoSize p t r true) →
        (us.map fun u => tcbInfoSize p u r true).sum = us.length * tcbInfoSize p t r true := by
      intro us hus
      induction us with
      | nil => simp
      | cons u us ih =>
        rw [List.map_cons, List.sum_cons, ih fun v hv => hus v (by simp [hv]), hus u (by simp),
          List.length_cons, Nat.add_mul]
        omega
    rw [SizesAddUp, List.headD_cons]
    exact hsum _ hsz

theorem extension_exact {oid : Bytes} {c : Bool} {v : Asn} :
    (extension (oidOf oid) c v).wr.length = (extension (oidOf oid) c v).fs ↔ v.wr.length = v.fs := by
  have h : (extension (oidOf oid) c v).fs = (extHead oid c v.fs).length + v.fs := by
    rw [← extSize_eq]
    cases c <;> simp [extSize, extHead, structSize_true, structSize_false, tl, lenBytes_length, oidOf,
      wr_prim, asnTrue] <;> omega
  rw [extension_wr, h, List.length_append]
  omega

theorem puts_unique {m : W Unit Nat} {a b : Bytes} (h1 : PutsIfFits m a) (h2 : PutsIfFits m b) :
    a.length = b.length := by
  rcases h1 (Writer.new (List.replicate (a.length + b.length) 0)) () rfl (by simp [Writer.new]) with
    ⟨w1, e1, _⟩ | ⟨_, _, _, hlt⟩
  · rcases h2 (Writer.new (List.replicate (a.length + b.length) 0)) () rfl (by simp [Writer.new]) with
      ⟨w2, e2, _⟩ | ⟨_, _, _, hlt⟩
    · rw [e1] at e2; injection e2 with e2 _; injection e2
    · simp [Writer.new] at hlt; omega
  · simp [Writer.new] at hlt; omega

section
variable {st : State cfg} {i : Nat} {l : List Nat} {md : MeasData cfg}

/-- The size foretold for the MultiTcbInfo extension is right exactly when the sizes of the TcbInfos
add up to the number of contexts times the size of the root's. -/
theorem C39_multi_iff (hf : Forest st) (hp : Path st i l) (h1 : md.start = i)
    (h2 : md.contexts = st.contexts) (p : Profile) (crit : Bool) :
    ForetoldIfFits (multiTcbSize p crit md true) (encMultiTcb p crit md : W Unit Nat) ↔
      SizesAddUp p md.recursive (l.reverse.map fun j => (st.at j).tci) := by
  have hc := chainOf_path hf.links hp h1 h2
  have hne : l.reverse.map (fun j => (st.at j).tci) ≠ [] := by
    have := hc.ne
    simpa using this
  have hmap : (l.reverse.map st.at).map (·.tci) = l.reverse.map fun j => (st.at j).tci := by
    rw [List.map_map]; rfl
  have hg := (goes_multiTcb (σ := Unit) (p := p) (crit := crit) hc).puts
  have hsz := multiTcbSize_ok (p := p) (crit := crit) hc
  rw [hmap] at hg hsz
  have key := sizesAddUp_iff (p := p)
    (a := md.attested crit (l.reverse.map fun j => (st.at j).tci)) hne
  rw [idMultiTcbInfo_eq] at hg hsz
  refine Iff.trans ?_ (Iff.trans (extension_exact (oid := oidMultiTcb) (c := crit)) key)
  constructor
  · rintro ⟨bs, h3, h4⟩
    rw [hsz] at h4
    injection h4 with h4
    rw [h4]
    exact puts_unique hg h3
  · intro h
    exact ⟨_, hg, by rw [hsz, h]⟩

/-- For chains whose SVNs are encoded in equally many octets, the sizes of MultiTcbInfo, of all
extensions and of the attributes of a request are foretold correctly.  (The property itself asks for
this without the condition on SVNs, see `C39_false`.) -/
theorem C39_chain_partial (hf : Forest st) (hp : Path st i l) (h1 : md.start = i)
    (h2 : md.contexts = st.contexts) (hs : SvnsAlike (l.reverse.map fun j => (st.at j).tci))
    (p : Profile) (crit : Bool) :
    ForetoldIfFits (multiTcbSize p crit md true) (encMultiTcb p crit md : W σ Nat) ∧
    ForetoldIfFits (extsSize p crit md true true true) (encExts p crit md true : W σ Nat) ∧
    ForetoldIfFits (extsSize p crit md true false false) (encExts p crit md false : W σ Nat) ∧
    ForetoldIfFits (attributesSize p crit md true) (encAttributes p crit md : W σ Nat) := by
  have hc := chainOf_path hf.links hp h1 h2
  have hmap : (l.reverse.map st.at).map (·.tci) = l.reverse.map fun j => (st.at j).tci := by
    rw [List.map_map]; rfl
  have hne : l.reverse.map (fun j => (st.at j).tci) ≠ [] := by
    have := hc.ne
    simpa using this
  have hm : (multiTcbInfo p (md.attested crit ((l.reverse.map st.at).map (·.tci)))).wr.length =
      (multiTcbInfo p (md.attested crit ((l.reverse.map st.at).map (·.tci)))).fs := by
    rw [hmap]
    exact (sizesAddUp_iff hne).2 hs.addUp
  have hx := fun cert => inherits_exact.exts hm cert
  refine ⟨⟨_, (goes_multiTcb hc).puts, ?_⟩, ⟨_, (goes_exts hc true).puts, ?_⟩,
    ⟨_, (goes_exts hc false).puts, ?_⟩, ?_⟩
  · rw [multiTcbSize_ok hc, idMultiTcbInfo_eq, extension_exact.2 hm]
  · rw [extsSize_ok hc, extsTree, tagged, inherits_exact.node _ _ _
      (inherits_exact.all _ fun t ht => by
        rw [List.mem_singleton] at ht; subst ht; exact hx true)]
    rw [fs_node]
    simp [structSize_true, extensions, seqOf_fs, fss_cons, fss_nil]
    rfl
  · rw [extsSize_ok hc, extsTree, hx false]
    simp [structSize_true, structSize_false, extensions, seqOf_fs, fss_cons]
    rfl
  · have hd := goes_attributes (σ := σ) (p := p) (crit := crit) (cn := []) (sn := [])
      (d := ⟨[], [], ⟨.printable [], .printable []⟩, .p256 (Vector.replicate 32 0) (Vector.replicate 32 0),
        md, ⟨[], []⟩⟩) hc
    refine ⟨_, hd.puts, ?_⟩
    have hlen : (attributes p (CertData.subjectOf (cfg := cfg) ⟨[], [], ⟨.printable [], .printable []⟩,
        .p256 (Vector.replicate 32 0) (Vector.replicate 32 0), md, ⟨[], []⟩⟩ crit
        (l.reverse.map st.at) [] [])).wr.length = (attributes p (CertData.subjectOf (cfg := cfg) ⟨[], [],
        ⟨.printable [], .printable []⟩, .p256 (Vector.replicate 32 0) (Vector.replicate 32 0), md,
        ⟨[], []⟩⟩ crit (l.reverse.map st.at) [] [])).fs := by
      refine inherits_exact.node _ _ _ (inherits_exact.all _ fun t ht => ?_)
      rw [List.mem_singleton] at ht; subst ht
      refine inherits_exact.node _ _ _ (inherits_exact.all _ fun t ht => ?_)
      simp only [List.mem_cons, List.not_mem_nil, or_false] at ht
      rcases ht with rfl | rfl
      · exact inherits_exact.plain _ (plain_oid _)
      · refine inherits_exact.node _ _ _ (inherits_exact.all _ fun t ht => ?_)
        rw [List.mem_singleton] at ht; subst ht
        exact hx false
    rw [hlen]
    simp only [attributesSize, attributeSize, extsSize_ok hc]
    simp [attributes, tagged, fs_node, seqOf_fs, setOf, fss_cons, fss_nil, extensions,
      idExtensionRequest_eq, structSize_true, structSize_false, oidOf, fs_prim, CertData.subjectOf]
    rfl

end

/-- A MultiTcbInfo extension for the grandchild of a chain. -/
def Toy.meas (st : State Toy.cfg) : MeasData Toy.cfg :=
  { start := 2, contexts := st.contexts, label := [1, 2, 3], isCa := false, recursive := false,
    subjectKeyId := [4], authorityKeyId := [5], altName := none }

theorem Toy.grandchild_path {st : State Toy.cfg} (h2 : Live st 2) (h1 : Live st 1) (h0 : Live st 0)
    (e2 : (st.at 2).parentIdx = 1) (e1 : (st.at 1).parentIdx = 0)
    (e0 : (st.at 0).parentIdx = ROOT) : Path st 2 [2, 1, 0] := by
  refine .step h2 (by rw [e2]; decide) ?_
  rw [e2]
  refine .step h1 (by rw [e1]; decide) ?_
  rw [e1]
  exact .root h0 e0

theorem Toy.u4_path : Path Toy.u4.st 2 [2, 1, 0] :=
  grandchild_path (by unfold Live; decide +kernel) (by unfold Live; decide +kernel)
    (by unfold Live; decide +kernel) (by decide +kernel) (by decide +kernel) (by decide +kernel)

theorem Toy.s4_path : Path Toy.s4.st 2 [2, 1, 0] :=
  grandchild_path (by unfold Live; decide +kernel) (by unfold Live; decide +kernel)
    (by unfold Live; decide +kernel) (by decide +kernel) (by decide +kernel) (by decide +kernel)

/-- The property fails: after three derivations with SVNs 0, 9 and 200 the size foretold for
MultiTcbInfo is not the number of bytes emitted. -/
theorem C39_false : ∃ (st : State Toy.cfg) (i : Nat) (l : List Nat) (md : MeasData Toy.cfg),
    Reachable st ∧ Path st i l ∧ md.start = i ∧ md.contexts = st.contexts ∧
    ¬ ForetoldIfFits (multiTcbSize .p256 true md true) (encMultiTcb .p256 true md : W Unit Nat) := by
  refine ⟨Toy.u4.st, 2, [2, 1, 0], Toy.meas Toy.u4.st, Toy.u4.reach, Toy.u4_path, rfl, rfl, ?_⟩
  rw [C39_multi_iff (C01_forest Toy.u4.reach) Toy.u4_path rfl rfl]
  unfold SizesAddUp
  decide +kernel

/-- The chain with SVNs 0, 9, 0 is regular. -/
example : SvnsAlike ([2, 1, 0].reverse.map fun j => (Toy.s4.st.at j).tci) ∧
    ForetoldIfFits (attributesSize .p256 true (Toy.meas Toy.s4.st) true)
      (encAttributes .p256 true (Toy.meas Toy.s4.st) : W Unit Nat) := by
  have h : SvnsAlike ([2, 1, 0].reverse.map fun j => (Toy.s4.st.at j).tci) := by
    unfold SvnsAlike; decide +kernel
  exact ⟨h, (C39_chain_partial (C01_forest Toy.s4.reach) Toy.s4_path rfl rfl h _ _).2.2.2⟩

example : (multiTcbSize .p256 true (Toy.meas Toy.s4.st) true).toOption = some 125 := by
  decide +kernel

end Dpe
