import Verif.Proofs.X509Enc
/-
Each encoder that cannot fail emits its part of the tree, and each size function gives the foreseen
length of it.
-/
namespace Dpe
variable {cfg : Cfg} {σ : Type}

/-! ### Object identifiers -/

theorem idEcPublicKey_eq : idEcPublicKey = oidOf oidEcPub :=
  congrArg oidOf (by decide +kernel)
theorem idPrime256v1_eq : idPrime256v1 = oidOf oidCurve256 := congrArg oidOf (by decide +kernel)
theorem idSecp384r1_eq : idSecp384r1 = oidOf oidCurve384 := congrArg oidOf (by decide +kernel)
theorem idEcdsaSha256_eq : idEcdsaSha256 = oidOf oidEcdsaSha256 :=
  congrArg oidOf (by decide +kernel)
theorem idEcdsaSha384_eq : idEcdsaSha384 = oidOf oidEcdsaSha384 :=
  congrArg oidOf (by decide +kernel)
theorem idMldsa87_eq : idMldsa87 = oidOf oidMldsa := congrArg oidOf (by decide +kernel)
theorem idSha256_eq : idSha256 = oidOf oidSha256 := congrArg oidOf (by decide +kernel)
theorem idSha384_eq : idSha384 = oidOf oidSha384 := congrArg oidOf (by decide +kernel)
theorem idCommonName_eq : idCommonName = oidOf oidCommonName := congrArg oidOf (by decide +kernel)
theorem idSerialNumber_eq : idSerialNumber = oidOf oidSerialNumber :=
  congrArg oidOf (by decide +kernel)
theorem idMultiTcbInfo_eq : idMultiTcbInfo = oidOf oidMultiTcb := congrArg oidOf (by decide +kernel)
theorem idUeid_eq : idUeid = oidOf oidUeid := congrArg oidOf (by decide +kernel)
theorem idEca_eq : idEca = oidOf oidEca := congrArg oidOf (by decide +kernel)
theorem idAttestLoc_eq : idAttestLoc = oidOf oidAttestLoc := congrArg oidOf (by decide +kernel)
theorem idBasicConstraints_eq : idBasicConstraints = oidOf oidBasic :=
  congrArg oidOf (by decide +kernel)
theorem idKeyUsage_eq : idKeyUsage = oidOf oidKeyUsage := congrArg oidOf (by decide +kernel)
theorem idExtKeyUsage_eq : idExtKeyUsage = oidOf oidExtKeyUsage :=
  congrArg oidOf (by decide +kernel)
theorem idSubjectKeyId_eq : idSubjectKeyId = oidOf oidSubjectKeyId :=
  congrArg oidOf (by decide +kernel)
theorem idAuthorityKeyId_eq : idAuthorityKeyId = oidOf oidAuthorityKeyId :=
  congrArg oidOf (by decide +kernel)
theorem idSubjectAltName_eq : idSubjectAltName = oidOf oidSubjectAltName :=
  congrArg oidOf (by decide +kernel)
theorem idSignedData_eq : idSignedData = oidOf oidSignedData := congrArg oidOf (by decide +kernel)
theorem idData_eq : idData = oidOf oidData := congrArg oidOf (by decide +kernel)
theorem idExtensionRequest_eq : idExtensionRequest = oidOf oidExtRequest :=
  congrArg oidOf (by decide +kernel)

/-! ### Shapes -/

theorem fs_prim (tag : UInt8) (b : Bytes) : (Asn.prim tag b).fs = tl b.length := by rw [Asn.fs]
theorem wr_prim (tag : UInt8) (b : Bytes) :
    (Asn.prim tag b).wr = tag :: (lenBytes b.length ++ b) := by rw [Asn.wr]
theorem fs_node (tag : UInt8) (l : Bytes) (ps : List Asn) :
    (Asn.node tag l ps).fs = tl (l.length + Asn.fss ps) := by rw [Asn.fs]
theorem wr_node (tag : UInt8) (l : Bytes) (ps : List Asn) : (Asn.node tag l ps).wr =
    tag :: (lenBytes (l.length + Asn.fss ps) ++ (l ++ Asn.wrs ps)) := by rw [Asn.wr]
theorem fss_nil : Asn.fss [] = 0 := by rw [Asn.fss]
theorem fss_cons (t : Asn) (ts : List Asn) : Asn.fss (t :: ts) = t.fs + Asn.fss ts := by
  rw [Asn.fss]
theorem wrs_nil : Asn.wrs [] = [] := by rw [Asn.wrs]
theorem wrs_cons (t : Asn) (ts : List Asn) : Asn.wrs (t :: ts) = t.wr ++ Asn.wrs ts := by
  rw [Asn.wrs]

theorem tag_160 : (128 : UInt8) ||| 32 = 160 := by decide

attribute [local simp] tag_160 fs_prim wr_prim fs_node wr_node fss_nil fss_cons wrs_nil wrs_cons
  structSize_true structSize_false Asn.fss_append Asn.wrs_append
  seqOf setOf asnInt asnTrue oidOf octets octetsOf bits bitsOf implicit tagged
  tagBool tagInteger tagBitString tagOctetString tagOid tagUtf8 tagPrintable tagGenTime tagSequence
  tagSetOf tagContext tagConstructed

/-- Build the emission of a list of encoders. -/
local macro "emit" : tactic => `(tactic| repeat' first
  | with_reducible exact emits_nil
  | with_reducible exact emits_byte _
  | with_reducible exact emits_bytes _
  | with_reducible exact emits_size _
  | with_reducible exact emits_tlv _ _
  | with_reducible exact emits_oid _
  | with_reducible assumption
  | with_reducible apply emits_cons)

/-! ### Algorithms, names, keys -/

theorem sigAlgorithm_eq (p : Profile) : sigAlgorithm p = seqOf [oidOf (sigOid p)] := by
  cases p
  · rw [sigAlgorithm, idEcdsaSha256_eq]; rfl
  · rw [sigAlgorithm, idEcdsaSha384_eq]; rfl
  · rw [sigAlgorithm, idMldsa87_eq]; rfl

theorem hashId_eq (p : Profile) : hashId p = oidOf (hashOid p) := by
  cases p
  · rw [hashId, idSha256_eq]; rfl
  · rw [hashId, idSha384_eq]; rfl
  · rw [hashId, idSha384_eq]; rfl

theorem sigAlgSize_eq (p : Profile) : sigAlgSize p true = (sigAlgorithm p).fs := by
  rw [sigAlgorithm_eq]; simp [sigAlgSize, bytesSize]

theorem hashAlgSize_eq (p : Profile) : hashAlgSize p true = (hashAlgorithm p).fs := by
  rw [hashAlgorithm, hashId_eq]; simp [hashAlgSize, bytesSize]

theorem emits_sigAlg (p : Profile) : Emits (encSigAlg p) (sigAlgorithm p).wr := by
  apply Emits.cast
  · unfold encSigAlg; emit
  · rw [sigAlgorithm_eq]; simp [sigAlgSize, bytesSize]

theorem emits_hashAlg (p : Profile) : Emits (encHashAlg p) (hashAlgorithm p).wr := by
  apply Emits.cast
  · unfold encHashAlg; emit
  · rw [hashAlgorithm, hashId_eq]; simp [hashAlgSize, bytesSize]

theorem emits_validity (v : Validity) : Emits (encValidity v) (validityOf v).wr := by
  apply Emits.cast
  · unfold encValidity; emit
  · simp [validityOf, validitySize, bytesSize]

theorem emits_rdn (cn sn : Bytes) :
    Emits (encRdn { cn := .printable cn, serial := .printable sn }) (nameOf cn sn).wr := by
  apply Emits.cast
  · unfold encRdn encRdnString; emit
  · rw [nameOf, idCommonName_eq, idSerialNumber_eq]
    simp [DirString.bytes]

theorem emits_ecSpki {p : Profile} {k : PubKey} {x y curve : Bytes}
    (hk : keyOctets k = 0x04 :: (x ++ y)) (hl : x.length = y.length)
    (hp : keyAlgorithm p = seqOf [oidOf oidEcPub, oidOf curve]) :
    Emits (encEcSpki x y curve) (keyInfo p k).wr := by
  have h1 : Emits (encEcPubAlg curve) (keyAlgorithm p).wr := by
    apply Emits.cast
    · unfold encEcPubAlg; emit
    · rw [hp]; simp [ecPubAlgSize, bytesSize]
  apply Emits.cast
  · unfold encEcSpki; emit
  · rw [keyInfo, hk, hp]
    simp [ecPubAlgSize, bytesSize, hl, Nat.add_assoc, Nat.add_comm, Nat.add_left_comm]

theorem emits_mldsaSpki (k : Vector UInt8 2592) :
    Emits (encMldsaSpki .mldsa87 k.toList) (keyInfo .mldsa87 (.mldsa k)).wr := by
  have h1 := emits_sigAlg .mldsa87
  have h2 : keyAlgorithm .mldsa87 = sigAlgorithm .mldsa87 := rfl
  apply Emits.cast
  · unfold encMldsaSpki; emit
  · rw [keyInfo, h2]
    simp only [mldsaSpkiSize, sigAlgSize_eq, keyOctets]
    simp [Nat.add_comm]

/-! ### Signatures -/

theorem wInt_le {v : Bytes} {n : Nat} (h : v.length ≤ n) : (wInt v).length ≤ n + 1 := by
  by_cases hv : v = []
  · subst hv
    exact Nat.zero_le _
  · rw [wInt_length]
    have := (intLen_spec v.length v 0 hv (by omega)).1
    have h2 : intBytesSize v false = intLenLoop v.length 0 v v.length := rfl
    omega

theorem tl_small {n : Nat} (h : n < 128) : tl n = n + 2 := by
  have : sizeWidth n = 1 := by unfold sizeWidth; rw [if_pos h]
  unfold tl; omega

theorem ecSigSeqSize_eq (r s : Bytes) : ecSigSeqSize r s = tl (wInt r).length + tl (wInt s).length := by
  rw [ecSigSeqSize, intBytesSize_true, intBytesSize_true]

theorem emits_ecSigBits {r s : Bytes} (hr : r ≠ []) (hs : s ≠ []) (hr' : r.length ≤ 48)
    (hs' : s.length ≤ 48) : Emits (encEcSigBits r s) (bitsOf [ecdsaSig r s]).wr := by
  have h1 := emits_intTagged hr
  have h2 := emits_intTagged hs
  have h3 := wInt_le hr'
  have h4 := wInt_le hs'
  have h5 := tl_small (n := (wInt r).length) (by omega)
  have h6 := tl_small (n := (wInt s).length) (by omega)
  have h7 : tl (1 + ecSigSeqSize r s) = 1 + tl (ecSigSeqSize r s) := by
    have h8 := ecSigSeqSize_eq r s
    have h9 := tl_small (n := ecSigSeqSize r s) (by omega)
    have h10 := tl_small (n := 1 + ecSigSeqSize r s) (by omega)
    omega
  apply Emits.cast
  · unfold encEcSigBits; emit
  · rw [structSize_true, h7, ecSigSeqSize_eq, wInt_eq hr, wInt_eq hs]
    simp [ecdsaSig]

theorem ecSigOctets_eq {r s : Bytes} (hr : r ≠ []) (hs : s ≠ []) :
    ecSigOctetsSize r s true = (octetsOf [ecdsaSig r s]).fs := by
  simp [ecSigOctetsSize, intBytesSize_true, ecdsaSig, wInt_eq hr, wInt_eq hs]

theorem emits_ecSigOctets {r s : Bytes} (hr : r ≠ []) (hs : s ≠ []) :
    Emits (encEcSigOctets r s) (octetsOf [ecdsaSig r s]).wr := by
  have h1 := emits_intTagged hr
  have h2 := emits_intTagged hs
  apply Emits.cast
  · unfold encEcSigOctets; emit
  · rw [structSize_true, ecSigSeqSize_eq, wInt_eq hr, wInt_eq hs]
    simp [ecdsaSig]

theorem vec_ne {n : Nat} (v : Vector UInt8 (n + 1)) : v.toList ≠ [] := by
  intro h
  have := congrArg List.length h
  simp at this

theorem emits_sigBits (p : Profile) (sig : Sig) :
    Emits (encSigBits p sig) ((sigAlgorithm p).wr ++ (sigBits sig).wr) := by
  have h1 := emits_sigAlg p
  cases sig with
  | p256 r s =>
    have h2 := emits_ecSigBits (vec_ne r) (vec_ne s) (by simp) (by simp)
    exact (emits_cons h1 (emits_cons h2 emits_nil)).cast (by rw [List.append_nil]; rfl)
  | p384 r s =>
    have h2 := emits_ecSigBits (vec_ne r) (vec_ne s) (by simp) (by simp)
    exact (emits_cons h1 (emits_cons h2 emits_nil)).cast (by rw [List.append_nil]; rfl)
  | mldsa s =>
    have h2 : Emits (encMldsaSigBits s.toList) (sigBits (.mldsa s)).wr := by
      apply Emits.cast
      · unfold encMldsaSigBits; emit
      · simp [sigBits, Nat.add_comm]
    exact (emits_cons h1 (emits_cons h2 emits_nil)).cast (by rw [List.append_nil])

theorem emits_sigOctets (p : Profile) (sig : Sig) :
    Emits (encSigOctets p sig) ((sigAlgorithm p).wr ++ (sigOctets sig).wr) := by
  have h1 := emits_sigAlg p
  cases sig with
  | p256 r s =>
    have h2 := emits_ecSigOctets (vec_ne r) (vec_ne s)
    exact (emits_cons h1 (emits_cons h2 emits_nil)).cast (by rw [List.append_nil]; rfl)
  | p384 r s =>
    have h2 := emits_ecSigOctets (vec_ne r) (vec_ne s)
    exact (emits_cons h1 (emits_cons h2 emits_nil)).cast (by rw [List.append_nil]; rfl)
  | mldsa s =>
    have h2 := emits_tlv tagOctetString s.toList
    exact (emits_cons h1 (emits_cons h2 emits_nil)).cast (by rw [List.append_nil]; rfl)

theorem sigOctetsSize_eq (p : Profile) (sig : Sig) :
    sigOctetsSize p sig true = (sigAlgorithm p).fs + (sigOctets sig).fs := by
  cases sig with
  | p256 r s => rw [sigOctetsSize, sigAlgSize_eq, ecSigOctets_eq (vec_ne r) (vec_ne s)]; rfl
  | p384 r s => rw [sigOctetsSize, sigAlgSize_eq, ecSigOctets_eq (vec_ne r) (vec_ne s)]; rfl
  | mldsa s => rw [sigOctetsSize, sigAlgSize_eq, sigOctets, octets, Asn.fs]; rfl

theorem emits_version : Emits encVersion (tagged 0 [asnInt 2]).wr := by
  have h1 := emits_int (n := 2) (by decide)
  apply Emits.cast
  · unfold encVersion; emit
  · rw [intSize_true (by decide)]; simp

/-! ### TCB information -/

theorem fwidSize_eq (p : Profile) (d : Bytes) : fwidSize p d true = (fwid p d).fs := by
  rw [fwid, hashId_eq]; simp [fwidSize]

theorem emits_fwid (p : Profile) (d : Bytes) : Emits (encFwid p d) (fwid p d).wr := by
  apply Emits.cast
  · unfold encFwid; emit
  · rw [fwid, hashId_eq]; simp [fwidSize]

theorem be32_eq (n : U32) : be32 n = (le32 n).reverse := by
  simp only [be32, le32, List.reverse_cons, List.reverse_nil, List.nil_append, List.cons_append]
  rfl

theorem svn_lt (n : U32) : n.toNat < 18446744073709551616 := by
  have := n.isLt; omega

/-- The integrity registers of a TcbInfo. -/
def registers (p : Profile) (d : Bytes) : Asn :=
  tagged 11 [seqOf [implicit 1 (intBody 0), tagged 2 [fwid p d]]]

theorem emits_registers (p : Profile) (t : Tci cfg) :
    Emits (Enc.all (encRegisters p t)) (registers p t.cumulative.toList).wr := by
  have h1 := emits_fwid p t.cumulative.toList
  have h2 := emits_int_bare (n := 0) (by decide)
  apply Emits.cast
  · unfold encRegisters; emit
  · rw [intSize_true (by decide), fwidSize_eq]
    simp [registers]

theorem tcbInfoSize_eq (p : Profile) (r : Bool) (t : Tci cfg) :
    tcbInfoSize p t r true = (tcbInfo p r t).fs := by
  have hl : (le32 t.tciType).length = 4 := rfl
  have hl' : (le32 t.locality).length = 4 := rfl
  simp only [tcbInfoSize, intSize_true (svn_lt t.svn), intSize_true (n := 0) (by decide), fwidSize_eq]
  cases r <;> simp [tcbInfo, hl, hl', Nat.add_assoc, Nat.add_comm, Nat.add_left_comm, Nat.two_mul]

theorem tcbInfoSize_false (p : Profile) (r : Bool) (t : Tci cfg) :
    tl (tcbInfoSize p t r false) = tcbInfoSize p t r true := by
  simp [tcbInfoSize]

theorem emits_tcbInfo (p : Profile) (t : Tci cfg) (r : Bool) :
    Emits (encTcbInfo p t r) (tcbInfo p r t).wr := by
  have h1 := emits_fwid p t.current.toList
  have h2 := emits_int_bare (svn_lt t.svn)
  have h3 := emits_registers p t
  have hl : (le32 t.tciType).length = 4 := rfl
  have hl' : (le32 t.locality).length = 4 := rfl
  unfold encTcbInfo
  apply Emits.cast
  · apply emits_append
    · emit
    · show Emits _ (if r then (registers p t.cumulative.toList).wr else [])
      cases r
      · exact emits_nil
      · exact h3
  · have hs : tcbInfoSize p t r false =
        tl (intBody t.svn.toNat).length + (tl (fwid p t.current.toList).fs + (tl 4 + (tl 4 +
          if r then (registers p t.cumulative.toList).fs else 0))) := by
      simp only [tcbInfoSize, intSize_true (svn_lt t.svn), intSize_true (n := 0) (by decide),
        fwidSize_eq]
      cases r <;> simp [registers, Nat.add_assoc, Nat.add_comm, Nat.add_left_comm, Nat.two_mul]
    rw [hs, fwidSize_eq, be32_eq]
    cases r <;> simp [tcbInfo, hl, hl', registers]

/-! ### Extensions -/

/-- The octets of an extension before its value. -/
def extHead (oid : Bytes) (c : Bool) (n : Nat) : Bytes :=
  [0x30] ++ (lenBytes (extSize oid c n false) ++ ((oidOf oid).wr ++
    ((if c then asnTrue.wr else []) ++ ([0x04] ++ lenBytes n))))

theorem extension_wr (oid : Bytes) (c : Bool) (value : Asn) :
    (extension (oidOf oid) c value).wr = extHead oid c value.fs ++ value.wr := by
  cases c <;> simp [extension, extSize, extHead, Nat.add_assoc]

theorem emits_extHeader (oid : Bytes) (c : Bool) (n : Nat) :
    Emits (encExtHeader oid (critByte c) n) (extHead oid c n) := by
  unfold encExtHeader extHead
  apply Emits.cast
  · apply emits_append
    · apply emits_append
      · emit
      · show Emits _ (if c then asnTrue.wr else [])
        cases c
        · exact emits_nil
        · apply Emits.cast
          · simp only [critByte, if_true]; emit
          · simp
    · emit
  · have : (critByte c).isSome = c := by cases c <;> rfl
    simp [this]

theorem emits_extension {oid : Bytes} {c : Bool} {value : Asn} {es : List Enc} {n : Nat}
    (hv : Emits (Enc.all es) value.wr) (hn : n = value.fs) :
    Emits (Enc.all (encExtHeader oid (critByte c) n :: es))
      (extension (oidOf oid) c value).wr := by
  subst hn
  rw [extension_wr]
  exact emits_cons (emits_extHeader oid c value.fs) hv

theorem extSize_eq (oid : Bytes) (c : Bool) (value : Asn) :
    extSize oid c value.fs true = (extension (oidOf oid) c value).fs := by
  cases c <;> simp [extension, extSize, Nat.add_assoc]

/-- The attested data of the writer's measurement data, given the chain. -/
def MeasData.attested (md : MeasData cfg) (crit : Bool) (ts : List (Tci cfg)) : Attested cfg :=
  { chain := ts, label := md.label, ca := md.isCa, recursive := md.recursive, critical := crit,
    subjectKeyId := md.subjectKeyId, authorityKeyId := md.authorityKeyId, altName := md.altName }

theorem ueidContent_eq (md : MeasData cfg) : ueidContent md = (seqOf [octets md.label]).fs := by
  simp [ueidContent]

theorem ueidSize_eq (crit : Bool) (md : MeasData cfg) :
    ueidSize crit md true = (extension idUeid crit (seqOf [octets md.label])).fs := by
  rw [idUeid_eq, ueidSize, ueidContent_eq, extSize_eq]

theorem emits_ueid (crit : Bool) (md : MeasData cfg) :
    Emits (encUeid crit md) (extension idUeid crit (seqOf [octets md.label])).wr := by
  rw [idUeid_eq]
  refine emits_extension ?_ (ueidContent_eq md)
  apply Emits.cast
  · emit
  · simp

theorem basicContent_eq (md : MeasData cfg) :
    structSize (caSize md) true = (basicConstraints md.isCa).fs := by
  unfold caSize basicConstraints
  cases md.isCa <;> simp

theorem basicSize_eq (md : MeasData cfg) : basicSize md true =
    (extension idBasicConstraints true (basicConstraints md.isCa)).fs := by
  rw [idBasicConstraints_eq, basicSize, basicContent_eq, extSize_eq]

theorem emits_basic (md : MeasData cfg) : Emits (encBasic md)
    (extension idBasicConstraints true (basicConstraints md.isCa)).wr := by
  rw [idBasicConstraints_eq]
  refine emits_extension (c := true) ?_ (basicContent_eq md)
  unfold caSize basicConstraints
  cases md.isCa
  · simp only [Bool.false_eq_true, if_false]
    show Emits (Enc.all [_, _]) _
    apply Emits.cast
    · emit
    · simp
  · simp only [if_true]
    show Emits (Enc.all [_, _, _, _, _]) _
    apply Emits.cast
    · emit
    · simp

theorem keyUsageContent_eq (ca : Bool) : structSize 2 true = (keyUsage ca).fs := by
  cases ca <;> simp [keyUsage]

theorem keyUsageSize_eq (ca : Bool) :
    keyUsageSize true = (extension idKeyUsage true (keyUsage ca)).fs := by
  rw [idKeyUsage_eq, keyUsageSize, keyUsageContent_eq ca, extSize_eq]

theorem emits_keyUsage (ca : Bool) :
    Emits (encKeyUsage ca) (extension idKeyUsage true (keyUsage ca)).wr := by
  rw [idKeyUsage_eq]
  refine emits_extension (c := true) ?_ (keyUsageContent_eq ca)
  apply Emits.cast
  · emit
  · cases ca <;> simp [keyUsage]
    decide

theorem purpose_eq (md : MeasData cfg) :
    extKeyUsage md.isCa = seqOf [oidOf (purposeOid md)] := by
  unfold extKeyUsage purposeOid
  cases md.isCa
  · simp only [Bool.false_eq_true, if_false, idAttestLoc_eq]
  · simp only [if_true, idEca_eq]

theorem extKeyUsageContent_eq (md : MeasData cfg) :
    structSize (structSize (purposeOid md).length true) true = (extKeyUsage md.isCa).fs := by
  rw [purpose_eq]; simp

theorem extKeyUsageSize_eq (md : MeasData cfg) : extKeyUsageSize md true =
    (extension idExtKeyUsage true (extKeyUsage md.isCa)).fs := by
  rw [idExtKeyUsage_eq, extKeyUsageSize, extKeyUsageContent_eq, extSize_eq]

theorem emits_extKeyUsage (md : MeasData cfg) : Emits (encExtKeyUsage md)
    (extension idExtKeyUsage true (extKeyUsage md.isCa)).wr := by
  rw [idExtKeyUsage_eq]
  refine emits_extension (c := true) ?_ (extKeyUsageContent_eq md)
  rw [purpose_eq]
  apply Emits.cast
  · emit
  · simp

/-- The subject key identifier extension, where present. -/
def skiExts (md : MeasData cfg) (cert : Bool) : List Asn :=
  if md.isCa && cert then [extension idSubjectKeyId false (octets md.subjectKeyId)] else []

/-- The authority key identifier extension, where present. -/
def akiExts (md : MeasData cfg) (cert : Bool) : List Asn :=
  if cert then [extension idAuthorityKeyId false (seqOf [implicit 0 md.authorityKeyId])] else []

/-- The subject alternative name extension, where present. -/
def sanExts (md : MeasData cfg) : List Asn :=
  match md.altName with
  | some o => [extension idSubjectAltName false (altNames o)]
  | none => []

theorem subjectKeyIdSize_eq (md : MeasData cfg) (cert : Bool) :
    subjectKeyIdSize md true cert = Asn.fss (skiExts md cert) := by
  have h : structSize md.subjectKeyId.length true = (octets md.subjectKeyId).fs := by simp
  unfold subjectKeyIdSize skiExts
  rw [h, extSize_eq, idSubjectKeyId_eq]
  cases md.isCa <;> cases cert <;> simp

theorem emits_subjectKeyId (md : MeasData cfg) (cert : Bool) :
    Emits (encSubjectKeyId md cert) (Asn.wrs (skiExts md cert)) := by
  have h : Emits (Enc.all [encExtHeader oidSubjectKeyId none (structSize md.subjectKeyId.length true),
      encTlv tagOctetString md.subjectKeyId])
      (extension (oidOf oidSubjectKeyId) false (octets md.subjectKeyId)).wr := by
    refine emits_extension (c := false) ?_ (by simp)
    apply Emits.cast
    · emit
    · simp
  unfold encSubjectKeyId skiExts
  rw [idSubjectKeyId_eq]
  by_cases hc : (md.isCa && cert) = true
  · have hn : ¬ (!md.isCa || !cert) = true := by
      revert hc; cases md.isCa <;> cases cert <;> decide
    rw [if_pos hc, if_neg hn]
    exact h.cast (by rw [wrs_cons, wrs_nil, List.append_nil])
  · have hn : (!md.isCa || !cert) = true := by
      revert hc; cases md.isCa <;> cases cert <;> decide
    rw [if_neg hc, if_pos hn]
    exact emits_nil.cast (by rw [wrs_nil])

theorem akiContent_eq (md : MeasData cfg) :
    structSize (keyIdSize md.authorityKeyId.length true false) true =
      (seqOf [implicit 0 md.authorityKeyId]).fs := by
  simp [keyIdSize]

theorem authorityKeyIdSize_eq (md : MeasData cfg) (cert : Bool) :
    authorityKeyIdSize md true cert = Asn.fss (akiExts md cert) := by
  unfold authorityKeyIdSize akiExts
  rw [akiContent_eq, extSize_eq, idAuthorityKeyId_eq]
  cases cert <;> simp

theorem emits_authorityKeyId (md : MeasData cfg) (cert : Bool) :
    Emits (encAuthorityKeyId md cert) (Asn.wrs (akiExts md cert)) := by
  unfold encAuthorityKeyId akiExts
  cases cert
  · exact emits_nil.cast (by simp)
  · simp only [Bool.not_true, Bool.false_eq_true, if_false, if_true]
    have h : Emits (Enc.all [encExtHeader oidAuthorityKeyId none
        (structSize (keyIdSize md.authorityKeyId.length true false) true),
        encByte tagSequence, encSize (keyIdSize md.authorityKeyId.length true false),
        encTlv (tagContext ||| 0x0) md.authorityKeyId])
        (extension (oidOf oidAuthorityKeyId) false (seqOf [implicit 0 md.authorityKeyId])).wr := by
      refine emits_extension (c := false) ?_ (akiContent_eq md)
      apply Emits.cast
      · emit
      · simp [keyIdSize]
    rw [idAuthorityKeyId_eq]
    exact h.cast (by rw [wrs_cons, wrs_nil, List.append_nil])

theorem sanContent_eq (o : OtherName) :
    structSize (otherNameSize o true) true = (altNames o).fs := by
  simp [otherNameSize, otherValueSize, altNames]

theorem altNameSize_eq (md : MeasData cfg) : altNameSize md true = Asn.fss (sanExts md) := by
  unfold altNameSize sanExts
  cases md.altName with
  | none => simp
  | some o => simp only [sanContent_eq, extSize_eq, idSubjectAltName_eq, fss_cons, fss_nil]; rfl

theorem emits_altName (md : MeasData cfg) : Emits (encAltName md) (Asn.wrs (sanExts md)) := by
  unfold encAltName sanExts
  cases md.altName with
  | none => exact emits_nil.cast (by simp)
  | some o =>
    simp only
    have h0 : Emits (encOtherValue o.name) (tagged 0 [.prim 0x0C o.name]).wr := by
      apply Emits.cast
      · unfold encOtherValue; emit
      · simp [otherValueSize]
    have h1 : Emits (encOtherName o)
        (tagged 0 [oidOf o.oid, tagged 0 [.prim 0x0C o.name]]).wr := by
      apply Emits.cast
      · unfold encOtherName; emit
      · simp [otherNameSize, otherValueSize]
    have h : Emits (Enc.all [encExtHeader oidSubjectAltName none (structSize (otherNameSize o true) true),
        encByte tagSequence, encSize (otherNameSize o true), encOtherName o])
        (extension (oidOf oidSubjectAltName) false (altNames o)).wr := by
      refine emits_extension (c := false) ?_ (sanContent_eq o)
      apply Emits.cast
      · emit
      · simp [otherNameSize, otherValueSize, altNames]
    rw [idSubjectAltName_eq]
    exact h.cast (by rw [wrs_cons, wrs_nil, List.append_nil])

/-- The extensions after MultiTcbInfo. -/
theorem otherExtensions_eq (md : MeasData cfg) (crit : Bool) (ts : List (Tci cfg)) (cert : Bool) :
    otherExtensions (md.attested crit ts) cert =
      extension idUeid crit (seqOf [octets md.label]) ::
      extension idBasicConstraints true (basicConstraints md.isCa) ::
      extension idKeyUsage true (keyUsage md.isCa) ::
      extension idExtKeyUsage true (extKeyUsage md.isCa) ::
      (skiExts md cert ++ (akiExts md cert ++ sanExts md)) := by
  simp only [otherExtensions, MeasData.attested, skiExts, akiExts, sanExts, List.append_assoc,
    List.cons_append, List.nil_append]
  cases md.altName <;> rfl

theorem emits_otherExtensions (md : MeasData cfg) (crit : Bool) (ts : List (Tci cfg))
    (cert : Bool) :
    Emits (Enc.all [encUeid crit md, encBasic md, encKeyUsage md.isCa, encExtKeyUsage md,
      encSubjectKeyId md cert, encAuthorityKeyId md cert, encAltName md])
      (Asn.wrs (otherExtensions (md.attested crit ts) cert)) := by
  refine (emits_cons (emits_ueid crit md) (emits_cons (emits_basic md)
    (emits_cons (emits_keyUsage md.isCa) (emits_cons (emits_extKeyUsage md)
      (emits_cons (emits_subjectKeyId md cert) (emits_cons (emits_authorityKeyId md cert)
        (emits_cons (emits_altName md) emits_nil))))))).cast ?_
  rw [otherExtensions_eq]
  simp only [wrs_cons, Asn.wrs_append, List.append_nil]

/-! ### Signer information -/

theorem signerIdSize_eq (sid : SignerId) (h : ∀ i, sid ≠ .issuerAndSerial i []) :
    signerIdSize sid true = (signerIdentifier' sid).fs := by
  cases sid with
  | issuerAndSerial issuer serial =>
    have hs : serial ≠ [] := fun hc => h issuer (by rw [hc])
    simp [signerIdSize, issuerSerialSize, signerIdentifier', intBytesSize_true, wInt_eq hs,
      Asn.fs, Nat.add_comm]
  | subjectKeyId k => simp [signerIdSize, keyIdSize, signerIdentifier']

theorem emits_signerId (sid : SignerId) (h : ∀ i, sid ≠ .issuerAndSerial i []) :
    Emits (encSignerId sid) (signerIdentifier' sid).wr := by
  cases sid with
  | issuerAndSerial issuer serial =>
    have hs : serial ≠ [] := fun hc => h issuer (by rw [hc])
    have h1 := emits_intTagged hs
    apply Emits.cast
    · unfold encSignerId; emit
    · simp [issuerSerialSize, signerIdentifier', intBytesSize_true, wInt_eq hs, Asn.fs, Asn.wr,
        Nat.add_comm]
  | subjectKeyId k =>
    apply Emits.cast
    · unfold encSignerId; emit
    · simp [keyIdSize, signerIdentifier']

theorem cmsVersion_eq (sid : SignerId) : cmsVersion sid = cmsVersionOf sid := by
  cases sid <;> rfl

theorem cmsVersion_lt (sid : SignerId) : cmsVersionOf sid < 18446744073709551616 := by
  cases sid <;> simp [cmsVersionOf]

theorem signerInfoSize_eq (p : Profile) (sig : Sig) (sid : SignerId)
    (h : ∀ i, sid ≠ .issuerAndSerial i []) : signerInfoSize p sig sid true =
      (signerInfo p (cmsVersionOf sid) (signerIdentifier' sid) sig).fs := by
  rw [signerInfoSize, signerIdSize_eq sid h, sigOctetsSize_eq, hashAlgSize_eq, cmsVersion_eq,
    intSize_true (cmsVersion_lt sid)]
  simp [signerInfo, Nat.add_assoc]

theorem emits_signerInfo (p : Profile) (sig : Sig) (sid : SignerId)
    (h : ∀ i, sid ≠ .issuerAndSerial i []) : Emits (encSignerInfo p sig sid)
      (signerInfo p (cmsVersionOf sid) (signerIdentifier' sid) sig).wr := by
  have h1 := emits_signerId sid h
  have h2 := emits_hashAlg p
  have h3 := emits_sigOctets p sig
  have h4 := emits_int (cmsVersion_lt sid)
  rw [← cmsVersion_eq] at h4
  apply Emits.cast
  · unfold encSignerInfo; emit
  · have hs : signerInfoSize p sig sid false = tl (intBody (cmsVersionOf sid)).length +
        ((signerIdentifier' sid).fs + ((hashAlgorithm p).fs + ((sigAlgorithm p).fs +
          (sigOctets sig).fs))) := by
      rw [signerInfoSize, signerIdSize_eq sid h, sigOctetsSize_eq, hashAlgSize_eq, cmsVersion_eq,
        intSize_true (cmsVersion_lt sid), structSize_false]
      omega
    rw [hs, cmsVersion_eq]
    simp [signerInfo]

end Dpe
