import Verif.Spec.Reference
/-
The keys, signatures, measurements and certificates of the reference device in terms of the functions of
the crates: SHA-2, HKDF, ECDSA and ML-DSA.
-/
namespace Dpe
variable {cfg : Cfg}

/-- The hash function of a profile: SHA-256 for P-256, and SHA-384 for P-384 and ML-DSA-87. -/
def stdHash (L : Lib) : Profile → Bytes → Bytes
  | .p256, b => (L.sha256 b).toList
  | .p384, b => (L.sha384 b).toList
  | .mldsa87, b => (L.sha384 b).toList

/-- `StdKdf L p salt secret info out`: `out` is what HKDF makes of the secret, under the hash function and
with the length for the profile: SHA-256 and 32 octets for P-256, SHA-384 and 48 octets for P-384, SHA-256
and 32 octets for ML-DSA-87. -/
def StdKdf (L : Lib) (p : Profile) (salt secret info out : Bytes) : Prop :=
  match p with
  | .p256 => ∃ v, L.expand .sha256 (L.extract .sha256 salt secret) info 32 = some v ∧ out = v.toList
  | .p384 => ∃ v, L.expand .sha384 (L.extract .sha384 salt secret) info 48 = some v ∧ out = v.toList
  | .mldsa87 => ∃ v, L.expand .sha256 (L.extract .sha256 salt secret) info 32 = some v ∧ out = v.toList

/-- The CDI and the private key of an ancestry for a label: the measured bytes are hashed; the CDI is made
of the digest with the salt "DPE" and the digest itself as info; the key is made of the CDI with the
profile's purpose as salt and the label as info. -/
def StdLeafKey (L : Lib) (a : Artifact) (st : State cfg) (path : List Nat) (label cdi priv : Bytes) : Prop :=
  ∃ d, d = stdHash L cfg.profile (measuredBytes a st path) ∧
    StdKdf L cfg.profile (ascii "DPE") d d cdi ∧ StdKdf L cfg.profile (keyPurpose cfg.profile) cdi label priv

/-- The exported CDI of an ancestry and its private key. -/
def StdExportedKey (L : Lib) (a : Artifact) (st : State cfg) (path : List Nat) (cdi priv : Bytes) : Prop :=
  ∃ d, d = stdHash L cfg.profile (measuredBytes a st path) ∧
    StdKdf L cfg.profile (ascii "Exported CDI") d d cdi ∧
    StdKdf L cfg.profile (exportPurpose cfg.profile) cdi (exportPurpose cfg.profile) priv

/-- `StdPublic L p priv pk`: the octets `priv` are a private key of the profile's algorithm and `pk` is
its public key. -/
def StdPublic (L : Lib) (p : Profile) (priv : Bytes) (pk : PubKey) : Prop :=
  match p with
  | .p256 => ∃ k, L.key256 priv = some k ∧ pk = .p256 (L.pub256 k).1 (L.pub256 k).2
  | .p384 => ∃ k, L.key384 priv = some k ∧ pk = .p384 (L.pub384 k).1 (L.pub384 k).2
  | .mldsa87 => ∃ s : BArr 32, priv = s.toList ∧ pk = .mldsa (L.pub87 (L.key87 s))

/-- `StdSigned L p priv d sig`: `sig` is the signature of the profile's algorithm on `d` with the private
key.  ECDSA signs digests as they are and messages by their digest; ML-DSA signs messages, and a `mu` as
such. -/
def StdSigned (L : Lib) : Profile → Bytes → SignData → Sig → Prop
  | .p256, priv, .digest d, sig => ∃ k r s, L.key256 priv = some k ∧ L.sign256 k d = some (r, s) ∧ sig = .p256 r s
  | .p256, priv, .raw m, sig =>
    ∃ k r s, L.key256 priv = some k ∧ L.sign256 k (L.sha256 m).toList = some (r, s) ∧ sig = .p256 r s
  | .p256, priv, .buffer m, sig =>
    ∃ k r s, L.key256 priv = some k ∧ L.sign256 k (L.sha256 m).toList = some (r, s) ∧ sig = .p256 r s
  | .p256, _, .mu _, _ => False
  | .p384, priv, .digest d, sig => ∃ k r s, L.key384 priv = some k ∧ L.sign384 k d = some (r, s) ∧ sig = .p384 r s
  | .p384, priv, .raw m, sig =>
    ∃ k r s, L.key384 priv = some k ∧ L.sign384 k (L.sha384 m).toList = some (r, s) ∧ sig = .p384 r s
  | .p384, priv, .buffer m, sig =>
    ∃ k r s, L.key384 priv = some k ∧ L.sign384 k (L.sha384 m).toList = some (r, s) ∧ sig = .p384 r s
  | .p384, _, .mu _, _ => False
  | .mldsa87, _, .digest _, _ => False
  | .mldsa87, priv, .raw m, sig => ∃ x : BArr 32, priv = x.toList ∧ sig = .mldsa (L.sign87 (L.key87 x) m)
  | .mldsa87, priv, .buffer m, sig => ∃ x : BArr 32, priv = x.toList ∧ sig = .mldsa (L.sign87 (L.key87 x) m)
  | .mldsa87, priv, .mu d, sig => ∃ x : BArr 32, priv = x.toList ∧ sig = .mldsa (L.signMu87 (L.key87 x) d)

/-- The alias key of a profile. -/
def stdAlias (L : Lib) : Profile → Option Bytes
  | .p256 => L.alias256
  | .p384 => L.alias384
  | .mldsa87 => L.alias87

/-- `m` signed with the alias key. -/
def AliasSigned (L : Lib) (p : Profile) (m : Bytes) (sig : Sig) : Prop :=
  ∃ k, stdAlias L p = some k ∧ StdSigned L p k (.buffer m) sig

/-- The certificate for the ingredients, signed with the alias key. -/
def StdCertificate (L : Lib) (a : Artifact) (st : State cfg) (args : CertArgs) (kind : CertKind) (D : Draft)
    (cert : Bytes) : Prop :=
  ∃ sig, AliasSigned L cfg.profile (D.tbs kind args st a.issuer).written sig ∧
    cert = (certificate cfg.profile (D.tbs kind args st a.issuer) sig).written

/-- The request for the ingredients, signed with the private key, in a message signed with the alias
key. -/
def StdRequest (L : Lib) (st : State cfg) (args : CertArgs) (priv : Bytes) (D : Draft) (msg : Bytes) : Prop :=
  ∃ sig sig', StdSigned L cfg.profile priv (.buffer (D.info args st).written) sig ∧
    AliasSigned L cfg.profile (request cfg.profile (D.info args st) sig).written sig' ∧
    msg = (signedRequest cfg.profile (cmsVersionOf D.signer) (signerIdentifier' D.signer)
      (request cfg.profile (D.info args st) sig) sig').written

/-- The ingredients of a certificate or request of the reference device: names and key identifier come
from the digest of the public key, the rest from the built-in certificate. -/
structure StdDraft (L : Lib) (a : Artifact) (st : State cfg) (i : Nat) (path : List Nat) (pk : PubKey)
    (D : Draft) : Prop where
  slot : D.slot = i
  ancestry : D.path = path
  digest : D.digest = stdHash L cfg.profile (measuredBytes a st path)
  key : D.key = pk
  nameHash : D.nameHash = stdHash L cfg.profile (keyChunks pk).flatten
  idHash : D.idHash = stdHash L cfg.profile (keyChunks pk).flatten
  issuerKeyId : D.issuerKeyId.toList = a.keyId.take 20
  altName : D.altName = none
  validity : D.validity = ⟨ascii "20230227000000Z", ascii "99991231235959Z"⟩
  signer : D.signer = .issuerAndSerial a.issuer a.serial

/-- The handle of a context that a command creates or renames, and the generator after it. -/
def StdChosen (P : Prims) (st : State cfg) (asked : Prop) (r : P.Rng) (h : Handle) (r' : P.Rng) : Prop :=
  (asked ∧ h = Handle.default ∧ r' = r) ∨ (¬ asked ∧ Lands P st 8 r h r')

/-- The parent of a derivation: retained, with its next handle, or retired without one. -/
def StdParent (P : Prims) (st : State cfg) (c : DeriveCmd cfg) (i : Nat) (r : P.Rng) (h : Handle)
    (s : CtxState) (r' : P.Rng) : Prop :=
  (Bit c.flags DFlag.retainParent ∧ s = .active ∧
    StdChosen P st ((st.at i).handle = Handle.default) r h r') ∨
  (¬ Bit c.flags DFlag.retainParent ∧ s = .retired ∧ h = Handle.invalid ∧ r' = r)

/-- DeriveContext on context `i`. -/
def StdDerives (L : Lib) (a : Artifact) (st : State cfg) (loc : U32) (w : Soft (L.crypto cfg.profile))
    (c : DeriveCmd cfg) (i : Nat) (reply : Bytes) (st' : State cfg) (w' : Soft (L.crypto cfg.profile)) : Prop :=
  if Bit c.flags DFlag.recursive then
    ∃ v h r, v.toList = stdHash L cfg.profile ((st.at i).tci.cumulative.toList ++ c.data.toList) ∧
      StdChosen (L.crypto cfg.profile) st ((st.at i).handle = Handle.default) w.rng h r ∧
      SetSlot st i { st.at i with
        tci := { (st.at i).tci with cumulative := v, current := c.data }, handle := h } st' ∧
      w' = { w with hasher := none, rng := r } ∧ reply = handlesReply cfg.profile [h, Handle.default]
  else if Bit c.flags DFlag.exportCdi then
    ∃ hp s r path cdi priv pk D cert, StdParent (L.crypto cfg.profile) st c i w.rng hp s r ∧ w.slots = [] ∧
      Path st i path ∧ StdExportedKey L a st path cdi priv ∧ StdPublic L cfg.profile priv pk ∧
      StdDraft L a st i path pk D ∧
      StdCertificate L a st (exportedArgs st c.handle loc (List.replicate 17 0x0A)) .exportedX509 D cert ∧
      (((Bit c.flags DFlag.retainParent ∨ ∃ j, Lists st i j) ∧
          SetSlot st i { st.at i with handle := hp, state := s } st') ∨
        (¬ Bit c.flags DFlag.retainParent ∧ (∀ j, ¬ Lists st i j) ∧ DestroyEffect st i st')) ∧
      w' = { w with
        hasher := none
        rng := ((L.crypto cfg.profile).fill32 r).2
        cdi := cdi
        priv := priv
        slots := [(cdi, ((L.crypto cfg.profile).fill32 r).1)] } ∧
      reply = exportReply cfg.profile hp ((L.crypto cfg.profile).fill32 r).1 cert
  else
    ∃ k hp s r h r' v kids, FirstFree st k ∧ StdParent (L.crypto cfg.profile) st c i w.rng hp s r ∧
      StdChosen (L.crypto cfg.profile) st (Bit c.flags DFlag.makeDefault) r h r' ∧
      v.toList = stdHash L cfg.profile (List.replicate cfg.tciSize 0 ++ c.data.toList) ∧
      (∀ j, kids.getLsbD j = true ↔ (Lists st i j ∨ j = k)) ∧
      st'.at k = childContext c loc i (st.at i) h v ∧
      st'.at i = { st.at i with handle := hp, state := s, children := kids } ∧
      (∀ j, j ≠ k → j ≠ i → st'.at j = st.at j) ∧ SameMeta st st' ∧
      w' = { w with hasher := none, rng := r' } ∧ reply = handlesReply cfg.profile [h, hp]

/-- `StdServes L a st loc w c reply st' w'`: the reference device, in the state `st` and with the crypto
state `w`, serves command `c` from locality `loc` (which is not refused) with `reply` and is then in the
state `st'` and with the crypto state `w'`.  (The crypto state is the generator, the exported CDI, and
leftovers of the last computation.) -/
def StdServes (L : Lib) (a : Artifact) (st : State cfg) (loc : U32) (w : Soft (L.crypto cfg.profile))
    (c : Cmd cfg) (reply : Bytes) (st' : State cfg) (w' : Soft (L.crypto cfg.profile)) : Prop :=
  match c with
  | .getProfile => st' = st ∧ w' = w ∧ reply = profileReply cfg st.support 0 0
  | .chain c => c.offset.toNat < a.chain.length ∧ st' = st ∧ w' = w ∧
      reply = successBytes cfg.profile ++
        word (BitVec.ofNat 32 (min c.size.toNat (a.chain.length - c.offset.toNat))) ++
        ((a.chain.drop c.offset.toNat).take c.size.toNat ++ List.replicate 2048 0).take 2048
  | .init f => ∃ i h r, FirstFree st i ∧
      StdChosen (L.crypto cfg.profile) st (Bit f IFlag.default) w.rng h r ∧
      st'.at i = rootContext cfg f loc h ∧ (∀ j, j ≠ i → st'.at j = st.at j) ∧ SameConfig st st' ∧
      (st'.hasInitialized = true ↔ st.hasInitialized = true ∨ Bit f IFlag.default) ∧
      w' = { w with rng := r } ∧ reply = handlesReply cfg.profile [h]
  | .rotate c => ∃ i h r, Resolves st c.handle loc i ∧
      StdChosen (L.crypto cfg.profile) st (Bit c.flags RFlag.targetIsDefault) w.rng h r ∧
      SetSlot st i { st.at i with handle := h } st' ∧ w' = { w with rng := r } ∧
      reply = handlesReply cfg.profile [h]
  | .destroy h => ∃ i, Resolves st h loc i ∧ DestroyEffect st i st' ∧ w' = w ∧
      reply = handlesReply cfg.profile []
  | .sign c => ∃ i path cdi priv sig h r, Resolves st c.handle loc i ∧ Path st i path ∧
      StdLeafKey L a st path c.label cdi priv ∧ StdSigned L cfg.profile priv c.message sig ∧
      StdChosen (L.crypto cfg.profile) st ((st.at i).handle = Handle.default) w.rng h r ∧
      SetSlot st i { st.at i with handle := h } st' ∧
      w' = { w with hasher := none, cdi := cdi, priv := priv, rng := r } ∧
      reply = signReply cfg.profile h sig
  | .certify c => ∃ i path cdi priv pk D cert h r, Resolves st c.handle loc i ∧ Path st i path ∧
      StdLeafKey L a st path c.label cdi priv ∧ StdPublic L cfg.profile priv pk ∧ StdDraft L a st i path pk D ∧
      c.variant = cfg.profile ∧
      ((c.format = 0 ∧ StdCertificate L a st (leafArgs st c.handle loc c.label) .leafX509 D cert) ∨
        (c.format = 1 ∧ StdRequest L st (leafArgs st c.handle loc c.label) priv D cert)) ∧
      StdChosen (L.crypto cfg.profile) st ((st.at i).handle = Handle.default) w.rng h r ∧
      SetSlot st i { st.at i with handle := h } st' ∧
      w' = { w with hasher := none, cdi := cdi, priv := priv, rng := r } ∧
      reply = certifyReply cfg.profile h pk cert
  | .derive c => ∃ i, Resolves st c.handle loc i ∧ StdDerives L a st loc w c i reply st' w'
  | .update c => ∃ i k v hp r st1 hc r', Resolves st c.parentHandle loc i ∧ ActiveChild st i c.tciType k ∧
      v.toList = stdHash L cfg.profile ((st.at k).tci.cumulative.toList ++ c.data.toList) ∧
      Lands (L.crypto cfg.profile) st 8 w.rng hp r ∧
      SetSlot st i { st.at i with handle := hp } st1 ∧
      StdChosen (L.crypto cfg.profile) st1 ((st.at k).handle = Handle.default) r hc r' ∧
      SetSlot st1 k { st.at k with
        tci := { (st.at k).tci with cumulative := v, current := c.data }, handle := hc } st' ∧
      w' = { w with hasher := none, rng := r' } ∧ reply = handlesReply cfg.profile [hc, hp]

end Dpe
