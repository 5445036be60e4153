import Verif.Model.Simulator
/-
The Go client of the repository, verification/client (abi.go, client.go, helpers.go, profile.go,
errors.go), and its transport to the simulator, verification/sim/transport.go.  `encoding/binary` reads
and writes structures of fixed size field by field, without padding, in little-endian order; `le32`,
`getU32` and so on are that order.  Not modelled: the texts of errors, printing to the console, nil
pointers, the process control of `PowerOn` and `PowerOff` (only the arguments of the simulator are),
`CalculateExternalMu` (no part of the interface `DPEClient`), `HasSupportNeeded`.
-/
namespace Dpe

/-- What a call of the client can fail with. -/
inductive ClErr
  /-- `SendCmd` failed. -/
  | transport
  /-- `binary.Read` met the end of the response. -/
  | short
  /-- "invalid response magic value" -/
  | magic
  /-- The status of the response. -/
  | status (s : U32)
  /-- "invalid label length", "invalid digest length", "invalid toBeSigned length", "raw data too large" -/
  | length
  /-- "DPE reported a %d-byte cert, which was larger than %d" -/
  | certTooLarge
  /-- "empty certificate chain returned" -/
  | emptyChain
  /-- "SignRaw not implemented for this profile" -/
  | notImplemented
  /-- "expected profile %v, got profile %v" -/
  | wrongProfile
  /-- "unknown DPE profile version %d.%d" -/
  | unknownVersion
  /-- "cannot create a DPE client for profile %d" -/
  | noClient
  /-- A run-time panic of Go. -/
  | panic
  deriving DecidableEq, Repr

/-- `Transport`, verification/client/client.go:17-20, with the state `τ` of what is behind it. -/
abbrev Transport (τ : Type) := Bytes → τ → Except ClErr Bytes × τ

/-- `RespHdr`, verification/client/abi.go:119-123. -/
structure GoHdr where
  magic : U32
  status : U32
  profile : U32
  deriving DecidableEq

/-- `binary.Read` of a `RespHdr`. -/
def getGoHdr (b : Bytes) : Option (GoHdr × Bytes) := do
  let (m, b) ← getU32 b
  let (s, b) ← getU32 b
  let (p, b) ← getU32 b
  pure (⟨m, s, p⟩, b)

/-- `checkRespHdr`, verification/client/helpers.go:13-22. -/
def checkRespHdr (h : GoHdr) : Except ClErr Unit :=
  if h.magic ≠ 0x44504552 then .error .magic
  else if h.status ≠ 0 then .error (.status h.status)
  else .ok ()

/-- The part of `execCommand` after `SendCmd`, verification/client/helpers.go:42-56; `rsp` reads the
response structure. -/
def goResponse {α : Type} (rsp : Bytes → Option (α × Bytes)) (resp : Bytes) :
    Except ClErr (GoHdr × α × Bytes) :=
  match getGoHdr resp with
  | none => .error .short
  | some (h, r) =>
    match checkRespHdr h with
    | .error e => .error e
    | .ok () =>
      match rsp r with
      | none => .error .short
      | some (a, r) => .ok (h, a, r)

/-- `execCommand`, verification/client/helpers.go:26-57: `cmd` are the bytes of the command structure. -/
def execCommand {τ α : Type} (t : Transport τ) (code profile : U32) (cmd : Bytes)
    (rsp : Bytes → Option (α × Bytes)) (x : τ) : Except ClErr (GoHdr × α × Bytes) × τ :=
  match t (le32 0x44504543 ++ le32 code ++ le32 profile ++ cmd) x with
  | (.error e, x') => (.error e, x')
  | (.ok resp, x') => (goResponse rsp resp, x')

/-- `profileCommandCodes`, verification/client/abi.go:53-63. -/
structure Codes where
  getProfile : U32
  init : U32
  derive : U32
  certify : U32
  sign : U32
  rotate : U32
  destroy : U32
  chain : U32
  update : U32

/-- `getProfileInfoV08`, verification/client/abi.go:74-90. -/
def codesV08 : Codes := ⟨0x1, 0x5, 0x6, 0x7, 0x8, 0xE, 0xF, 0x80, 0x80000000⟩

/-- `getProfileInfoV09`, verification/client/abi.go:93-109. -/
def codesV09 : Codes := ⟨0x1, 0x7, 0x8, 0x9, 0xa, 0xe, 0xf, 0x10, 0x80000000⟩

/-- The instances of the type `DPEABI`, verification/client/abi.go:333-346. -/
inductive ClKind
  | min256 | min384 | p256 | p384 | mldsa87
  deriving DecidableEq, Repr

/-- `DigestLen[Digest]`, verification/client/profile.go:198-209 with abi.go:333-346. -/
def ClKind.digest : ClKind → Nat
  | .min256 | .p256 => 32
  | .min384 | .p384 | .mldsa87 => 48

/-- `DigestLen[SignData]`, the same with profile.go:219. -/
def ClKind.signData : ClKind → Nat
  | .min256 | .p256 => 32
  | .min384 | .p384 => 48
  | .mldsa87 => 64

/-- The length of `CurveParameter`, verification/client/profile.go:106-122. -/
def ClKind.curve : ClKind → Nat
  | .min256 | .p256 => 32
  | .min384 | .p384 => 48
  | .mldsa87 => 2592

/-- `CertLen[Cert]`, verification/client/profile.go:145-163. -/
def ClKind.certLen : ClKind → Nat
  | .min256 | .min384 => 2048
  | .p256 | .p384 => 11 * 1024
  | .mldsa87 => 22 * 1024

/-- The profile that `dpeProfileImplementsTypeConstraints` finds for the type,
verification/client/abi.go:349-392 with profile.go:13-24. -/
def ClKind.target : ClKind → U32
  | .min256 => 1
  | .min384 => 2
  | .p256 => 3
  | .p384 => 4
  | .mldsa87 => 5

/-- `DPEABI`, verification/client/abi.go:321-331 (without the transport). -/
structure Client where
  kind : ClKind
  codes : Codes
  profile : U32
  major : BitVec 16
  minor : BitVec 16
  vendorId : U32
  vendorSku : U32
  maxTci : U32
  flags : U32

/-- `GetProfileResp`, verification/client/abi.go:156-164. -/
structure GoProfile where
  profile : U32
  major : BitVec 16
  minor : BitVec 16
  vendorId : U32
  vendorSku : U32
  maxTci : U32
  flags : U32
  deriving DecidableEq

/-- The members of the response to GetProfile, verification/client/abi.go:480-487. -/
def goProfileFields (b : Bytes) :
    Option ((BitVec 16 × BitVec 16 × U32 × U32 × U32 × U32) × Bytes) := do
  let (ma, b) ← getU16 b
  let (mi, b) ← getU16 b
  let (v, b) ← getU32 b
  let (k, b) ← getU32 b
  let (t, b) ← getU32 b
  let (f, b) ← getU32 b
  pure ((ma, mi, v, k, t, f), b)

/-- `getProfile`, verification/client/abi.go:474-506. -/
def goGetProfile {τ : Type} (t : Transport τ) (x : τ) : Except ClErr GoProfile × τ :=
  match execCommand t 1 0 [] goProfileFields x with
  | (.error e, x') => (.error e, x')
  | (.ok (h, (ma, mi, v, k, n, f), _), x') => (.ok ⟨h.profile, ma, mi, v, k, n, f⟩, x')

/-- `newDPEABI` after the query, verification/client/abi.go:401-425.  `MaxTciNodes` is not set. -/
def clientOf (kind : ClKind) (p : GoProfile) : Except ClErr Client :=
  if p.profile ≠ kind.target then .error .wrongProfile
  else if p.major = 0 ∧ p.minor = 8 then
    .ok ⟨kind, codesV08, p.profile, p.major, p.minor, p.vendorId, p.vendorSku, 0, p.flags⟩
  else if p.major = 0 ∧ 9 ≤ p.minor.toNat then
    .ok ⟨kind, codesV09, p.profile, p.major, p.minor, p.vendorId, p.vendorSku, 0, p.flags⟩
  else .error .unknownVersion

/-- `newDPEABI`, verification/client/abi.go:395-425. -/
def newDPEABI {τ : Type} (t : Transport τ) (kind : ClKind) (x : τ) : Except ClErr Client × τ :=
  match goGetProfile t x with
  | (.error e, x') => (.error e, x')
  | (.ok p, x') => (clientOf kind p, x')

/-- `NewClient`, verification/client/client.go:63-78 (with the wrappers abi.go:428-450). -/
def newClient {τ : Type} (t : Transport τ) (p : U32) (x : τ) : Except ClErr Client × τ :=
  if p = 1 then newDPEABI t .min256 x
  else if p = 2 then newDPEABI t .min384 x
  else if p = 3 then newDPEABI t .p256 x
  else if p = 4 then newDPEABI t .p384 x
  else if p = 5 then newDPEABI t .mldsa87 x
  else (.error .noClient, x)

/-- The calls of the interface `DPEClient`, verification/client/client.go:50-60, other than
GetCertificateChain (below). -/
inductive GoCall
  | initialize (flags : U32)
  | getProfile
  | certifyKey (handle : Handle) (label : Bytes) (format flags : U32)
  | destroy (handle : Handle)
  | derive (handle : Handle) (inputData : Bytes) (flags tciType targetLocality : U32)
  | rotate (handle : Handle) (flags : U32)
  | sign (handle : Handle) (label : Bytes) (flags : U32) (toBeSigned : Bytes)
  | signRaw (handle : Handle) (label rawData : Bytes)
  | update (parent : Handle) (inputData : Bytes) (tciType : U32)

/-- What the calls return: `CertifiedKey` and `DPESignedHash` (verification/client/client.go:30-48),
`DeriveContextResp`, `UpdateContextMeasurementResp`, `GetProfileResp`, a handle, or nothing. -/
inductive GoValue
  | nothing
  | handle (h : Handle)
  | profile (p : GoProfile)
  | key (h : Handle) (x y : Bytes) (cert : Bytes)
  | derived (h parent : Handle) (cdi : BArr 32) (size : U32) (cert : Bytes)
  | signature (h : Handle) (r s sig : Bytes)
  | updated (h parent : Handle)

/-- `NewDigest`, verification/client/profile.go:181-195: `copy` into a zeroed array. -/
def newDigest (n : Nat) (b : Bytes) : Bytes := b.take n ++ List.replicate (n - b.length) 0

/-- One handle. -/
def getHandle (b : Bytes) : Option (Handle × Bytes) := getArr 16 b

/-- Two handles. -/
def getHandles (b : Bytes) : Option ((Handle × Handle) × Bytes) := do
  let (h, b) ← getArr 16 b
  let (p, b) ← getArr 16 b
  pure ((h, p), b)

/-- The fixed members of a response to CertifyKey, verification/client/abi.go:556-561. -/
def getKeyFields (n : Nat) (b : Bytes) : Option ((Handle × BArr n × BArr n × U32) × Bytes) := do
  let (h, b) ← getArr 16 b
  let (x, b) ← getArr n b
  let (y, b) ← getArr n b
  let (k, b) ← getU32 b
  pure ((h, x, y, k), b)

/-- The same for ML-DSA, verification/client/abi.go:530-534. -/
def getMlKeyFields (n : Nat) (b : Bytes) : Option ((Handle × BArr n × U32) × Bytes) := do
  let (h, b) ← getArr 16 b
  let (x, b) ← getArr n b
  let (k, b) ← getU32 b
  pure ((h, x, k), b)

/-- The fixed members of a response to an exporting DeriveContext, verification/client/abi.go:632-637. -/
def getExportFields (b : Bytes) : Option ((Handle × Handle × BArr 32 × U32) × Bytes) := do
  let (h, b) ← getArr 16 b
  let (p, b) ← getArr 16 b
  let (c, b) ← getArr 32 b
  let (k, b) ← getU32 b
  pure ((h, p, c, k), b)

/-- `SignResp[ECDSASignature[Digest]]`, verification/client/abi.go:309-318. -/
def getSigFields (n : Nat) (b : Bytes) : Option ((Handle × BArr n × BArr n) × Bytes) := do
  let (h, b) ← getArr 16 b
  let (r, b) ← getArr n b
  let (s, b) ← getArr n b
  pure ((h, r, s), b)

/-- `SignResp[Mldsa87Signature]`, verification/client/abi.go:315-318. -/
def getMlSigFields (b : Bytes) : Option ((Handle × BArr 4627) × Bytes) := do
  let (h, b) ← getArr 16 b
  let (s, b) ← getArr 4627 b
  pure ((h, s), b)

/-- The response structure of `SignRaw`, verification/client/abi.go:927-931. -/
def getRawSigFields (b : Bytes) : Option ((Handle × BArr 4627 × BArr 1) × Bytes) := do
  let (h, b) ← getArr 16 b
  let (s, b) ← getArr 4627 b
  let (p, b) ← getArr 1 b
  pure ((h, s, p), b)

/-- `binary.Read` into a slice of length `n`. -/
def goSlice (n : Nat) (b : Bytes) : Except ClErr Bytes :=
  if n ≤ b.length then .ok (b.take n) else .error .short

/-- The check of the certificate's size and its read, verification/client/abi.go:541-549, 568-576. -/
def goCert (limit : Nat) (size : U32) (b : Bytes) : Except ClErr Bytes :=
  if limit < size.toNat then .error .certTooLarge else goSlice size.toNat b

/-- Continue after `execCommand`. -/
def andThen {τ α β : Type} (r : Except ClErr α × τ) (f : α → Except ClErr β) : Except ClErr β × τ :=
  match r with
  | (.error e, x) => (.error e, x)
  | (.ok a, x) => (f a, x)

variable {τ : Type}

/-- `InitializeContext`, verification/client/abi.go:697-705, 453-461. -/
def Client.initialize (c : Client) (t : Transport τ) (flags : U32) (x : τ) : Except ClErr GoValue × τ :=
  andThen (execCommand t c.codes.init c.profile (le32 flags) getHandle x) fun (_, h, _) => .ok (.handle h)

/-- `DestroyContext`, verification/client/abi.go:748-754, 514-523. -/
def Client.destroy (c : Client) (t : Transport τ) (h : Handle) (x : τ) : Except ClErr GoValue × τ :=
  andThen (execCommand t c.codes.destroy c.profile h.toList (fun b => some ((), b)) x) fun _ => .ok .nothing

/-- `RotateContextHandle`, verification/client/abi.go:794-804, 673-682. -/
def Client.rotate (c : Client) (t : Transport τ) (h : Handle) (flags : U32) (x : τ) :
    Except ClErr GoValue × τ :=
  andThen (execCommand t c.codes.rotate c.profile (h.toList ++ le32 flags) getHandle x)
    fun (_, h, _) => .ok (.handle h)

/-- `CertifyKeyABI`, verification/client/abi.go:526-587.  `DerivedPublicKeyY` of ML-DSA remains zero. -/
def Client.certifyABI (c : Client) (t : Transport τ) (cmd : Bytes) (x : τ) : Except ClErr GoValue × τ :=
  if c.profile = 5 then
    andThen (execCommand t c.codes.certify c.profile cmd (getMlKeyFields c.kind.curve) x)
      fun (_, (h, k, n), r) =>
        match goCert c.kind.certLen n r with
        | .error e => .error e
        | .ok cert => .ok (.key h k.toList (List.replicate c.kind.curve 0) cert)
  else
    andThen (execCommand t c.codes.certify c.profile cmd (getKeyFields c.kind.curve) x)
      fun (_, (h, k, l, n), r) =>
        match goCert c.kind.certLen n r with
        | .error e => .error e
        | .ok cert => .ok (.key h k.toList l.toList cert)

/-- `CertifyKey`, verification/client/abi.go:713-745 with the structure of lines 179-184. -/
def Client.certifyKey (c : Client) (t : Transport τ) (h : Handle) (label : Bytes) (format flags : U32)
    (x : τ) : Except ClErr GoValue × τ :=
  if label.length ≠ c.kind.digest then (.error .length, x)
  else c.certifyABI t (h.toList ++ le32 flags ++ le32 format ++ newDigest c.kind.digest label) x

/-- `DeriveContextABI`, verification/client/abi.go:629-670. -/
def Client.deriveABI (c : Client) (t : Transport τ) (flags : U32) (cmd : Bytes) (x : τ) :
    Except ClErr GoValue × τ :=
  if flags &&& 0x00800000 = 0x00800000 then
    andThen (execCommand t c.codes.derive c.profile cmd getExportFields x)
      fun (_, (h, p, cdi, n), r) =>
        match goSlice n.toNat r with
        | .error e => .error e
        | .ok cert => .ok (.derived h p cdi n cert)
  else
    andThen (execCommand t c.codes.derive c.profile cmd getHandles x)
      fun (_, (h, p), _) => .ok (.derived h p (Vector.replicate 32 0) 0 [])

/-- `DeriveContext`, verification/client/abi.go:767-791 with the structure of lines 246-253. -/
def Client.derive (c : Client) (t : Transport τ) (h : Handle) (inputData : Bytes)
    (flags tciType targetLocality : U32) (x : τ) : Except ClErr GoValue × τ :=
  if inputData.length ≠ c.kind.digest then (.error .length, x)
  else c.deriveABI t flags (h.toList ++ newDigest c.kind.digest inputData ++ le32 flags ++ le32 tciType ++
    le32 targetLocality ++ le32 0) x

/-- `SignABI` and the extraction of the signature, verification/client/abi.go:685-694, 834-864. -/
def Client.signABI (c : Client) (t : Transport τ) (cmd : Bytes) (x : τ) : Except ClErr GoValue × τ :=
  if c.kind = .mldsa87 then
    andThen (execCommand t c.codes.sign c.profile cmd getMlSigFields x)
      fun (_, (h, s), _) => .ok (.signature h [] [] s.toList)
  else
    andThen (execCommand t c.codes.sign c.profile cmd (getSigFields c.kind.digest) x)
      fun (_, (h, r, s), _) => .ok (.signature h r.toList s.toList [])

/-- `Sign`, verification/client/abi.go:807-864 with the structure of lines 292-297.  (`c.Profile` is
`ProfileMldsa87` exactly for the type with ML-DSA signatures, see `clientOf`, so that the casts
succeed.) -/
def Client.sign (c : Client) (t : Transport τ) (h : Handle) (label : Bytes) (flags : U32)
    (toBeSigned : Bytes) (x : τ) : Except ClErr GoValue × τ :=
  if label.length ≠ c.kind.digest then (.error .length, x)
  else if toBeSigned.length ≠ c.kind.signData then (.error .length, x)
  else c.signABI t (h.toList ++ newDigest c.kind.digest label ++ le32 flags ++
    newDigest c.kind.signData toBeSigned) x

/-- `SignRaw`, verification/client/abi.go:867-940 with the structure of lines 300-306; its lines
898-925 do what `execCommand` does. -/
def Client.signRaw (c : Client) (t : Transport τ) (h : Handle) (label rawData : Bytes) (x : τ) :
    Except ClErr GoValue × τ :=
  if c.profile ≠ 5 then (.error .notImplemented, x)
  else if label.length ≠ c.kind.digest then (.error .length, x)
  else if 1024 < rawData.length then (.error .length, x)
  else
    andThen (execCommand t c.codes.sign c.profile (h.toList ++ newDigest c.kind.digest label ++ le32 1 ++
        le32 (BitVec.ofNat 32 rawData.length) ++ newDigest 1024 rawData) getRawSigFields x)
      fun (_, (h, s, _), _) => .ok (.signature h [] [] s.toList)

/-- `UpdateContextMeasurement`, verification/client/abi.go:996-1021 with the structure of lines
266-274. -/
def Client.update (c : Client) (t : Transport τ) (h : Handle) (inputData : Bytes) (tciType : U32) (x : τ) :
    Except ClErr GoValue × τ :=
  if inputData.length ≠ c.kind.digest then (.error .length, x)
  else
    andThen (execCommand t c.codes.update c.profile (h.toList ++ newDigest c.kind.digest inputData ++
        le32 0 ++ le32 tciType ++ le32 0) getHandles x)
      fun (_, (h, p), _) => .ok (.updated h p)

/-- A call of the client. -/
def Client.call (c : Client) (t : Transport τ) : GoCall → τ → Except ClErr GoValue × τ
  | .initialize f, x => c.initialize t f x
  | .getProfile, x => andThen (goGetProfile t x) fun p => .ok (.profile p)
  | .certifyKey h l t' f, x => c.certifyKey t h l t' f x
  | .destroy h, x => c.destroy t h x
  | .derive h d f y l, x => c.derive t h d f y l x
  | .rotate h f, x => c.rotate t h f x
  | .sign h l f d, x => c.sign t h l f d x
  | .signRaw h l m, x => c.signRaw t h l m x
  | .update h d y, x => c.update t h d y x

/-- The members of the response to GetCertificateChain, verification/client/abi.go:600-603. -/
def getChainFields (b : Bytes) : Option ((U32 × BArr 2048) × Bytes) := do
  let (n, b) ← getU32 b
  let (c, b) ← getArr 2048 b
  pure ((n, c), b)

/-- The loop of `GetCertificateChainABI`, verification/client/abi.go:599-620, for at most `fuel` turns
(`none` if it takes more); `got` are the bytes so far.  Slicing the array beyond its 2048 bytes panics. -/
def Client.chainLoop (c : Client) (t : Transport τ) : Nat → U32 → Bytes → τ →
    Option (Except ClErr Bytes × τ)
  | 0, _, _, _ => none
  | fuel + 1, off, got, x =>
    match execCommand t c.codes.chain c.profile (le32 off ++ le32 2048) getChainFields x with
    | (.error e, x') => if e = .status 3 then some (.ok got, x') else some (.error e, x')
    | (.ok (_, (n, chunk), _), x') =>
      if 2048 < n.toNat then some (.error .panic, x')
      else if n.toNat < 2048 then some (.ok (got ++ chunk.toList.take n.toNat), x')
      else c.chainLoop t fuel (off + 2048) (got ++ chunk.toList.take n.toNat) x'

/-- `GetCertificateChain`, verification/client/abi.go:757-764, 590-626. -/
def Client.getChain (c : Client) (t : Transport τ) (fuel : Nat) (x : τ) : Option (Except ClErr Bytes × τ) :=
  match c.chainLoop t fuel 0 [] x with
  | none => none
  | some (.error e, x') => some (.error e, x')
  | some (.ok got, x') => if got = [] then some (.error .emptyChain, x') else some (.ok got, x')

/-! ### The transport to the simulator -/

/-- `DpeSimulator.SendCmd`, verification/sim/transport.go:145-172: the locality, then the command, over
a new connection.  What is behind the transport is the simulator's state, or `none` when the process has
ended: then `Dial` fails.  A simulator that panics closes the connection without an answer.  Assumed: the
socket delivers all that is written; `addr` is where the simulator stores it. -/
def simSend {cfg : Cfg} {σ : Type} (env : Env cfg σ) (loc : U32) (addr : Nat) :
    Transport (Option (Sys cfg σ)) := fun buf x =>
  match x with
  | none => (.error .transport, none)
  | some s =>
    match handleRequest env addr (le32 loc ++ buf) s with
    | (none, _) => (.ok [], none)
    | (some b, s') => (.ok b, some s')

/-- `Support`, verification/client/abi.go:33-49. -/
structure GoSupport where
  simulation : Bool
  recursive : Bool
  autoInit : Bool
  rotate : Bool
  x509 : Bool
  csr : Bool
  isSymmetric : Bool
  internalInfo : Bool
  internalDice : Bool
  retainParent : Bool
  cdiExport : Bool
  critical : Bool

/-- `Support.ToFlags`, verification/client/abi.go:943-979. -/
def GoSupport.toFlags (s : GoSupport) : U32 :=
  let f : U32 := 0
  let f := if s.simulation then f ||| 0x80000000 else f
  let f := if s.recursive then f ||| 0x40000000 else f
  let f := if s.autoInit then f ||| 0x20000000 else f
  let f := if s.rotate then f ||| 0x08000000 else f
  let f := if s.x509 then f ||| 0x04000000 else f
  let f := if s.csr then f ||| 0x02000000 else f
  let f := if s.isSymmetric then f ||| 0x01000000 else f
  let f := if s.internalInfo then f ||| 0x00400000 else f
  let f := if s.internalDice then f ||| 0x00200000 else f
  let f := if s.retainParent then f ||| 0x00080000 else f
  if s.cdiExport then f ||| 0x00040000 else f

/-- The arguments that `DpeSimulator.PowerOn` gives to the simulator,
verification/sim/transport.go:57-92. -/
def GoSupport.args (s : GoSupport) : SimArgs where
  simulation := s.simulation
  recursive := s.recursive
  autoInit := s.autoInit
  rotate := s.rotate
  x509 := s.x509
  csr := s.csr
  internalInfo := s.internalInfo
  internalDice := s.internalDice
  retainParent := s.retainParent
  cdiExport := s.cdiExport
  critical := s.critical

/-- The texts of `Status.Error`, verification/client/errors.go:40-80; `none` for "unrecognized status
code". -/
def statusText (s : U32) : Option String :=
  if s = 0x1 then some "error internal to DPE"
  else if s = 0x2 then some "command ID is invalid"
  else if s = 0x3 then some "argument is invalid"
  else if s = 0x4 then some "session exhausted"
  else if s = 0x5 then some "initialization seed locked"
  else if s = 0x6 then some "out of memory"
  else if s = 0x7 then some "cancelled command"
  else if s = 0x80 then some "contextHandle does not exist"
  else if s = 0x81 then some "Hardware Locality does not exist"
  else if s = 0x82 then some "handle already defined"
  else if s = 0x83 then some "argument is not supported by this profile, implementation, or integration"
  else if s = 0x84 then some "already initialized"
  else if s = 0x85 then some "Parent ContextHandle does not exist in the caller's locality"
  else if s = 0x91 then some "maximum number of TCIs have been created"
  else if s = 0x01000000 then some "error internal to platform"
  else if s = 0x02000000 then some "cryptography error"
  else if s = 0x03000000 then some "validation error"
  else none

end Dpe
