import Verif.Model.Commands
/-
The wire layer: decoding of serialised commands, the typed responses, `Command::execute` and
`DpeInstance::execute_serialized_command`.
-/
namespace Dpe
variable {cfg : Cfg} {σ : Type}

/-! ### Field readers (zerocopy `ref_from_prefix` / `read_from_prefix`, field by field) -/

/-- A `u32` field, little-endian. -/
def getU32 : Bytes → Option (U32 × Bytes)
  | a :: b :: c :: d :: r => some (d.toBitVec ++ c.toBitVec ++ b.toBitVec ++ a.toBitVec, r)
  | _ => none

/-- A `u16` field, little-endian. -/
def getU16 : Bytes → Option (BitVec 16 × Bytes)
  | a :: b :: r => some (b.toBitVec ++ a.toBitVec, r)
  | _ => none

/-- A `[u8; n]` field. -/
def getArr (n : Nat) (b : Bytes) : Option (BArr n × Bytes) :=
  if h : n ≤ b.length then
    some (⟨(b.take n).toArray, by simp; omega⟩, b.drop n)
  else none

/-! ### Command bodies -/

/-- `InitCtxCmd`, dpe/src/commands/initialize_context.rs:28. -/
def getInit (b : Bytes) : Option (U32 × Bytes) := getU32 b

/-- `RotateCtxCmd`, dpe/src/commands/rotate_context.rs:46-49. -/
def getRotate (b : Bytes) : Option (RotateCmd × Bytes) := do
  let (h, b) ← getArr 16 b
  let (f, b) ← getU32 b
  pure (⟨h, f⟩, b)

/-- `DestroyCtxCmd`, dpe/src/commands/destroy_context.rs:26-28. -/
def getDestroy (b : Bytes) : Option (Handle × Bytes) := getArr 16 b

/-- `DeriveContextCmd`, dpe/src/commands/derive_context.rs:93-102. -/
def getDerive (b : Bytes) : Option (DeriveCmd cfg × Bytes) := do
  let (h, b) ← getArr 16 b
  let (d, b) ← getArr cfg.tciSize b
  let (f, b) ← getU32 b
  let (t, b) ← getU32 b
  let (l, b) ← getU32 b
  let (v, b) ← getU32 b
  pure (⟨h, d, f, t, l, v⟩, b)

/-- `UpdateContextMeasurementCmd`, dpe/src/commands/update_context_measurement.rs:36-48. -/
def getUpdate (b : Bytes) : Option (UpdateCmd cfg × Bytes) := do
  let (h, b) ← getArr 16 b
  let (d, b) ← getArr cfg.tciSize b
  let (r, b) ← getU32 b
  let (t, b) ← getU32 b
  let (v, b) ← getU32 b
  pure (⟨h, d, r, t, v⟩, b)

/-- `GetCertificateChainCmd`, dpe/src/commands/get_certificate_chain.rs:24-27. -/
def getChain (b : Bytes) : Option (ChainCmd × Bytes) := do
  let (o, b) ← getU32 b
  let (s, b) ← getU32 b
  pure (⟨o, s⟩, b)

/-- `CertifyKeyP256Cmd`, dpe/src/commands/certify_key.rs:248-253. -/
def getCertify256 (b : Bytes) : Option (CertifyCmd × Bytes) := do
  let (h, b) ← getArr 16 b
  let (f, b) ← getU32 b
  let (t, b) ← getU32 b
  let (l, b) ← getArr 32 b
  pure (.p256 h f t l, b)

/-- `CertifyKeyP384Cmd`, dpe/src/commands/certify_key.rs:271-276. -/
def getCertify384 (b : Bytes) : Option (CertifyCmd × Bytes) := do
  let (h, b) ← getArr 16 b
  let (f, b) ← getU32 b
  let (t, b) ← getU32 b
  let (l, b) ← getArr 48 b
  pure (.p384 h f t l, b)

/-- `CertifyKeyMldsa87Cmd`, dpe/src/commands/certify_key.rs:306-311. -/
def getCertifyMl (b : Bytes) : Option (CertifyCmd × Bytes) := do
  let (h, b) ← getArr 16 b
  let (f, b) ← getU32 b
  let (t, b) ← getU32 b
  let (l, b) ← getArr 48 b
  pure (.mldsa87 h f t l, b)

/-- `SignP256Cmd`, dpe/src/commands/sign.rs:292-297. -/
def getSign256 (b : Bytes) : Option (SignCmd × Bytes) := do
  let (h, b) ← getArr 16 b
  let (l, b) ← getArr 32 b
  let (f, b) ← getU32 b
  let (d, b) ← getArr 32 b
  pure (.p256 h l f d, b)

/-- `SignP384Cmd`, dpe/src/commands/sign.rs:315-320. -/
def getSign384 (b : Bytes) : Option (SignCmd × Bytes) := do
  let (h, b) ← getArr 16 b
  let (l, b) ← getArr 48 b
  let (f, b) ← getU32 b
  let (d, b) ← getArr 48 b
  pure (.p384 h l f d, b)

/-- `SignMldsa87Cmd`, dpe/src/commands/sign.rs:340-345. -/
def getSignMl (b : Bytes) : Option (SignCmd × Bytes) := do
  let (h, b) ← getArr 16 b
  let (l, b) ← getArr 48 b
  let (f, b) ← getU32 b
  let (d, b) ← getArr 64 b
  pure (.mldsa87 h l f d, b)

/-- `SignMldsa87RawCmd`, dpe/src/commands/sign.rs:46-54. -/
def getSignMlRaw (b : Bytes) : Option (SignCmd × Bytes) := do
  let (h, b) ← getArr 16 b
  let (l, b) ← getArr 48 b
  let (f, b) ← getU32 b
  let (n, b) ← getU32 b
  let (d, b) ← getArr 1024 b
  pure (.mldsa87Raw h l f n d, b)

/-- The flags of `SignMldsa87Header`, dpe/src/commands/sign.rs:37-43. -/
def getMlFlags (b : Bytes) : Option (U32 × Bytes) := do
  let (_, b) ← getArr 16 b
  let (_, b) ← getArr 48 b
  getU32 b

/-- `parse_command`, dpe/src/commands/mod.rs:117-125 and its copies in certify_key.rs:65-72 and
sign.rs:112-119: `ref_from_prefix` fails if the buffer at address `addr` is not a multiple of
the structure's alignment or is too short; the remaining bytes are ignored. -/
def parseCommand {α β : Type} (align addr : Nat) (p : Bytes → Option (α × Bytes)) (build : α → β)
    (b : Bytes) : Except Err β :=
  if addr % align = 0 then
    match p b with
    | some (a, _) => .ok (build a)
    | none => .error .invalidArgument
  else .error .invalidArgument

/-- `CertifyKeyCommand::deserialize`, dpe/src/commands/certify_key.rs:45-63. -/
def decodeCertify (p : Profile) (addr : Nat) (b : Bytes) : Except Err CertifyCmd :=
  match p with
  | .p256 => parseCommand 4 addr getCertify256 id b
  | .p384 => parseCommand 4 addr getCertify384 id b
  | .mldsa87 => parseCommand 4 addr getCertifyMl id b

/-- The `size > MLDSA87_RAW_MAX_SIZE` test, dpe/src/commands/sign.rs:102-107. -/
def checkRaw : SignCmd → Except Err SignCmd
  | .mldsa87Raw h l f n d =>
    if 1024 < n.toNat then .error .invalidArgument else .ok (.mldsa87Raw h l f n d)
  | c => .ok c

/-- The raw branch of `deserialize_mldsa87`, dpe/src/commands/sign.rs:91-107
(`size_of::<SignMldsa87RawCmd>()` = 1096). -/
def decodeSignRaw (addr : Nat) (b : Bytes) : Except Err SignCmd :=
  if b.length < 1096 then .error .invalidArgument
  else
    match parseCommand 4 addr getSignMlRaw id b with
    | .error e => .error e
    | .ok c => checkRaw c

/-- `SignCommand::deserialize_mldsa87`, dpe/src/commands/sign.rs:84-110 (`IS_RAW` is bit 0). -/
def decodeSignMl (addr : Nat) (b : Bytes) : Except Err SignCmd :=
  match parseCommand 4 addr getMlFlags id b with
  | .error e => .error e
  | .ok f =>
    if f.getLsbD 0 then decodeSignRaw addr b else parseCommand 4 addr getSignMl id b

/-- `SignCommand::deserialize`, dpe/src/commands/sign.rs:69-82. -/
def decodeSign (p : Profile) (addr : Nat) (b : Bytes) : Except Err SignCmd :=
  match p with
  | .p256 => parseCommand 4 addr getSign256 id b
  | .p384 => parseCommand 4 addr getSign384 id b
  | .mldsa87 => decodeSignMl addr b

/-- `CommandHdr::DPE_COMMAND_MAGIC` (`b"DPEC"`, big-endian), dpe/src/commands/mod.rs:470. -/
def cmdMagic : U32 := 0x44504543

/-- `CommandHdr`, dpe/src/commands/mod.rs:463-467. -/
structure CmdHdr where
  magic : U32
  cmdId : U32
  profile : U32

/-- `CommandHdr::read_from_prefix`. -/
def getCmdHdr (b : Bytes) : Option (CmdHdr × Bytes) := do
  let (m, b) ← getU32 b
  let (i, b) ← getU32 b
  let (p, b) ← getU32 b
  pure (⟨m, i, p⟩, b)

/-- `CommandHdr::try_from`, dpe/src/commands/mod.rs:494-503. -/
def cmdHdrTryFrom (b : Bytes) : Except Err CmdHdr :=
  match getCmdHdr b with
  | none => .error .invalidCommand
  | some (h, _) => if h.magic != cmdMagic then .error .invalidCommand else .ok h

/-- `CommandHdr::try_from_with_profile`, dpe/src/commands/mod.rs:480-489. -/
def cmdHdrWithProfile (p : Profile) (b : Bytes) : Except Err CmdHdr :=
  match cmdHdrTryFrom b with
  | .error e => .error e
  | .ok h => if h.cmdId != 1 && h.profile != p.code then .error .invalidCommand else .ok h

/-- The body of `Command::deserialize`, dpe/src/commands/mod.rs:98-114.  `addr` is the address
of the body.  The RotateContextHandle arm does not exist when the `disable_rotate_context`
feature is on (bit 27 of `cfg.disabled`, dpe/src/support.rs:57-102).  `DestroyCtxCmd` is the
only structure with alignment 1. -/
def decodeBody (cfg : Cfg) (addr : Nat) (id : U32) (b : Bytes) : Except Err (Cmd cfg) :=
  if id = 0x01 then parseCommand 4 addr (fun b => some ((), b)) (fun _ => .getProfile) b
  else if id = 0x07 then parseCommand 4 addr getInit .init b
  else if id = 0x08 then parseCommand 4 addr getDerive .derive b
  else if id = 0x09 then (decodeCertify cfg.profile addr b).map .certify
  else if id = 0x0A then (decodeSign cfg.profile addr b).map .sign
  else if id = 0x0e ∧ rotateBit cfg.disabled = false then parseCommand 4 addr getRotate .rotate b
  else if id = 0x0f then parseCommand 1 addr getDestroy .destroy b
  else if id = 0x10 then parseCommand 4 addr getChain .chain b
  else if id = 0x80000000 then parseCommand 4 addr getUpdate .update b
  else .error .invalidCommand

/-- `Command::deserialize`, dpe/src/commands/mod.rs:92-115, on bytes stored at address `addr`.
Twelve bytes are `size_of::<CommandHdr>()`; `bytes.get(12..)` cannot fail after the header was
read. -/
def decode (cfg : Cfg) (addr : Nat) (b : Bytes) : Except Err (Cmd cfg) :=
  match cmdHdrWithProfile cfg.profile b with
  | .error e => .error e
  | .ok h => decodeBody cfg (addr + 12) h.cmdId (b.drop 12)

/-- `Command::id`, dpe/src/commands/mod.rs:142-156. -/
def Cmd.id : Cmd cfg → U32
  | .getProfile => 0x01
  | .init _ => 0x07
  | .derive _ => 0x08
  | .certify _ => 0x09
  | .sign _ => 0x0A
  | .rotate _ => 0x0e
  | .destroy _ => 0x0f
  | .chain _ => 0x10
  | .update _ => 0x80000000

/-- `CertifyKeyCommand::as_bytes`, dpe/src/commands/certify_key.rs:74-83. -/
def CertifyCmd.asBytes : CertifyCmd → Bytes
  | .p256 h f t l => h.toList ++ le32 f ++ le32 t ++ l.toList
  | .p384 h f t l => h.toList ++ le32 f ++ le32 t ++ l.toList
  | .mldsa87 h f t l => h.toList ++ le32 f ++ le32 t ++ l.toList

/-- `SignCommand::as_bytes`, dpe/src/commands/sign.rs:121-132. -/
def SignCmd.asBytes : SignCmd → Bytes
  | .p256 h l f d => h.toList ++ l.toList ++ le32 f ++ d.toList
  | .p384 h l f d => h.toList ++ l.toList ++ le32 f ++ d.toList
  | .mldsa87 h l f d => h.toList ++ l.toList ++ le32 f ++ d.toList
  | .mldsa87Raw h l f n d => h.toList ++ l.toList ++ le32 f ++ le32 n ++ d.toList

/-- `Command::as_bytes` (the body), dpe/src/commands/mod.rs:127-140: the `repr(C)` structures
have no padding. -/
def Cmd.asBytes : Cmd cfg → Bytes
  | .getProfile => []
  | .init f => le32 f
  | .derive c => c.handle.toList ++ c.data.toList ++ le32 c.flags ++ le32 c.tciType ++
      le32 c.targetLocality ++ le32 c.svn
  | .certify c => c.asBytes
  | .sign c => c.asBytes
  | .rotate c => c.handle.toList ++ le32 c.flags
  | .destroy h => h.toList
  | .chain c => le32 c.offset ++ le32 c.size
  | .update c => c.parentHandle.toList ++ c.data.toList ++ le32 c.reserved ++ le32 c.tciType ++
      le32 c.reservedSvn

/-! ### Responses -/

/-- `ResponseHdr`, dpe/src/response.rs:189-193. -/
structure RespHdr where
  magic : U32
  status : U32
  profile : Profile
  deriving DecidableEq

/-- `ResponseHdr::new`, dpe/src/response.rs:198-204. -/
def RespHdr.new (p : Profile) (e : Err) : RespHdr := ⟨respMagic, e.code, p⟩

/-- `ResponseHdr::as_bytes`. -/
def RespHdr.asBytes (h : RespHdr) : Bytes := le32 h.magic ++ le32 h.status ++ le32 h.profile.code

/-- `TryFromBytes` for `DpeProfile`, dpe/src/lib.rs:88-101: only the discriminants are valid.
Simplification: all three profiles are compiled in. -/
def profileOfCode (c : U32) : Option Profile :=
  if c = 3 then some .p256 else if c = 4 then some .p384 else if c = 5 then some .mldsa87 else none

/-- `ResponseHdr::try_read_from_prefix`. -/
def getRespHdr (b : Bytes) : Option (RespHdr × Bytes) := do
  let (m, b) ← getU32 b
  let (s, b) ← getU32 b
  let (c, b) ← getU32 b
  let p ← profileOfCode c
  pure (⟨m, s, p⟩, b)

/-- `Response`, dpe/src/response.rs:24-37, with the structures of lines 207-525 flattened. -/
inductive Resp (cfg : Cfg)
  | getProfile (hdr : RespHdr) (major minor : BitVec 16) (vendorId vendorSku maxTci flags : U32)
  | initCtx (hdr : RespHdr) (handle : Handle)
  | derive (hdr : RespHdr) (handle parent : Handle)
  | exported (hdr : RespHdr) (handle parent : Handle) (cdi : BArr 32) (size : U32)
      (cert : BArr cfg.maxCertSize)
  | rotate (hdr : RespHdr) (handle : Handle)
  | certify256 (hdr : RespHdr) (handle : Handle) (x y : BArr 32) (size : U32)
      (cert : BArr cfg.maxCertSize)
  | certify384 (hdr : RespHdr) (handle : Handle) (x y : BArr 48) (size : U32)
      (cert : BArr cfg.maxCertSize)
  | certifyMl (hdr : RespHdr) (handle : Handle) (key : BArr 2592) (size : U32)
      (cert : BArr cfg.maxCertSize)
  | sign256 (hdr : RespHdr) (handle : Handle) (r s : BArr 32)
  | sign384 (hdr : RespHdr) (handle : Handle) (r s : BArr 48)
  | signMl (hdr : RespHdr) (handle : Handle) (sig : BArr 4627) (pad : BArr 1)
  | destroy (hdr : RespHdr)
  | chain (hdr : RespHdr) (size : U32) (chunk : BArr 2048)
  | update (hdr : RespHdr) (child parent : Handle)
  | error (hdr : RespHdr)

/-- `Response::as_bytes`, dpe/src/response.rs:40-55. -/
def Resp.asBytes : Resp cfg → Bytes
  | .getProfile h ma mi v k t f =>
    h.asBytes ++ le16 ma ++ le16 mi ++ le32 v ++ le32 k ++ le32 t ++ le32 f
  | .initCtx h x => h.asBytes ++ x.toList
  | .derive h x p => h.asBytes ++ x.toList ++ p.toList
  | .exported h x p c n b => h.asBytes ++ x.toList ++ p.toList ++ c.toList ++ le32 n ++ b.toList
  | .rotate h x => h.asBytes ++ x.toList
  | .certify256 h x a b n c =>
    h.asBytes ++ x.toList ++ a.toList ++ b.toList ++ le32 n ++ c.toList
  | .certify384 h x a b n c =>
    h.asBytes ++ x.toList ++ a.toList ++ b.toList ++ le32 n ++ c.toList
  | .certifyMl h x k n c => h.asBytes ++ x.toList ++ k.toList ++ le32 n ++ c.toList
  | .sign256 h x r s => h.asBytes ++ x.toList ++ r.toList ++ s.toList
  | .sign384 h x r s => h.asBytes ++ x.toList ++ r.toList ++ s.toList
  | .signMl h x s p => h.asBytes ++ x.toList ++ s.toList ++ p.toList
  | .destroy h => h.asBytes
  | .chain h n c => h.asBytes ++ le32 n ++ c.toList
  | .update h x p => h.asBytes ++ x.toList ++ p.toList
  | .error h => h.asBytes

/-- Which response structure goes with a command: the `match` of `execute`,
dpe/src/commands/mod.rs:354-407 (and of `Response::try_read_from_bytes`,
dpe/src/response.rs:88-179, which has the same arms). -/
inductive RespKind
  | getProfile | initCtx | derive | exported | rotate | certify256 | certify384 | certifyMl
  | sign256 | sign384 | signMl | destroy | chain | update
  deriving DecidableEq, Repr

@[inherit_doc RespKind] def Cmd.respKind : Cmd cfg → RespKind
  | .getProfile => .getProfile
  | .init _ => .initCtx
  | .derive c => if c.exportCdi then .exported else .derive
  | .certify (.p256 ..) => .certify256
  | .certify (.p384 ..) => .certify384
  | .certify (.mldsa87 ..) => .certifyMl
  | .sign (.p256 ..) => .sign256
  | .sign (.p384 ..) => .sign384
  | .sign (.mldsa87 ..) => .signMl
  | .sign (.mldsa87Raw ..) => .signMl
  | .rotate _ => .rotate
  | .destroy _ => .destroy
  | .chain _ => .chain
  | .update _ => .update

/-- `size_of` of the response structures, dpe/src/response.rs:189-525. -/
def RespKind.size (cfg : Cfg) : RespKind → Nat
  | .getProfile => 32
  | .initCtx => 28
  | .derive => 44
  | .exported => 80 + cfg.maxCertSize
  | .rotate => 28
  | .certify256 => 96 + cfg.maxCertSize
  | .certify384 => 128 + cfg.maxCertSize
  | .certifyMl => 2624 + cfg.maxCertSize
  | .sign256 => 92
  | .sign384 => 124
  | .signMl => 4656
  | .destroy => 12
  | .chain => 2064
  | .update => 44

/-- `try_read_from_prefix` of `CertifyKeyP256Resp` and `CertifyKeyP384Resp`,
dpe/src/response.rs:346-381, 405-423. -/
def getCertResp (n : Nat) (mk : RespHdr → Handle → BArr n → BArr n → U32 → BArr cfg.maxCertSize → Resp cfg)
    (b : Bytes) : Option (Resp cfg × Bytes) := do
  let (h, b) ← getRespHdr b
  let (x, b) ← getArr 16 b
  let (p, b) ← getArr n b
  let (q, b) ← getArr n b
  let (k, b) ← getU32 b
  let (c, b) ← getArr cfg.maxCertSize b
  pure (mk h x p q k c, b)

/-- `try_read_from_prefix` of `SignP256Resp` and `SignP384Resp`, dpe/src/response.rs:491-507. -/
def getSignResp (n : Nat) (mk : RespHdr → Handle → BArr n → BArr n → Resp cfg)
    (b : Bytes) : Option (Resp cfg × Bytes) := do
  let (h, b) ← getRespHdr b
  let (x, b) ← getArr 16 b
  let (p, b) ← getArr n b
  let (q, b) ← getArr n b
  pure (mk h x p q, b)

/-- `try_read_from_prefix` of a response with one handle, dpe/src/response.rs:242-247. -/
def getHandleResp (mk : RespHdr → Handle → Resp cfg) (b : Bytes) : Option (Resp cfg × Bytes) := do
  let (h, b) ← getRespHdr b
  let (x, b) ← getArr 16 b
  pure (mk h x, b)

/-- `try_read_from_prefix` of a response with two handles, dpe/src/response.rs:249-266. -/
def getPairResp (mk : RespHdr → Handle → Handle → Resp cfg) (b : Bytes) :
    Option (Resp cfg × Bytes) := do
  let (h, b) ← getRespHdr b
  let (x, b) ← getArr 16 b
  let (p, b) ← getArr 16 b
  pure (mk h x p, b)

/-- `GetProfileResp::try_read_from_prefix`, dpe/src/response.rs:207-217. -/
def getProfileResp (b : Bytes) : Option (Resp cfg × Bytes) := do
  let (h, b) ← getRespHdr b
  let (ma, b) ← getU16 b
  let (mi, b) ← getU16 b
  let (v, b) ← getU32 b
  let (k, b) ← getU32 b
  let (t, b) ← getU32 b
  let (f, b) ← getU32 b
  pure (.getProfile h ma mi v k t f, b)

/-- `DeriveContextExportedCdiResp::try_read_from_prefix`, dpe/src/response.rs:268-273, 435-443. -/
def getExportedResp (b : Bytes) : Option (Resp cfg × Bytes) := do
  let (h, b) ← getRespHdr b
  let (x, b) ← getArr 16 b
  let (p, b) ← getArr 16 b
  let (c, b) ← getArr 32 b
  let (k, b) ← getU32 b
  let (d, b) ← getArr cfg.maxCertSize b
  pure (.exported h x p c k d, b)

/-- `CertifyKeyMldsa87Resp::try_read_from_prefix`, dpe/src/response.rs:383-389, 425-433. -/
def getCertMlResp (b : Bytes) : Option (Resp cfg × Bytes) := do
  let (h, b) ← getRespHdr b
  let (x, b) ← getArr 16 b
  let (p, b) ← getArr 2592 b
  let (k, b) ← getU32 b
  let (c, b) ← getArr cfg.maxCertSize b
  pure (.certifyMl h x p k c, b)

/-- `SignMlDsaResp::try_read_from_prefix`, dpe/src/response.rs:509-517. -/
def getSignMlResp (b : Bytes) : Option (Resp cfg × Bytes) := do
  let (h, b) ← getRespHdr b
  let (x, b) ← getArr 16 b
  let (p, b) ← getArr 4627 b
  let (q, b) ← getArr 1 b
  pure (.signMl h x p q, b)

/-- `ResponseHdr::try_read_from_prefix` as a DestroyContext response. -/
def getDestroyResp (b : Bytes) : Option (Resp cfg × Bytes) := do
  let (h, b) ← getRespHdr b
  pure (.destroy h, b)

/-- `GetCertificateChainResp::try_read_from_prefix`, dpe/src/response.rs:519-525. -/
def getChainResp (b : Bytes) : Option (Resp cfg × Bytes) := do
  let (h, b) ← getRespHdr b
  let (k, b) ← getU32 b
  let (c, b) ← getArr 2048 b
  pure (.chain h k c, b)

/-- `T::try_read_from_prefix` for the response structure `T` of each kind. -/
def getResp (k : RespKind) (b : Bytes) : Option (Resp cfg × Bytes) :=
  match k with
  | .getProfile => getProfileResp b
  | .initCtx => getHandleResp .initCtx b
  | .derive => getPairResp .derive b
  | .exported => getExportedResp b
  | .rotate => getHandleResp .rotate b
  | .certify256 => getCertResp 32 .certify256 b
  | .certify384 => getCertResp 48 .certify384 b
  | .certifyMl => getCertMlResp b
  | .sign256 => getSignResp 32 .sign256 b
  | .sign384 => getSignResp 48 .sign384 b
  | .signMl => getSignMlResp b
  | .destroy => getDestroyResp b
  | .chain => getChainResp b
  | .update => getPairResp .update b

/-- `T::try_read_from_bytes`: the size must match exactly. -/
def getRespExact (k : RespKind) (b : Bytes) : Option (Resp cfg) :=
  match getResp (cfg := cfg) k b with
  | some (r, []) => some r
  | _ => none

/-- `Response::try_read_from_bytes` (used by clients), dpe/src/response.rs:81-182: the bytes
are copied into a zeroed scratch buffer of `scratch` = `size_of::<Response>()` bytes and the
structure is read from its prefix. `size_of` of an enum is at least that of each variant; this is
all that is used about `scratch`. -/
def clientRead (scratch : Nat) (c : Cmd cfg) (b : Bytes) : Except Err (Resp cfg) :=
  match getResp c.respKind (b.take scratch ++ List.replicate (scratch - b.length) 0) with
  | some (r, _) => .ok r
  | none => .error .invalidArgument

/-- The `as_bytes_partial` methods, dpe/src/response.rs:275-282, 352-403:
`as_bytes().get(..len)` with `len = size_of - MAX_CERT_SIZE + size`. -/
def partialBytes (b : Bytes) (fixed : Nat) (n : U32) (e : Internal) : Except Err Bytes :=
  if fixed + n.toNat ≤ b.length then .ok (b.take (fixed + n.toNat)) else .error (.internal e)

/-- `Response::as_bytes_partial`, dpe/src/response.rs:57-75. -/
def Resp.asBytesPartial (r : Resp cfg) : Except Err Bytes :=
  match r with
  | .exported _ _ _ _ n _ => partialBytes r.asBytes 80 n .deriveCtxRespSliceOob
  | .certify256 _ _ _ _ n _ => partialBytes r.asBytes 96 n .certifyKeyP256RespSliceOob
  | .certify384 _ _ _ _ n _ => partialBytes r.asBytes 128 n .certifyKeyP384RespSliceOob
  | .certifyMl _ _ _ n _ => partialBytes r.asBytes 2624 n .certifyKeyMldsa87RespSliceOob
  | _ => .ok r.asBytes

/-- `CertifyKeyResp::cert`, dpe/src/response.rs:330-343 (for the other responses there is no
such method: `none`). -/
def Resp.cert : Resp cfg → Option (Except Err Bytes)
  | .certify256 _ _ _ _ n c => some (partialBytes c.toList 0 n .certifyKeyCertSliceOob)
  | .certify384 _ _ _ _ n c => some (partialBytes c.toList 0 n .certifyKeyCertSliceOob)
  | .certifyMl _ _ _ n c => some (partialBytes c.toList 0 n .certifyKeyCertSliceOob)
  | _ => none

/-! ### Execution -/

/-- The `exec!` macro of `CommandExecution::execute`, dpe/src/commands/mod.rs:345-356: a zeroed
buffer of `size_of` rounded up to whole words, the command, and `try_read_from_bytes`. -/
def execute (env : Env cfg σ) (c : Cmd cfg) (loc : U32) : M cfg σ (Resp cfg) := fun s =>
  match exec env c loc
      { s with out := List.replicate ((c.respKind.size cfg + 3) / 4 * 4) 0 } with
  | (.error e, s') => (.error e, { s' with out := s.out })
  | (.ok _, s') =>
    match getRespExact c.respKind s'.out with
    | some r => (.ok r, { s' with out := s.out })
    | none => (.error (.internal .responseDeserializationFailed), { s' with out := s.out })

/-- `DpeInstance::execute_serialized_command`, dpe/src/dpe_instance.rs:160-186 (a panicking
command sends no response at all). -/
def executeSerialized (env : Env cfg σ) (loc : U32) (addr : Nat) (b : Bytes) : M cfg σ (Resp cfg) :=
  fun s =>
    match decode cfg addr b with
    | .error e => (.error e, s)
    | .ok c =>
      match execute env c loc s with
      | (.ok r, s') => (.ok r, s')
      | (.error .panic, s') => (.error .panic, s')
      | (.error e, s') => (.ok (.error (RespHdr.new cfg.profile e)), s')

end Dpe
