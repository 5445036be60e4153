import Verif.Model.Commands
/-
The certificate writer `CertWriter`, dpe/src/x509.rs:159-2428.

Every encoder returns the number of bytes it claims to have written and advances the offset;
the claimed numbers and the predicted sizes are modelled separately from the bytes stored, as in
the Rust code, so that their agreement is something to prove.

Simplifications: `usize` is `Nat`; the writer's `profile` and `crit_dice` fields, which are set by
`CertWriter::new` and never assigned, are arguments; all features are compiled in
(`p256`, `p384`, `ml-dsa`, no `disable_*`).
-/
namespace Dpe
variable {cfg : Cfg} {σ : Type}

/-! ### The writer -/

/-- `CertWriter`, dpe/src/x509.rs:159-167.  `buf` is the response window
(`certificate: &mut dyn ResponseBuffer`); the stack of backtracks has its top at the head. -/
structure Writer where
  buf : Bytes
  offset : Nat
  csrRange : Option (Nat × Nat)
  backtracks : List (Nat × Nat)
  saved : Option Nat

/-- `CertWriter::new`, dpe/src/x509.rs:277-291. -/
def Writer.new (buf : Bytes) : Writer :=
  { buf := buf, offset := 0, csrRange := none, backtracks := [], saved := none }

/-- The `write_at` (error ignored) and `offset +=` of `encode_bytes` and `encode_byte`,
dpe/src/x509.rs:931-953. -/
def Writer.put (w : Writer) (bs : Bytes) : Writer :=
  { w with buf := (bufWrite w.buf w.offset bs).getD w.buf, offset := w.offset + bs.length }

/-- An encoder that cannot fail: `fn(&mut self, ..) -> usize`. -/
abbrev Enc := Writer → Nat × Writer

/-- A sequence of encoders whose results are summed (`bytes_written += ..`). -/
def Enc.all : List Enc → Enc
  | [], w => (0, w)
  | e :: es, w => ((e w).1 + (Enc.all es (e w).2).1, (Enc.all es (e w).2).2)

/-- `encode_bytes`, dpe/src/x509.rs:931-941. -/
def encBytes (bs : Bytes) : Enc := fun w => (bs.length, w.put bs)

/-- `encode_byte`, dpe/src/x509.rs:944-953, and `encode_tag_field`, 956-958. -/
def encByte (b : UInt8) : Enc := fun w => (1, w.put [b])

/-! ### Tags, versions and object identifiers, dpe/src/x509.rs:67-79 and 179-271 -/

def tagBool : UInt8 := 0x1
def tagInteger : UInt8 := 0x2
def tagBitString : UInt8 := 0x3
def tagOctetString : UInt8 := 0x4
def tagOid : UInt8 := 0x6
def tagUtf8 : UInt8 := 0xC
def tagPrintable : UInt8 := 0x13
def tagGenTime : UInt8 := 0x18
def tagSequence : UInt8 := 0x30
def tagSetOf : UInt8 := 0x31
def tagContext : UInt8 := 0x80
def tagConstructed : UInt8 := 0x20

def oidMldsa : Bytes := [0x60, 0x86, 0x48, 0x01, 0x65, 0x03, 0x04, 0x03, 0x13]
def oidEcPub : Bytes := [0x2A, 0x86, 0x48, 0xCE, 0x3D, 0x02, 0x01]
def oidSha256 : Bytes := [0x60, 0x86, 0x48, 0x01, 0x65, 0x03, 0x04, 0x02, 0x01]
def oidSha384 : Bytes := [0x60, 0x86, 0x48, 0x01, 0x65, 0x03, 0x04, 0x02, 0x02]
def oidEcdsaSha256 : Bytes := [0x2A, 0x86, 0x48, 0xCE, 0x3D, 0x04, 0x03, 0x02]
def oidEcdsaSha384 : Bytes := [0x2A, 0x86, 0x48, 0xCE, 0x3D, 0x04, 0x03, 0x03]
def oidCurve256 : Bytes := [0x2A, 0x86, 0x48, 0xCE, 0x3D, 0x03, 0x01, 0x07]
def oidCurve384 : Bytes := [0x2B, 0x81, 0x04, 0x00, 0x22]
def oidCommonName : Bytes := [0x55, 0x04, 0x03]
def oidSerialNumber : Bytes := [0x55, 0x04, 0x05]
def oidMultiTcb : Bytes := [0x67, 0x81, 0x05, 0x05, 0x04, 0x05]
def oidUeid : Bytes := [0x67, 0x81, 0x05, 0x05, 0x04, 0x04]
def oidEca : Bytes := [0x67, 0x81, 0x05, 0x05, 0x04, 0x64, 0x0C]
def oidAttestLoc : Bytes := [0x67, 0x81, 0x05, 0x05, 0x04, 0x64, 0x09]
def oidBasic : Bytes := [0x55, 0x1D, 0x13]
def oidKeyUsage : Bytes := [0x55, 0x1D, 0x0F]
def oidExtKeyUsage : Bytes := [0x55, 0x1D, 0x25]
def oidSubjectKeyId : Bytes := [0x55, 0x1D, 0x0E]
def oidAuthorityKeyId : Bytes := [0x55, 0x1D, 0x23]
def oidSubjectAltName : Bytes := [0x55, 0x1D, 0x11]
def oidSignedData : Bytes := [0x2A, 0x86, 0x48, 0x86, 0xF7, 0x0D, 0x01, 0x07, 0x02]
def oidData : Bytes := [0x2A, 0x86, 0x48, 0x86, 0xF7, 0x0D, 0x01, 0x07, 0x01]
def oidExtRequest : Bytes := [0x2A, 0x86, 0x48, 0x86, 0xF7, 0x0D, 0x01, 0x09, 0x0E]

/-- `sig_oid`, dpe/src/x509.rs:413-422. -/
def sigOid : Profile → Bytes
  | .p256 => oidEcdsaSha256
  | .p384 => oidEcdsaSha384
  | .mldsa87 => oidMldsa

/-- `hash_oid`, dpe/src/x509.rs:424-433. -/
def hashOid : Profile → Bytes
  | .p256 => oidSha256
  | .p384 => oidSha384
  | .mldsa87 => oidSha384

/-! ### Lengths and integers -/

/-- `get_size_width`, dpe/src/x509.rs:357-369. -/
def sizeWidth (n : Nat) : Nat :=
  if n < 128 then 1
  else if n < 256 then 2
  else if n < 65536 then 3
  else if n < 16777216 then 4
  else 5

/-- `get_structure_size`, dpe/src/x509.rs:373-379. -/
def structSize (n : Nat) (tagged : Bool) : Nat := if tagged then 1 + sizeWidth n + n else n

/-- The loop of `get_integer_bytes_size`, dpe/src/x509.rs:385-394: `i` is the index of the first
byte of the list, `n` the length of the whole integer. -/
def intLenLoop (n : Nat) : Nat → Bytes → Nat → Nat
  | _, [], len => len
  | i, b :: bs, len =>
    if b == 0 && i != n - 1 then intLenLoop n (i + 1) bs (len - 1)
    else if (b &&& 0x80) != 0 then len + 1
    else len

/-- `get_integer_bytes_size`, dpe/src/x509.rs:383-397. -/
def intBytesSize (v : Bytes) (tagged : Bool) : Nat :=
  structSize (intLenLoop v.length 0 v v.length) tagged

/-- `u64::to_be_bytes`. -/
def be64 (n : Nat) : Bytes :=
  [UInt8.ofNat (n >>> 56), UInt8.ofNat (n >>> 48), UInt8.ofNat (n >>> 40), UInt8.ofNat (n >>> 32),
   UInt8.ofNat (n >>> 24), UInt8.ofNat (n >>> 16), UInt8.ofNat (n >>> 8), UInt8.ofNat n]

/-- `u32::to_be_bytes`. -/
def be32 (n : U32) : Bytes :=
  [UInt8.ofNat (n.toNat >>> 24), UInt8.ofNat (n.toNat >>> 16), UInt8.ofNat (n.toNat >>> 8),
   UInt8.ofNat n.toNat]

/-- `get_integer_size`, dpe/src/x509.rs:401-404. -/
def intSize (n : Nat) (tagged : Bool) : Nat := intBytesSize (be64 n) tagged

/-- The encoders of the loop `for i in (0..rem).rev()` of `encode_size_field`,
dpe/src/x509.rs:968-970. -/
def sizeBytes (n : Nat) : Nat → List Enc
  | 0 => []
  | i + 1 => encByte (UInt8.ofNat (n >>> (i * 8))) :: sizeBytes n i

/-- `encode_size_field`, dpe/src/x509.rs:961-973. -/
def encSize (n : Nat) : Enc := fun w =>
  if sizeWidth n == 1 then (sizeWidth n, (encByte (UInt8.ofNat n) w).2)
  else (sizeWidth n,
    (Enc.all (encByte (0x80 ||| UInt8.ofNat (sizeWidth n - 1)) :: sizeBytes n (sizeWidth n - 1)) w).2)

/-- `encode_integer_bytes`, dpe/src/x509.rs:988-1010. -/
def encIntBytes (v : Bytes) (tagged : Bool) : Enc :=
  let size := intBytesSize v false
  Enc.all ((if tagged then [encByte tagInteger] else []) ++ [encSize size] ++
    (if size > v.length then [encByte 0] else []) ++ [encBytes (v.drop (v.length - size))])

/-- `encode_integer`, dpe/src/x509.rs:1013-1015. -/
def encInt (n : Nat) (tagged : Bool) : Enc := encIntBytes (be64 n) tagged

/-- `encode_tlv`, dpe/src/x509.rs:1020-1026. -/
def encTlv (tag : UInt8) (v : Bytes) : Enc := Enc.all [encByte tag, encSize v.length, encBytes v]

/-- `encode_oid`, dpe/src/x509.rs:1029-1031. -/
def encOid (oid : Bytes) : Enc := encTlv tagOid oid

/-! ### Names, algorithms, keys and signatures -/

/-- `DirectoryString`, dpe/src/x509.rs:81-101. -/
inductive DirString
  | printable (v : Bytes)
  | utf8 (v : Bytes)

/-- `DirectoryString::bytes`, dpe/src/x509.rs:95-100. -/
def DirString.bytes : DirString → Bytes
  | .printable v => v
  | .utf8 v => v

/-- `Name`, dpe/src/x509.rs:106-109. -/
structure Name where
  cn : DirString
  serial : DirString

/-- `encode_rdn_string`, dpe/src/x509.rs:1036-1042. -/
def encRdnString : DirString → Enc
  | .printable v => encTlv tagPrintable v
  | .utf8 v => encTlv tagUtf8 v

/-- The sizes and the emission of `encode_rdn`, dpe/src/x509.rs:1062-1101, without the final
truncation check. -/
def encRdn (n : Name) : Enc :=
  let cnSize := structSize oidCommonName.length true + structSize n.cn.bytes.length true
  let snSize := structSize oidSerialNumber.length true + structSize n.serial.bytes.length true
  let cnSet := structSize cnSize true
  let snSet := structSize snSize true
  let seqSize := structSize cnSet true + structSize snSet true
  Enc.all [encByte tagSequence, encSize seqSize,
    encByte tagSetOf, encSize cnSet,
    encByte tagSequence, encSize cnSize, encOid oidCommonName, encRdnString n.cn,
    encByte tagSetOf, encSize snSet,
    encByte tagSequence, encSize snSize, encOid oidSerialNumber, encRdnString n.serial]

/-- `get_bytes_size`, dpe/src/x509.rs:409-411. -/
def bytesSize (v : Bytes) (tagged : Bool) : Nat := structSize v.length tagged

/-- `get_ec_pub_alg_id_size`, dpe/src/x509.rs:438-442. -/
def ecPubAlgSize (curve : Bytes) (tagged : Bool) : Nat :=
  structSize (bytesSize oidEcPub true + bytesSize curve true) tagged

/-- `get_ecdsa_sig_alg_id_size` and `get_mldsa_sig_alg_id_size` (identical),
dpe/src/x509.rs:446-457. -/
def sigAlgSize (p : Profile) (tagged : Bool) : Nat :=
  structSize (bytesSize (sigOid p) true) tagged

/-- `get_hash_alg_id_size`, dpe/src/x509.rs:462-465. -/
def hashAlgSize (p : Profile) (tagged : Bool) : Nat :=
  structSize (bytesSize (hashOid p) true) tagged

/-- `get_validity_size`, dpe/src/x509.rs:469-473. -/
def validitySize (v : Validity) (tagged : Bool) : Nat :=
  structSize (bytesSize v.notBefore true + bytesSize v.notAfter true) tagged

/-- `get_mldsa_subject_pubkey_info_size`, dpe/src/x509.rs:478-482. -/
def mldsaSpkiSize (p : Profile) (k : Bytes) (tagged : Bool) : Nat :=
  structSize (structSize (1 + k.length) true + sigAlgSize p true) tagged

/-- `encode_ec_pub_alg_id`, dpe/src/x509.rs:1118-1127. -/
def encEcPubAlg (curve : Bytes) : Enc :=
  Enc.all [encByte tagSequence, encSize (ecPubAlgSize curve false), encOid oidEcPub, encOid curve]

/-- `encode_ecdsa_sig_alg_id`, dpe/src/x509.rs:1136-1144, and `encode_mldsa_sig_alg_id`,
1330-1338 (identical). -/
def encSigAlg (p : Profile) : Enc :=
  Enc.all [encByte tagSequence, encSize (sigAlgSize p false), encOid (sigOid p)]

/-- `encode_hash_alg_id`, dpe/src/x509.rs:1154-1162. -/
def encHashAlg (p : Profile) : Enc :=
  Enc.all [encByte tagSequence, encSize (hashAlgSize p false), encOid (hashOid p)]

/-- `encode_validity`, dpe/src/x509.rs:1166-1176. -/
def encValidity (v : Validity) : Enc :=
  Enc.all [encByte tagSequence, encSize (validitySize v false), encTlv tagGenTime v.notBefore,
    encTlv tagGenTime v.notAfter]

/-- `encode_ecdsa_subject_pubkey_info`, dpe/src/x509.rs:1194-1220; `x` and `y` are the
coordinates, both of `curve_size` bytes. -/
def encEcSpki (x y curve : Bytes) : Enc :=
  let bits := 1 + (1 + x.length + x.length)
  Enc.all [encByte tagSequence, encSize (structSize bits true + ecPubAlgSize curve true),
    encEcPubAlg curve, encByte tagBitString, encSize bits, encByte 0, encByte 0x4,
    encBytes x, encBytes y]

/-- `encode_mldsa_subject_pubkey_info`, dpe/src/x509.rs:1342-1356. -/
def encMldsaSpki (p : Profile) (k : Bytes) : Enc :=
  Enc.all [encByte tagSequence, encSize (mldsaSpkiSize p k false), encSigAlg p,
    encByte tagBitString, encSize (1 + k.length), encByte 0, encBytes k]

/-- The two integers of an ECDSA signature. -/
def ecSigSeqSize (r s : Bytes) : Nat := intBytesSize r true + intBytesSize s true

/-- `encode_ecdsa_signature_bit_string`, dpe/src/x509.rs:1228-1249. -/
def encEcSigBits (r s : Bytes) : Enc :=
  Enc.all [encByte tagBitString, encSize (structSize (1 + ecSigSeqSize r s) true), encByte 0,
    encByte tagSequence, encSize (ecSigSeqSize r s), encIntBytes r true, encIntBytes s true]

/-- `encode_mldsa_signature_bit_string`, dpe/src/x509.rs:1360-1369. -/
def encMldsaSigBits (s : Bytes) : Enc :=
  Enc.all [encByte tagBitString, encSize (1 + s.length), encByte 0, encBytes s]

/-- `encode_ecdsa_signature_octet_string`, dpe/src/x509.rs:1298-1315. -/
def encEcSigOctets (r s : Bytes) : Enc :=
  Enc.all [encByte tagOctetString, encSize (structSize (ecSigSeqSize r s) true),
    encByte tagSequence, encSize (ecSigSeqSize r s), encIntBytes r true, encIntBytes s true]

/-- `encode_signature_bit_string`, dpe/src/x509.rs:1253-1269. -/
def encSigBits (p : Profile) : Sig → Enc
  | .p256 r s => Enc.all [encSigAlg p, encEcSigBits r.toList s.toList]
  | .p384 r s => Enc.all [encSigAlg p, encEcSigBits r.toList s.toList]
  | .mldsa s => Enc.all [encSigAlg p, encMldsaSigBits s.toList]

/-- `encode_signature_octet_string`, dpe/src/x509.rs:1273-1289, with
`encode_mldsa_signature_octet_string`, 1321-1326. -/
def encSigOctets (p : Profile) : Sig → Enc
  | .p256 r s => Enc.all [encSigAlg p, encEcSigOctets r.toList s.toList]
  | .p384 r s => Enc.all [encSigAlg p, encEcSigOctets r.toList s.toList]
  | .mldsa s => Enc.all [encSigAlg p, encTlv tagOctetString s.toList]

/-- `get_ecdsa_signature_octet_string_size`, dpe/src/x509.rs:508-518. -/
def ecSigOctetsSize (r s : Bytes) (tagged : Bool) : Nat :=
  structSize (structSize (intBytesSize r true + intBytesSize s true) true) tagged

/-- `get_signature_octet_string_size`, dpe/src/x509.rs:486-498, with
`get_mldsa_signature_octet_string_size`, 502-504. -/
def sigOctetsSize (p : Profile) (sig : Sig) (tagged : Bool) : Nat :=
  match sig with
  | .p256 r s => sigAlgSize p tagged + ecSigOctetsSize r.toList s.toList tagged
  | .p384 r s => sigAlgSize p tagged + ecSigOctetsSize r.toList s.toList tagged
  | .mldsa s => sigAlgSize p tagged + structSize s.toList.length tagged

/-- `encode_version`, dpe/src/x509.rs:1371-1379 (`X509_V3` = 2). -/
def encVersion : Enc :=
  Enc.all [encByte (tagContext ||| tagConstructed), encSize (intSize 2 true), encInt 2 true]

/-! ### TCB information -/

/-- `get_fwid_size`, dpe/src/x509.rs:521-525. -/
def fwidSize (p : Profile) (digest : Bytes) (tagged : Bool) : Nat :=
  structSize (structSize (hashOid p).length true + structSize digest.length true) tagged

/-- `get_tcb_info_size`, dpe/src/x509.rs:530-556. -/
def tcbInfoSize (p : Profile) (t : Tci cfg) (recursive tagged : Bool) : Nat :=
  let fwid := fwidSize p t.current.toList true
  let svn := intSize t.svn.toNat true
  let regs :=
    if recursive then
      structSize (structSize (intSize 0 true +
        structSize (fwidSize p t.cumulative.toList true) true) true) true
    else 0
  structSize (structSize fwid true + 2 * structSize 4 true + regs + svn) tagged

/-- `encode_fwid`, dpe/src/x509.rs:1381-1393. -/
def encFwid (p : Profile) (m : Bytes) : Enc :=
  Enc.all [encByte tagSequence, encSize (fwidSize p m false), encOid (hashOid p),
    encTlv tagOctetString m]

/-- The integrity registers of `encode_tcb_info`, dpe/src/x509.rs:1438-1465. -/
def encRegisters (p : Profile) (t : Tci cfg) : List Enc :=
  let fwid := fwidSize p t.cumulative.toList true
  let list := structSize fwid true
  let num := intSize 0 true
  let reg := structSize (num + list) true
  [encByte (tagContext ||| tagConstructed ||| 11), encSize reg,
   encByte tagSequence, encSize (num + list),
   encByte (tagContext ||| 0x01), encInt 0 false,
   encByte (tagContext ||| tagConstructed ||| 0x02), encSize fwid,
   encFwid p t.cumulative.toList]

/-- `encode_tcb_info`, dpe/src/x509.rs:1407-1468. -/
def encTcbInfo (p : Profile) (t : Tci cfg) (recursive : Bool) : Enc :=
  Enc.all ([encByte tagSequence, encSize (tcbInfoSize p t recursive false),
    encByte (tagContext ||| 0x03), encInt t.svn.toNat false,
    encByte (tagContext ||| tagConstructed ||| 0x06), encSize (fwidSize p t.current.toList true),
    encFwid p t.current.toList,
    encTlv (tagContext ||| 0x08) (be32 t.locality),
    encTlv (tagContext ||| 0x09) (le32 t.tciType)] ++
    (if recursive then encRegisters p t else []))

/-! ### The ancestry and the other measurement data -/

/-- `TciNodes`, dpe/src/x509.rs:111-114, and `MeasurementData`, 149-157. -/
structure MeasData (cfg : Cfg) where
  start : Nat
  contexts : List (Context cfg)
  label : Bytes
  isCa : Bool
  recursive : Bool
  subjectKeyId : Bytes
  authorityKeyId : Bytes
  altName : Option OtherName

/-- `TciNodes::new`, dpe/src/x509.rs:117-127: the chain exists and is not longer than
`MAX_HANDLES`. -/
def tciNodesNew (start : Nat) (ctxs : List (Context cfg)) : Except Err Unit :=
  match ChainIter.new start ctxs with
  | .error e => .error e
  | .ok it =>
    if (it.items ctxs (cfg.maxHandles + 2)).length > cfg.maxHandles
    then .error (.internal .tciNodeCountExceeded) else .ok ()

/-- The items of `iter().rev()`: repeated `next_back`.  `fuel` bounds the number of calls;
`MAX_HANDLES + 2` calls exhaust the iterator on a chain (`Verif.Proofs.X509Chain`). -/
def ChainIter.backItems (ctxs : List (Context cfg)) :
    Nat → ChainIter → List (Except Err (Context cfg))
  | 0, _ => []
  | fuel + 1, it =>
    match it.nextBack ctxs with
    | (none, _) => []
    | (some x, it') => x :: ChainIter.backItems ctxs fuel it'

/-- `first_node()?.ok_or(EmptyTciNodes)?`, dpe/src/x509.rs:141-146 and 1478-1482. -/
def MeasData.firstNode (md : MeasData cfg) : Except Err (Tci cfg) :=
  match ChainIter.new md.start md.contexts with
  | .error e => .error e
  | .ok it =>
    match (it.nextBack md.contexts).1 with
    | none => .error (.internal .emptyTciNodes)
    | some (.error e) => .error e
    | some (.ok c) => .ok c.tci

/-- The size of the concatenated TcbInfos, dpe/src/x509.rs:1477-1488:
`num_nodes * get_tcb_info_size(first_node)`, 0 when there is no node. -/
def tcbInfosSize (p : Profile) (md : MeasData cfg) : Except Err Nat :=
  match ChainIter.new md.start md.contexts with
  | .error e => .error e
  | .ok it =>
    if it.pathLen == 0 then .ok 0
    else
      match md.firstNode with
      | .error e => .error e
      | .ok t => .ok (tcbInfoSize p t md.recursive true * it.pathLen)

/-! ### Extensions -/

/-- `get_extension_size`, dpe/src/x509.rs:560-570. -/
def extSize (oid : Bytes) (critical : Bool) (content : Nat) (tagged : Bool) : Nat :=
  structSize (structSize oid.length true + (if critical then structSize 1 true else 0) +
    structSize content true) tagged

/-- `encode_extension_header`, dpe/src/x509.rs:574-597. -/
def encExtHeader (oid : Bytes) (critical : Option UInt8) (content : Nat) : Enc :=
  Enc.all ([encByte tagSequence, encSize (extSize oid critical.isSome content false), encOid oid] ++
    (match critical with
      | some v => [encByte tagBool, encSize 1, encByte v]
      | none => []) ++
    [encByte tagOctetString, encSize content])

/-- `if self.crit_dice { Some(0xFF) } else { None }`, dpe/src/x509.rs:1490. -/
def critByte (crit : Bool) : Option UInt8 := if crit then some 0xFF else none

/-- `get_multi_tcb_info_size`, dpe/src/x509.rs:601-630. -/
def multiTcbSize (p : Profile) (crit : Bool) (md : MeasData cfg) (tagged : Bool) : Except Err Nat :=
  match ChainIter.new md.start md.contexts with
  | .error e => .error e
  | .ok it =>
    if it.pathLen == 0 then .error (.internal .emptyTciNodes)
    else
      match md.firstNode with
      | .error e => .error e
      | .ok t =>
        .ok (extSize oidMultiTcb crit
          (structSize (it.pathLen * tcbInfoSize p t md.recursive true) true) tagged)

/-- Size of the content of the Ueid extension, dpe/src/x509.rs:637-640 and 1513-1516. -/
def ueidContent (md : MeasData cfg) : Nat := structSize (structSize md.label.length true) true

/-- `get_ueid_size`, dpe/src/x509.rs:634-643. -/
def ueidSize (crit : Bool) (md : MeasData cfg) (tagged : Bool) : Nat :=
  extSize oidUeid crit (ueidContent md) tagged

/-- `encode_ueid`, dpe/src/x509.rs:1512-1530. -/
def encUeid (crit : Bool) (md : MeasData cfg) : Enc :=
  Enc.all [encExtHeader oidUeid (critByte crit) (ueidContent md),
    encByte tagSequence, encSize (structSize md.label.length true),
    encTlv tagOctetString md.label]

/-- `ca_size`, dpe/src/x509.rs:650-654 and 1538-1542. -/
def caSize (md : MeasData cfg) : Nat := if md.isCa then structSize 1 true else 0

/-- `get_basic_constraints_size`, dpe/src/x509.rs:647-658. -/
def basicSize (md : MeasData cfg) (tagged : Bool) : Nat :=
  extSize oidBasic true (structSize (caSize md) true) tagged

/-- `encode_basic_constraints`, dpe/src/x509.rs:1535-1557. -/
def encBasic (md : MeasData cfg) : Enc :=
  Enc.all ([encExtHeader oidBasic (some 0xFF) (structSize (caSize md) true),
    encByte tagSequence, encSize (caSize md)] ++
    (if md.isCa then [encByte tagBool, encSize 1, encByte 0xFF] else []))

/-- `get_key_usage_size`, dpe/src/x509.rs:662-667. -/
def keyUsageSize (tagged : Bool) : Nat := extSize oidKeyUsage true (structSize 2 true) tagged

/-- `encode_key_usage`, dpe/src/x509.rs:1562-1590 (`KeyUsageFlags`, 169-176). -/
def encKeyUsage (isCa : Bool) : Enc :=
  Enc.all [encExtHeader oidKeyUsage (some 0xFF) (structSize 2 true),
    encByte tagBitString, encSize 2,
    encByte (if isCa then 2 else 7), encByte (if isCa then 0x80 ||| 0x04 else 0x80)]

/-- The key purpose, dpe/src/x509.rs:672-676 and 1601-1605. -/
def purposeOid (md : MeasData cfg) : Bytes := if md.isCa then oidEca else oidAttestLoc

/-- `get_extended_key_usage_size`, dpe/src/x509.rs:671-686. -/
def extKeyUsageSize (md : MeasData cfg) (tagged : Bool) : Nat :=
  extSize oidExtKeyUsage true (structSize (structSize (purposeOid md).length true) true) tagged

/-- `encode_extended_key_usage`, dpe/src/x509.rs:1600-1624. -/
def encExtKeyUsage (md : MeasData cfg) : Enc :=
  Enc.all [encExtHeader oidExtKeyUsage (some 0xFF)
      (structSize (structSize (purposeOid md).length true) true),
    encByte tagSequence, encSize (structSize (purposeOid md).length true), encOid (purposeOid md)]

/-- `get_subject_key_identifier_extension_size`, dpe/src/x509.rs:690-705. -/
def subjectKeyIdSize (md : MeasData cfg) (tagged isX509 : Bool) : Nat :=
  if !md.isCa || !isX509 then 0
  else extSize oidSubjectKeyId false (structSize md.subjectKeyId.length true) tagged

/-- `encode_subject_key_identifier_extension`, dpe/src/x509.rs:1729-1749. -/
def encSubjectKeyId (md : MeasData cfg) (isX509 : Bool) : Enc :=
  if !md.isCa || !isX509 then Enc.all []
  else Enc.all [encExtHeader oidSubjectKeyId none (structSize md.subjectKeyId.length true),
    encTlv tagOctetString md.subjectKeyId]

/-- `get_key_identifier_size`, dpe/src/x509.rs:877-884; `get_subject_key_identifier_size`,
862-873, and `get_econtent_size`, 887-892, are the same function of the length. -/
def keyIdSize (n : Nat) (tagged explicit : Bool) : Nat := structSize (structSize n explicit) tagged

/-- `get_authority_key_identifier_extension_size`, dpe/src/x509.rs:709-728. -/
def authorityKeyIdSize (md : MeasData cfg) (tagged isX509 : Bool) : Nat :=
  if !isX509 then 0
  else extSize oidAuthorityKeyId false
    (structSize (keyIdSize md.authorityKeyId.length true false) true) tagged

/-- `encode_authority_key_identifier_extension`, dpe/src/x509.rs:1703-1727, with
`encode_key_identifier`, 1954-1957. -/
def encAuthorityKeyId (md : MeasData cfg) (isX509 : Bool) : Enc :=
  if !isX509 then Enc.all []
  else Enc.all [encExtHeader oidAuthorityKeyId none
      (structSize (keyIdSize md.authorityKeyId.length true false) true),
    encByte tagSequence, encSize (keyIdSize md.authorityKeyId.length true false),
    encTlv (tagContext ||| 0x0) md.authorityKeyId]

/-- `get_other_name_value_size`, dpe/src/x509.rs:761-766. -/
def otherValueSize (n : Nat) (tagged explicit : Bool) : Nat :=
  structSize (structSize n explicit) tagged

/-- `get_other_name_size`, dpe/src/x509.rs:750-759. -/
def otherNameSize (o : OtherName) (tagged : Bool) : Nat :=
  structSize (structSize o.oid.length true + otherValueSize o.name.length true true) tagged

/-- `get_subject_alt_name_extension_size`, dpe/src/x509.rs:730-748. -/
def altNameSize (md : MeasData cfg) (tagged : Bool) : Nat :=
  match md.altName with
  | none => 0
  | some o => extSize oidSubjectAltName false (structSize (otherNameSize o true) true) tagged

/-- `encode_other_name_value`, dpe/src/x509.rs:1627-1640. -/
def encOtherValue (v : Bytes) : Enc :=
  Enc.all [encByte (tagContext ||| tagConstructed ||| 0x0),
    encSize (otherValueSize v.length true false), encTlv tagUtf8 v]

/-- `encode_other_name`, dpe/src/x509.rs:1647-1658. -/
def encOtherName (o : OtherName) : Enc :=
  Enc.all [encByte (tagContext ||| tagConstructed ||| 0x0), encSize (otherNameSize o false),
    encOid o.oid, encOtherValue o.name]

/-- `encode_subject_alt_name_extension`, dpe/src/x509.rs:1677-1696. -/
def encAltName (md : MeasData cfg) : Enc :=
  match md.altName with
  | none => Enc.all []
  | some o => Enc.all [encExtHeader oidSubjectAltName none (structSize (otherNameSize o true) true),
      encByte tagSequence, encSize (otherNameSize o true), encOtherName o]

/-- `get_extensions_size`, dpe/src/x509.rs:769-797. -/
def extsSize (p : Profile) (crit : Bool) (md : MeasData cfg) (tagged explicit isX509 : Bool) :
    Except Err Nat :=
  match multiTcbSize p crit md true with
  | .error e => .error e
  | .ok m =>
    let size := m + ueidSize crit md true + basicSize md true + keyUsageSize true +
      extKeyUsageSize md true + subjectKeyIdSize md true isX509 +
      authorityKeyIdSize md true isX509 + altNameSize md true
    .ok (structSize (structSize size explicit) tagged)

/-! ### Encoders that can fail -/

/-- Encoders with errors and signing: `fn(&mut self, ..) -> Result<_, DpeErrorCode>`.  `σ` is the
world behind the signing callback.  Errors do not undo what was written. -/
def W (σ α : Type) := Writer × σ → Except Err α × (Writer × σ)

namespace W
variable {α β : Type}

/-- Sequencing with `?`. -/
protected def bind (x : W σ α) (f : α → W σ β) : W σ β := fun s =>
  match x s with
  | (.ok a, s') => f a s'
  | (.error e, s') => (.error e, s')

instance : Monad (W σ) where
  pure a := fun s => (.ok a, s)
  bind := W.bind

/-- An encoder that cannot fail. -/
def enc (e : Enc) : W σ Nat := fun s => (.ok (e s.1).1, ((e s.1).2, s.2))

/-- Use of a pure `Result` with `?`. -/
def lift (x : Except Err α) : W σ α := fun s => (x, s)

/-- Read the writer. -/
def get : W σ Writer := fun s => (.ok s.1, s)

/-- `push_backtrack`, dpe/src/x509.rs:306-312 (`MAX_BACKTRACKS` = 10, line 56). -/
def push (skip : Nat) : W σ Nat := fun (w, x) =>
  if w.backtracks.length < 10 then
    (.ok (w.offset + skip),
      ({ w with backtracks := (w.offset, w.offset + skip) :: w.backtracks,
                offset := w.offset + skip }, x))
  else (.error .x509SkipsExhausted, (w, x))

/-- `pop_backtrack`, dpe/src/x509.rs:321-333.  The entry is gone even when its width is wrong. -/
def pop (width : Nat) : W σ Unit := fun (w, x) =>
  if w.saved.isNone then (.error .x509InvalidState, (w, x))
  else
    match w.backtracks with
    | [] => (.error .x509InvalidState, (w, x))
    | (a, b) :: rest =>
      if b - a != width then (.error .x509InvalidWidth, ({ w with backtracks := rest }, x))
      else (.ok (), ({ w with backtracks := rest, offset := a }, x))

/-- `start_backtrack`, dpe/src/x509.rs:338-344. -/
def start : W σ Unit := fun (w, x) =>
  if w.saved.isSome then (.error .x509InvalidState, (w, x))
  else (.ok (), ({ w with saved := some w.offset }, x))

/-- `end_backtrack`, dpe/src/x509.rs:347-354. -/
def finish : W σ Unit := fun (w, x) =>
  match w.saved with
  | none => (.error .x509InvalidState, (w, x))
  | some o => (.ok (), ({ w with offset := o, saved := none }, x))

/-- `check_not_truncated`, dpe/src/x509.rs:979-985. -/
def checkFits : W σ Unit := fun (w, x) =>
  if w.offset > w.buf.length then (.error (.internal .certSizeOverflow), (w, x))
  else (.ok (), (w, x))

end W

/-- `SIZE_TAG_OFFSET`, dpe/src/x509.rs:61. -/
def sizeTagOffset : Nat := 3

/-- The signing callback (`SignCallback`): the bytes of the range of the response buffer, and
whether to use the derived key.  Simplification: the callback receives the bytes of the range
instead of the buffer and the range; `Verif.Proofs.X509Emit` shows that the range always lies
inside the buffer when the callback runs. -/
def SignCb (σ : Type) := Bytes → Bool → σ → Except CryptoErr Sig × σ

/-- `sign_cb(&*self.certificate, a..b, use_derived)` followed by `?`. -/
def W.sign (cb : SignCb σ) (a b : Nat) (derived : Bool) : W σ Sig := fun (w, x) =>
  match cb ((w.buf.drop a).take (b - a)) derived x with
  | (.ok s, x') => (.ok s, (w, x'))
  | (.error e, x') => (.error (.crypto e), (w, x'))

/-- The loop over the TcbInfos, dpe/src/x509.rs:1499-1504. -/
def tcbLoop (p : Profile) (recursive : Bool) : List (Except Err (Context cfg)) → W σ Nat
  | [] => pure 0
  | x :: xs => do
    let c ← W.lift x
    let n ← W.enc (encTcbInfo p c.tci recursive)
    let m ← tcbLoop p recursive xs
    pure (n + m)

/-- `encode_multi_tcb_info`, dpe/src/x509.rs:1473-1507. -/
def encMultiTcb (p : Profile) (crit : Bool) (md : MeasData cfg) : W σ Nat := do
  let size ← W.lift (tcbInfosSize p md)
  let n ← W.enc (Enc.all [encExtHeader oidMultiTcb (critByte crit) (structSize size true),
    encByte tagSequence, encSize size])
  let it ← W.lift (ChainIter.new md.start md.contexts)
  let m ← tcbLoop p md.recursive (it.backItems md.contexts (cfg.maxHandles + 2))
  pure (n + m)

/-- The explicit `[3]` wrapper of `encode_extensions`, dpe/src/x509.rs:1757-1766. -/
def encExtsWrapper (p : Profile) (crit : Bool) (md : MeasData cfg) (isX509 : Bool) : W σ Nat :=
  if isX509 then do
    let n ← W.enc (encByte (tagContext ||| tagConstructed ||| 0x03))
    let size ← W.lift (extsSize p crit md true false isX509)
    let m ← W.enc (encSize size)
    pure (n + m)
  else pure 0

/-- `encode_extensions`, dpe/src/x509.rs:1751-1787. -/
def encExts (p : Profile) (crit : Bool) (md : MeasData cfg) (isX509 : Bool) : W σ Nat := do
  let n ← encExtsWrapper p crit md isX509
  let t ← W.enc (encByte tagSequence)
  let size ← W.lift (extsSize p crit md false false isX509)
  let l ← W.enc (encSize size)
  let m ← encMultiTcb p crit md
  let r ← W.enc (Enc.all [encUeid crit md, encBasic md, encKeyUsage md.isCa, encExtKeyUsage md,
    encSubjectKeyId md isX509, encAuthorityKeyId md isX509, encAltName md])
  pure (n + t + l + m + r)

/-- `encode_rdn`, dpe/src/x509.rs:1062-1102. -/
def encRdnChecked (n : Name) : W σ Nat := do
  let k ← W.enc (encRdn n)
  W.checkFits
  pure k

/-- The subjectPublicKeyInfo switch, dpe/src/x509.rs:2083-2102 and 2264-2283. -/
def encSpki (p : Profile) (k : PubKey) : W σ Nat :=
  match k, p with
  | .p256 x y, .p256 => W.enc (encEcSpki x.toList y.toList oidCurve256)
  | .p256 x y, .p384 => W.enc (encEcSpki x.toList y.toList oidCurve384)
  | .p256 _ _, .mldsa87 => W.lift (.error .invalidArgument)
  | .p384 x y, .p256 => W.enc (encEcSpki x.toList y.toList oidCurve256)
  | .p384 x y, .p384 => W.enc (encEcSpki x.toList y.toList oidCurve384)
  | .p384 _ _, .mldsa87 => W.lift (.error .invalidArgument)
  | .mldsa k, p => W.enc (encMldsaSpki p k.toList)

/-- Backfilling one size field: `start_backtrack`, `pop_backtrack(get_size_width(n))`,
`encode_size_field(n)`, `end_backtrack` (dpe/src/x509.rs:2108-2113, 2216-2223, 2289-2294); returns
the width. -/
def backfill (n : Nat) : W σ Nat := do
  W.start
  W.pop (sizeWidth n)
  let k ← W.enc (encSize n)
  W.finish
  pure k

/-- The arguments of `encode_tbs` and `encode_certification_request_info`. -/
structure CertData (cfg : Cfg) where
  serial : Bytes
  issuer : Bytes
  subject : Name
  pubKey : PubKey
  meas : MeasData cfg
  validity : Validity

/-- `encode_tbs`, dpe/src/x509.rs:2047-2117. -/
def encTbs (p : Profile) (crit : Bool) (d : CertData cfg) : W σ Nat := do
  let pre ← W.enc (encByte tagSequence)
  let _ ← W.push sizeTagOffset
  let a ← W.enc (Enc.all [encVersion, encIntBytes d.serial true, encSigAlg p, encBytes d.issuer,
    encValidity d.validity])
  let b ← encRdnChecked d.subject
  let c ← encSpki p d.pubKey
  let e ← encExts p crit d.meas true
  let k ← backfill (a + b + c + e)
  W.checkFits
  pure (pre + k + (a + b + c + e))

/-- `get_attribute_size`, dpe/src/x509.rs:897-915. -/
def attributeSize (p : Profile) (crit : Bool) (md : MeasData cfg) (tagged : Bool) : Except Err Nat :=
  match extsSize p crit md true false false with
  | .error e => .error e
  | .ok n => .ok (structSize (structSize oidData.length true + structSize n true) tagged)

/-- `get_attributes_size`, dpe/src/x509.rs:920-928. -/
def attributesSize (p : Profile) (crit : Bool) (md : MeasData cfg) (tagged : Bool) :
    Except Err Nat :=
  match attributeSize p crit md true with
  | .error e => .error e
  | .ok n => .ok (structSize n tagged)

/-- `encode_attributes`, dpe/src/x509.rs:1815-1840. -/
def encAttributes (p : Profile) (crit : Bool) (md : MeasData cfg) : W σ Nat := do
  let a ← W.enc (encByte (tagContext ||| tagConstructed ||| 0x0))
  let n1 ← W.lift (attributesSize p crit md false)
  let b ← W.enc (Enc.all [encSize n1, encByte tagSequence])
  let n2 ← W.lift (attributeSize p crit md false)
  let c ← W.enc (Enc.all [encSize n2, encOid oidExtRequest, encByte tagSetOf])
  let n3 ← W.lift (extsSize p crit md true false false)
  let d ← W.enc (encSize n3)
  let e ← encExts p crit md false
  pure (a + b + c + d + e)

/-- `encode_certification_request_info`, dpe/src/x509.rs:2247-2298 (`CSR_V0` = 0). -/
def encCri (p : Profile) (crit : Bool) (d : CertData cfg) : W σ Nat := do
  let pre ← W.enc (encByte tagSequence)
  let _ ← W.push sizeTagOffset
  let a ← W.enc (encInt 0 true)
  let b ← encRdnChecked d.subject
  let c ← encSpki p d.pubKey
  let e ← encAttributes p crit d.meas
  let k ← backfill (a + b + c + e)
  W.checkFits
  pure (pre + k + (a + b + c + e))

/-- The match on `SignedPayload` in `encode_signed_payload`, dpe/src/x509.rs:2174-2202. -/
def encPayload (p : Profile) (crit : Bool) (d : CertData cfg) (csr : Bool) : W σ Nat :=
  if csr then encCri p crit d else encTbs p crit d

/-- `encode_signed_payload`, dpe/src/x509.rs:2166-2228; `csr` selects the payload. -/
def encSigned (cb : SignCb σ) (p : Profile) (crit : Bool) (d : CertData cfg) (csr : Bool) :
    W σ Nat := do
  let pre ← W.enc (encByte tagSequence)
  let off ← W.push sizeTagOffset
  let n ← encPayload p crit d csr
  let sig ← W.sign cb off (off + n) csr
  let m ← W.enc (encSigBits p sig)
  let k ← backfill (n + m)
  pure (n + m + (pre + k))

/-- `encode_certificate`, dpe/src/x509.rs:2129-2153, and `encode_csr`, 2310-2328. -/
def encCertOrCsr (cb : SignCb σ) (p : Profile) (crit : Bool) (d : CertData cfg) (csr : Bool) :
    W σ Nat := do
  let n ← encSigned cb p crit d csr
  W.checkFits
  pure n

/-! ### The CMS wrapper -/

/-- `encode_cms_version`, dpe/src/x509.rs:1793-1801 (`CMS_V1` = 1, `CMS_V3` = 3). -/
def cmsVersion : SignerId → Nat
  | .issuerAndSerial _ _ => 1
  | .subjectKeyId _ => 3

/-- `get_issuer_and_serial_number_size`, dpe/src/x509.rs:848-857. -/
def issuerSerialSize (serial issuer : Bytes) (tagged : Bool) : Nat :=
  structSize (intBytesSize serial true + issuer.length) tagged

/-- `get_signer_identifier_size`, dpe/src/x509.rs:825-843. -/
def signerIdSize (sid : SignerId) (tagged : Bool) : Nat :=
  match sid with
  | .issuerAndSerial issuer serial => issuerSerialSize serial issuer tagged
  | .subjectKeyId k => keyIdSize k.length tagged true

/-- `get_signer_info_size`, dpe/src/x509.rs:814-820, with `get_cms_version_size`, 801-809. -/
def signerInfoSize (p : Profile) (sig : Sig) (sid : SignerId) (tagged : Bool) : Nat :=
  structSize (intSize (cmsVersion sid) true + signerIdSize sid true + hashAlgSize p true +
    sigOctetsSize p sig true) tagged

/-- `encode_signer_identifier`, dpe/src/x509.rs:1887-1897, with
`encode_issuer_and_serial_number`, 1906-1928, and `encode_subject_key_identifier`, 1935-1948. -/
def encSignerId : SignerId → Enc
  | .issuerAndSerial issuer serial =>
    Enc.all [encByte tagSequence, encSize (issuerSerialSize serial issuer false), encBytes issuer,
      encIntBytes serial true]
  | .subjectKeyId k =>
    Enc.all [encByte (tagContext ||| 0x0), encSize (keyIdSize k.length true false),
      encTlv tagOctetString k]

/-- `encode_signer_info`, dpe/src/x509.rs:1854-1878, without the final truncation check. -/
def encSignerInfo (p : Profile) (sig : Sig) (sid : SignerId) : Enc :=
  Enc.all [encByte tagSequence, encSize (signerInfoSize p sig sid false),
    encInt (cmsVersion sid) true, encSignerId sid, encHashAlg p, encSigOctets p sig]

/-- `self.csr_range = Some(..)`, dpe/src/x509.rs:1989. -/
def W.setCsrRange (a b : Nat) : W σ Unit := fun (w, x) =>
  (.ok (), ({ w with csrRange := some (a, b) }, x))

/-- The backfilling of the three size fields of `encode_encapsulated_content_info`,
dpe/src/x509.rs:2003-2015; `bw` is `bytes_written` before it. -/
def backfillEncap (csr bw : Nat) : W σ Nat := do
  W.start
  W.pop (sizeWidth (keyIdSize csr false false))
  let a ← W.enc (encSize (keyIdSize csr false false))
  W.pop (sizeWidth (keyIdSize csr true false))
  let b ← W.enc (encSize (keyIdSize csr true false))
  W.pop (sizeWidth (bw + a + b + csr))
  let c ← W.enc (encSize (bw + a + b + csr))
  W.finish
  pure (bw + a + b + csr + (1 + c))

/-- `encode_encapsulated_content_info`, dpe/src/x509.rs:1967-2018. -/
def encEncap (cb : SignCb σ) (p : Profile) (crit : Bool) (d : CertData cfg) : W σ Nat := do
  let _ ← W.enc (encByte tagSequence)
  let _ ← W.push sizeTagOffset
  let a ← W.enc (Enc.all [encOid oidData, encByte (tagContext ||| tagConstructed ||| 0x0)])
  let _ ← W.push sizeTagOffset
  let b ← W.enc (encByte tagOctetString)
  let off ← W.push sizeTagOffset
  let csr ← encCertOrCsr cb p crit d true
  W.setCsrRange off (off + csr)
  backfillEncap csr (a + b)

/-- `csr_range.ok_or(X509CsrUnset)?`, dpe/src/x509.rs:2387. -/
def W.csrRange : W σ (Nat × Nat) := fun (w, x) =>
  match w.csrRange with
  | some r => (.ok r, (w, x))
  | none => (.error .x509CsrUnset, (w, x))

/-- The final backfilling of `encode_cms`, dpe/src/x509.rs:2407-2419. -/
def backfillCms (f1 f0 ci : Nat) : W σ Unit := do
  W.start
  W.pop (sizeWidth f1)
  let _ ← W.enc (encSize f1)
  W.pop (sizeWidth f0)
  let _ ← W.enc (encSize f0)
  W.pop (sizeWidth ci)
  let _ ← W.enc (encSize ci)
  W.finish

/-- `if !self.backtracks.is_empty() { return Err(X509InvalidState) }`,
dpe/src/x509.rs:2421-2423. -/
def W.checkPopped : W σ Unit := fun (w, x) =>
  if w.backtracks.isEmpty then (.ok (), (w, x)) else (.error .x509InvalidState, (w, x))

/-- `encode_cms`, dpe/src/x509.rs:2338-2427. -/
def encCms (cb : SignCb σ) (p : Profile) (crit : Bool) (d : CertData cfg) (sid : SignerId) :
    W σ Nat := do
  let pre ← W.enc (encByte tagSequence)
  let _ ← W.push sizeTagOffset
  let body ← W.enc (Enc.all [encOid oidSignedData, encByte (tagContext ||| tagConstructed ||| 0x0)])
  let _ ← W.push sizeTagOffset
  let sdPre ← W.enc (encByte tagSequence)
  let _ ← W.push sizeTagOffset
  let a ← W.enc (Enc.all [encInt (cmsVersion sid) true, encByte tagSetOf,
    encSize (hashAlgSize p true), encHashAlg p])
  let b ← encEncap cb p crit d
  let r ← W.csrRange
  let sig ← W.sign cb r.1 r.2 false
  let c ← W.enc (Enc.all [encByte tagSetOf, encSize (signerInfoSize p sig sid true),
    encSignerInfo p sig sid])
  W.checkFits
  let f1 := a + b + c
  let f0 := sdPre + sizeTagOffset + f1
  let ci := body + sizeTagOffset + f0
  backfillCms f1 f0 ci
  W.checkPopped
  W.checkFits
  pure (pre + sizeTagOffset + ci)

/-! ### Certificate generation -/

/-- `Digest::write_hex_str`, crypto/src/lib.rs:225-244 (upper-case digits), into a zeroed buffer of
`n` bytes.  The checks inside the loop cannot fail. -/
def hexDigit (n : Nat) : UInt8 := UInt8.ofNat (if n < 10 then 48 + n else 55 + n)
@[inherit_doc hexDigit] def hexString (d : Bytes) : Bytes :=
  d.flatMap (fun b => [hexDigit (b.toNat / 16), hexDigit (b.toNat % 16)])
@[inherit_doc hexDigit] def writeHex (n : Nat) (d : Bytes) : Except Err Bytes :=
  if n < d.length * 2 then .error (.crypto .size)
  else .ok (hexString d ++ List.replicate (n - d.length * 2) 0)

/-- The public key as hashed: `[0x04, x, y]` or the raw ML-DSA key, crypto/src/lib.rs:446-453 and
dpe/src/x509.rs:2510-2517. -/
def PubKey.chunks : PubKey → List Bytes
  | .p256 x y => [[0x04], x.toList, y.toList]
  | .p384 x y => [[0x04], x.toList, y.toList]
  | .mldsa k => [k.toList]

/-- Whether the public key is an ML-DSA key. -/
def PubKey.isMldsa : PubKey → Bool
  | .mldsa _ => true
  | _ => false

/-- `CryptoSuite::get_pubkey_serial`, crypto/src/lib.rs:435-459, with a zeroed buffer of
`n` bytes. -/
def pubkeySerial (ops : Ops σ) (k : PubKey) (n : Nat) : M cfg σ Bytes := do
  M.failIf (decide (n < ops.digestSize * 2)) (.crypto .size)
  M.failIf (k.isMldsa != ops.sigAlgMldsa) (.crypto .mismatchedAlgorithm)
  let d ← hashAll ops k.chunks
  M.lift (writeHex n d)

/-- `CertificateType`, dpe/src/x509.rs:2436-2439: whether the kind is `Exported`. -/
def CertKind.exported : CertKind → Bool
  | .exportedX509 => true
  | _ => false

/-- `get_subject_name`, dpe/src/x509.rs:2481-2502 (`MAX_HASH_SIZE` = 48; the serial number string
is cut to 64 bytes). -/
def subjectName (ops : Ops σ) (exported : Bool) (k : PubKey) : M cfg σ Name := do
  let s ← pubkeySerial ops k 96
  pure { cn := .printable (if exported then ascii "DPE Exported CDI" else ascii "DPE Leaf"),
         serial := .printable (s.take 64) }

/-- `get_subject_key_identifier`, dpe/src/x509.rs:2504-2524
(`MAX_KEY_IDENTIFIER_SIZE` = 20). -/
def subjectKeyIdOf (ops : Ops σ) (k : PubKey) : M cfg σ Bytes := do
  let d ← hashAll ops k.chunks
  M.failIf (decide (d.length < 20)) (.internal .keyIdHashTooSmall)
  pure (d.take 20)

/-- The optional SubjectAltName, dpe/src/x509.rs:2716-2720. -/
def getAltName (ops : Ops σ) : M cfg σ (Option OtherName) := fun s =>
  match ops.subjectAltName s.w with
  | (.ok a, w') => (.ok (some a), { s with w := w' })
  | (.error .notImplemented, w') => (.ok none, { s with w := w' })
  | (.error e, w') => (.error (.platform e), { s with w := w' })

/-- The key that a certificate certifies, dpe/src/x509.rs:2684-2695, and the exported CDI handle. -/
def certKey (ops : Ops σ) (exported : Bool) (a : CertArgs) (digest : Bytes) :
    M cfg σ (PubKey × Option (BArr 32)) :=
  if exported then do
    let h ← M.crypto (ops.deriveExportedCdi digest a.cdiLabel)
    let key ← M.crypto (ops.deriveKeyPairExported h a.keyLabel a.context)
    let k ← M.crypto (ops.publicKey key)
    pure (k, some h)
  else do
    let cdi ← M.crypto (ops.deriveCdi digest a.cdiLabel)
    let key ← M.crypto (ops.deriveKeyPair cdi a.keyLabel a.context)
    let k ← M.crypto (ops.publicKey key)
    pure (k, none)

/-- Two trait calls in a row. -/
def thenCall {α β : Type} (f : σ → Except CryptoErr α × σ)
    (g : α → σ → Except CryptoErr β × σ) : σ → Except CryptoErr β × σ := fun x =>
  match f x with
  | (.ok a, x') => g a x'
  | (.error e, x') => (.error e, x')

/-- The closure `sign_cb`, dpe/src/x509.rs:2745-2768. -/
def signCb (ops : Ops σ) (a : CertArgs) (digest : Bytes) (exported : Bool)
    (handle : Option (BArr 32)) : SignCb σ := fun data derived x =>
  if derived then
    if exported then
      match handle with
      | none => (.error (.cryptoLibError 0), x)
      | some h =>
        thenCall (ops.deriveKeyPairExported h a.keyLabel a.context)
          (fun key => ops.sign key (.buffer data)) x
    else
      thenCall (ops.deriveCdi digest a.cdiLabel)
        (fun cdi => thenCall (ops.deriveKeyPair cdi a.keyLabel a.context)
          (fun key => ops.sign key (.buffer data))) x
  else ops.signAlias (.buffer data) x

/-- `u32::try_from(bytes_written)`, dpe/src/x509.rs:2647-2648 and 2665-2666. -/
def toU32 (n : Nat) (e : Internal) : Except Err U32 :=
  if n < 4294967296 then .ok (BitVec.ofNat 32 n) else .error (.internal e)

/-- Run the writer on the response window. -/
def runWriter {α : Type} (m : W σ α) : M cfg σ α := fun s =>
  match m (Writer.new s.out, s.w) with
  | (r, (w', x')) => (r, { s with w := x', out := w'.buf })

/-- `generate_cert_or_csr`, dpe/src/x509.rs:2610-2669.  The serial number is the first 20 bytes of
the subject's serial number string. -/
def generate (cb : SignCb σ) (p : Profile) (crit : Bool) (d : CertData cfg) (sid : Option SignerId) :
    M cfg σ U32 :=
  match sid with
  | none => do
    M.failIf (decide (d.subject.serial.bytes.length < 20)) (.internal .serialNumberSliceOob)
    let n ← runWriter (encCertOrCsr cb p crit { d with serial := d.subject.serial.bytes.take 20 } false)
    M.lift (toU32 n .certSizeOverflow)
  | some sid => do
    let n ← runWriter (encCms cb p crit d sid)
    M.lift (toU32 n .csrSizeOverflow)

/-- The issuer name, dpe/src/x509.rs:2775-2781. -/
def getIssuer (ops : Ops σ) : M cfg σ Bytes := do
  let r ← M.platform ops.issuerName
  M.failIf (decide (r.1 > 128)) (.internal .issuerNameTooLong)
  pure (r.2.toList.take r.1)

/-- The format-specific part, dpe/src/x509.rs:2773-2801. -/
def finishCert (ops : Ops σ) (cb : SignCb σ) (kind : CertKind) (crit : Bool) (d : CertData cfg)
    (sid : SignerId) : M cfg σ U32 :=
  if kind = .leafCsr then generate cb cfg.profile crit d (some sid)
  else do
    let issuer ← getIssuer ops
    generate cb cfg.profile crit { d with issuer := issuer } none

/-- The measurement data, dpe/src/x509.rs:2722-2743. -/
def measData (st : State cfg) (idx : Nat) (exported : Bool) (a : CertArgs) (ski : Bytes)
    (aki : BArr 20) (alt : Option OtherName) : MeasData cfg :=
  { start := idx, contexts := st.contexts, label := a.ueid, isCa := exported,
    recursive := if exported then false else recursiveBit st.support,
    subjectKeyId := ski, authorityKeyId := aki.toList, altName := alt }

/-- `create_dpe_cert_or_csr`, dpe/src/x509.rs:2671-2816, with `get_dpe_measurement_digest`,
2470-2479. -/
def createCert (ops : Ops σ) (kind : CertKind) (a : CertArgs) : M cfg σ CertResult := do
  let st ← M.get
  let idx ← M.lift (st.findActive a.handle a.locality)
  let digest ← computeMeasurementHash ops idx
  let (k, h) ← certKey ops kind.exported a digest
  let subject ← subjectName ops kind.exported k
  let ski ← subjectKeyIdOf ops k
  let aki ← M.platform ops.issuerKeyId
  let alt ← getAltName ops
  let st ← M.get
  let idx' ← M.lift (st.findActive a.handle a.locality)
  M.lift (tciNodesNew idx' st.contexts)
  let validity ← M.platform ops.certValidity
  let sid ← M.platform ops.signerId
  let n ← finishCert ops (signCb ops a digest kind.exported h) kind a.critDice
    { serial := [], issuer := [], subject := subject, pubKey := k,
      meas := measData st idx' kind.exported a ski aki alt, validity := validity } sid
  if kind.exported then do
    let h ← M.okOr h (.internal .missingExportedCdiHandle)
    pure { certSize := n, pubKey := k, exportedCdi := h }
  else pure { certSize := n, pubKey := k, exportedCdi := Vector.replicate 32 0 }

/-- The environment whose certificate generator is the modelled `create_dpe_cert_or_csr`. -/
def Ops.env (cfg : Cfg) (ops : Ops σ) : Env cfg σ where
  toOps := ops
  certGen kind args st w win :=
    match createCert ops kind args ⟨st, w, win⟩ with
    | (r, s') => ((r, s'.w), s'.out)

end Dpe
