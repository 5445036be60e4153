import Verif.Model.Env
/-
Error codes and response serialisation.
-/
namespace Dpe

/-- Little-endian bytes of a `u32` (`to_le_bytes`, and the in-memory layout used by
`IntoBytes` on the little-endian targets of this code). -/
def le32 (x : U32) : Bytes :=
  [⟨x.extractLsb' 0 8⟩, ⟨x.extractLsb' 8 8⟩, ⟨x.extractLsb' 16 8⟩, ⟨x.extractLsb' 24 8⟩]

/-- Little-endian bytes of a `u16`. -/
def le16 (x : BitVec 16) : Bytes := [⟨x.extractLsb' 0 8⟩, ⟨x.extractLsb' 8 8⟩]

/-- `PlatformError::discriminant`, platform/src/lib.rs. -/
def PlatErr.disc : PlatErr → U32
  | .certificateChainError => 1 | .notImplemented => 2 | .issuerNameError _ => 3
  | .printError _ => 4 | .serialNumberError _ => 5 | .subjectKeyIdentifierError _ => 6
  | .certValidityError _ => 7 | .issuerKeyIdentifierError _ => 8
  | .subjectAlternativeNameError _ => 9 | .missingUeidError => 0xA | .invalidUeidError => 0xB

/-- `CryptoError::discriminant`, crypto/src/lib.rs. -/
def CryptoErr.disc : CryptoErr → U32
  | .abstractionLayer _ => 1 | .cryptoLibError _ => 2 | .size => 3 | .notImplemented => 4
  | .hashError _ => 5 | .invalidExportedCdiHandle => 6 | .exportedCdiHandleDuplicateCdi => 7
  | .exportedCdiHandleLimitExceeded => 8 | .mismatchedAlgorithm => 9

/-- `ValidationError` discriminants, dpe/src/validation.rs:15-43. -/
def ValErr.disc : ValErr → U32
  | .multipleNormalConnectedComponents => 0x0 | .cyclesInTree => 0x1
  | .inactiveContextInvalidParent => 0x2 | .inactiveContextWithChildren => 0x3
  | .badContextState => 0x4 | .badContextType => 0x5 | .inactiveContextWithMeasurement => 0x6
  | .mixedContextLocality => 0x7 | .multipleDefaultContexts => 0x8
  | .simulationNotSupported => 0x9 | .parentDoesNotExist => 0xA
  | .internalDiceNotSupported => 0xB | .internalInfoNotSupported => 0xC
  | .childDoesNotExist => 0xD | .inactiveContextWithFlagSet => 0xE | .localityMismatch => 0xF
  | .danglingRetiredContext => 0x10 | .mixedContextTypeConnectedComponents => 0x11
  | .childWithMultipleParents => 0x12 | .parentChildLinksCorrupted => 0x13
  | .allowCaNotSupported => 0x14 | .allowX509NotSupported => 0x15 | .inactiveParent => 0x16
  | .inactiveChild => 0x17 | .dpeNotMarkedInitialized => 0x18 | .invalidMarker => 0x19
  | .versionMismatch => 0x1A

/-- `DpeErrorCode::get_error_code` with `discriminant`, dpe/src/error.rs:160-192, 218-237.
The model-only value `panic` gets no code of its own (a panicking command sends no
response); it is mapped to the internal error code to keep the function total. -/
def Err.code : Err → U32
  | .noError => 0 | .internal _ => 1 | .invalidCommand => 2 | .invalidArgument => 3
  | .sessionExhausted => 4 | .initializationSeedLocked => 5 | .outOfMemory => 6
  | .cancelledCommand => 7 | .invalidHandle => 0x80 | .invalidLocality => 0x81
  | .handleDefined => 0x82 | .argumentNotSupported => 0x83 | .alreadyInitialized => 0x84
  | .invalidParentLocality => 0x85 | .x509CsrUnset => 0x86 | .x509InvalidState => 0x87
  | .x509SkipsExhausted => 0x88 | .x509InvalidWidth => 0x89 | .x509AlgorithmMismatch => 0x90
  | .maxTcis => 0x91 | .invalidMutRefBuf => 0x92 | .invalidResponseBuf => 0x93
  | .uninitializedResponseHeader => 0x94
  | .platform e => 0x01000000 ||| e.disc
  | .crypto e => 0x02000000 ||| e.disc
  | .validation e => 0x03000000 ||| e.disc
  | .panic => 1

/-- `ResponseHdr::DPE_RESPONSE_MAGIC`, dpe/src/response.rs:196 (`b"DPER"`, big-endian). -/
def respMagic : U32 := 0x44504552

/-- `ResponseHdr::new(..).as_bytes()`, dpe/src/response.rs:189-205: magic, status,
profile. -/
def hdrBytes (p : Profile) (e : Err) : Bytes := le32 respMagic ++ le32 e.code ++ le32 p.code

/-- `NewHandleResp::as_bytes`, dpe/src/response.rs:244-247. -/
def newHandleBytes (p : Profile) (h : Handle) : Bytes := hdrBytes p .noError ++ h.toList

/-- `DeriveContextResp::as_bytes`, dpe/src/response.rs:251-255. -/
def deriveBytes (p : Profile) (h parent : Handle) : Bytes :=
  hdrBytes p .noError ++ h.toList ++ parent.toList

/-- `UpdateContextMeasurementResp::as_bytes`, dpe/src/response.rs:260-266. -/
def updateBytes (p : Profile) (child parent : Handle) : Bytes :=
  hdrBytes p .noError ++ child.toList ++ parent.toList

/-- `DeriveContextExportedCdiRespHdr::as_bytes`, dpe/src/response.rs:437-443 (80 bytes). -/
def exportHdrBytes (p : Profile) (h parent : Handle) (cdi : BArr 32) (size : U32) : Bytes :=
  hdrBytes p .noError ++ h.toList ++ parent.toList ++ cdi.toList ++ le32 size

/-- Size of `DeriveContextExportedCdiRespHdr`. -/
def exportHdrSize : Nat := 80

/-- `GetProfileResp::as_bytes`, dpe/src/response.rs:209-240, with versions
from dpe/src/lib.rs:55-56. -/
def profileBytes (cfg : Cfg) (support vid sku : U32) : Bytes :=
  hdrBytes cfg.profile .noError ++ le16 0 ++ le16 13 ++ le32 vid ++ le32 sku ++
    le32 (BitVec.ofNat 32 cfg.maxHandles) ++ le32 support

/-- `SignP256Resp`, `SignP384Resp`, `SignMlDsaResp` `as_bytes`, dpe/src/response.rs:493-517. -/
def signBytes (p : Profile) (h : Handle) : Sig → Bytes
  | .p256 r s => hdrBytes p .noError ++ h.toList ++ r.toList ++ s.toList
  | .p384 r s => hdrBytes p .noError ++ h.toList ++ r.toList ++ s.toList
  | .mldsa s => hdrBytes p .noError ++ h.toList ++ s.toList ++ [0]

/-- `GetCertificateChainResp::as_bytes`, dpe/src/response.rs:521-525. -/
def certChainBytes (p : Profile) (len : U32) (chunk : BArr 2048) : Bytes :=
  hdrBytes p .noError ++ le32 len ++ chunk.toList

/-- Sizes of `CertifyKeyP256RespHdr`, `CertifyKeyP384RespHdr`, `CertifyKeyMldsa87RespHdr`,
dpe/src/response.rs:407-433; `CertifyKeyResponseHeader::hdr_size`, dpe/src/commands/certify_key.rs:348-357. -/
def certifyHdrSize : Profile → Nat
  | .p256 => 12 + 16 + 32 + 32 + 4
  | .p384 => 12 + 16 + 48 + 48 + 4
  | .mldsa87 => 12 + 16 + 2592 + 4

/-- The header written by `CertifyKeyResponseHeader::write_header`,
dpe/src/commands/certify_key.rs:359-412; `none` when the key type does not match. -/
def certifyHdrBytes (variant p : Profile) (h : Handle) (size : U32) : PubKey → Option Bytes
  | .p256 x y =>
    if variant = .p256 then
      some (hdrBytes p .noError ++ h.toList ++ x.toList ++ y.toList ++ le32 size)
    else none
  | .p384 x y =>
    if variant = .p384 then
      some (hdrBytes p .noError ++ h.toList ++ x.toList ++ y.toList ++ le32 size)
    else none
  | .mldsa k =>
    if variant = .mldsa87 then some (hdrBytes p .noError ++ h.toList ++ k.toList ++ le32 size)
    else none

end Dpe
