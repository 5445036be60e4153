/-
Basic types of the model: bytes, configuration, errors, and the command monad.
Every definition cites the Rust code (paths relative to /repo) that it models.
-/
namespace Dpe

/-- Byte strings (`&[u8]`). -/
abbrev Bytes := List UInt8

/-- `u32` values (localities, types, SVNs, flag words). -/
abbrev U32 := BitVec 32

/-- Fixed-size byte arrays (`[u8; n]`). -/
abbrev BArr (n : Nat) := Vector UInt8 n

/-- `DpeProfile`, dpe/src/lib.rs:88-101. -/
inductive Profile
  | p256
  | p384
  | mldsa87
  deriving DecidableEq, Repr

/-- `DpeProfile as u32`, dpe/src/lib.rs:93-100. -/
def Profile.code : Profile → U32
  | .p256 => 3
  | .p384 => 4
  | .mldsa87 => 5

/-- ASCII bytes of a Rust byte-string literal such as `b"ECC"`. -/
def ascii (s : String) : Bytes := s.toList.map (fun c => UInt8.ofNat c.toNat)

/-- `DpeProfile::key_context`, dpe/src/lib.rs:135-144. -/
def Profile.keyContext : Profile → Bytes
  | .p256 => [0x45, 0x43, 0x43]
  | .p384 => [0x45, 0x43, 0x43]
  | .mldsa87 => [0x4d, 0x4c, 0x44, 0x53, 0x41]

/-- Build configuration: `MAX_HANDLES` (dpe/build.rs, bound from
dpe/src/context.rs:54-58), `TCI_SIZE` (dpe/src/lib.rs:153-157), the profile the
instance was created with, the support bits removed at compile time
(`disable_*` features, dpe/src/support.rs:57-102), and `MAX_CERT_SIZE` (dpe/build.rs).
`diceFuel` bounds the number of certificate-chain chunks read by
`compute_measurement_hash`; the Rust loop has no bound, see `diceLoop`.
Simplification: `TCI_SIZE` and `MAX_CERT_SIZE` are left arbitrary. -/
structure Cfg where
  maxHandles : Nat
  tciSize : Nat
  profile : Profile
  disabled : U32
  maxCertSize : Nat
  diceFuel : Nat
  pos : 0 < maxHandles
  le64 : maxHandles ≤ 64

/-- `InternalErrorCode`, dpe/src/error.rs:29-67. -/
inductive Internal
  | deriveCtxRespSliceOob | certifyKeyCertSliceOob | certifyKeyP256RespSliceOob
  | certifyKeyP384RespSliceOob | certifyKeyMldsa87RespSliceOob | asn1SizeOverflow
  | emptyTciNodes | encodeBytesOverflow | encodeBytesSliceOob | encodeByteOverflow
  | integerOffsetOob | tbsSliceOob | csrTbsSliceOob | cmsCsrRangeOob | tcbCountOverflow
  | keyIdHashTooSmall | serialNumberSliceOob | certSizeOverflow | csrSizeOverflow
  | issuerNameTooLong | missingExportedCdiHandle | handleGenerationExhausted
  | digestLengthMismatch | inputInfoProfileSliceOob | inputInfoRemainderSliceOob
  | certChainChunkSliceOob | childIndexOob | childrenBitmapIndexOob | parentChainIndexOob
  | contextIndexOob | activeContextNotFound | descendantIndexOob | tciNodeArrayOverflow
  | tciNodeCountExceeded | destroyParentIndexOob | initContextIndexOob
  | responseDeserializationFailed
  deriving DecidableEq, Repr

/-- `PlatformError`, platform/src/lib.rs (the `u32` payloads are kept). -/
inductive PlatErr
  | certificateChainError | notImplemented | issuerNameError (c : U32) | printError (c : U32)
  | serialNumberError (c : U32) | subjectKeyIdentifierError (c : U32)
  | certValidityError (c : U32) | issuerKeyIdentifierError (c : U32)
  | subjectAlternativeNameError (c : U32) | missingUeidError | invalidUeidError
  deriving DecidableEq, Repr

/-- `CryptoError`, crypto/src/lib.rs. -/
inductive CryptoErr
  | abstractionLayer (c : U32) | cryptoLibError (c : U32) | size | notImplemented
  | hashError (c : U32) | invalidExportedCdiHandle | exportedCdiHandleDuplicateCdi
  | exportedCdiHandleLimitExceeded | mismatchedAlgorithm
  deriving DecidableEq, Repr

/-- `ValidationError`, dpe/src/validation.rs:15-43. -/
inductive ValErr
  | multipleNormalConnectedComponents | cyclesInTree | inactiveContextInvalidParent
  | inactiveContextWithChildren | badContextState | badContextType
  | inactiveContextWithMeasurement | mixedContextLocality | multipleDefaultContexts
  | simulationNotSupported | parentDoesNotExist | internalDiceNotSupported
  | internalInfoNotSupported | childDoesNotExist | inactiveContextWithFlagSet
  | localityMismatch | danglingRetiredContext | mixedContextTypeConnectedComponents
  | childWithMultipleParents | parentChildLinksCorrupted | allowCaNotSupported
  | allowX509NotSupported | inactiveParent | inactiveChild | dpeNotMarkedInitialized
  | invalidMarker | versionMismatch
  deriving DecidableEq, Repr

/-- `DpeErrorCode`, dpe/src/error.rs:160-192.  The extra value `panic` stands for a Rust
panic, stack overflow or non-termination; it never appears in the Rust type. -/
inductive Err
  | noError
  | internal (e : Internal)
  | invalidCommand | invalidArgument | sessionExhausted | initializationSeedLocked
  | outOfMemory | cancelledCommand
  | invalidHandle | invalidLocality | handleDefined | argumentNotSupported
  | alreadyInitialized | invalidParentLocality
  | x509CsrUnset | x509InvalidState | x509SkipsExhausted | x509InvalidWidth
  | x509AlgorithmMismatch | maxTcis | invalidMutRefBuf | invalidResponseBuf
  | uninitializedResponseHeader
  | platform (e : PlatErr)
  | crypto (e : CryptoErr)
  | validation (e : ValErr)
  | panic
  deriving DecidableEq, Repr

end Dpe
