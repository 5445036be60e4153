import Verif.Model.Wire
import Verif.Spec.Effects
import Verif.Spec.Words
/-
The documented wire format: what a serialised command looks like, which commands an instance
understands, and what a response carries.  Nothing here refers to the decoder.
-/
namespace Dpe
variable {cfg : Cfg} {σ : Type}

/-- The numbers of platform errors. -/
def platformNumber : PlatErr → Nat
  | .certificateChainError => 1
  | .notImplemented => 2
  | .issuerNameError _ => 3
  | .printError _ => 4
  | .serialNumberError _ => 5
  | .subjectKeyIdentifierError _ => 6
  | .certValidityError _ => 7
  | .issuerKeyIdentifierError _ => 8
  | .subjectAlternativeNameError _ => 9
  | .missingUeidError => 10
  | .invalidUeidError => 11

/-- The numbers of crypto errors. -/
def cryptoNumber : CryptoErr → Nat
  | .abstractionLayer _ => 1
  | .cryptoLibError _ => 2
  | .size => 3
  | .notImplemented => 4
  | .hashError _ => 5
  | .invalidExportedCdiHandle => 6
  | .exportedCdiHandleDuplicateCdi => 7
  | .exportedCdiHandleLimitExceeded => 8
  | .mismatchedAlgorithm => 9

/-- The validation errors in the order of their numbers, from 0. -/
def validationErrors : List ValErr :=
  [.multipleNormalConnectedComponents, .cyclesInTree, .inactiveContextInvalidParent,
   .inactiveContextWithChildren, .badContextState, .badContextType, .inactiveContextWithMeasurement,
   .mixedContextLocality, .multipleDefaultContexts, .simulationNotSupported, .parentDoesNotExist,
   .internalDiceNotSupported, .internalInfoNotSupported, .childDoesNotExist, .inactiveContextWithFlagSet,
   .localityMismatch, .danglingRetiredContext, .mixedContextTypeConnectedComponents,
   .childWithMultipleParents, .parentChildLinksCorrupted, .allowCaNotSupported, .allowX509NotSupported,
   .inactiveParent, .inactiveChild, .dpeNotMarkedInitialized, .invalidMarker, .versionMismatch]

/-- The documented status word of an error: the numbers of the TCG DICE Protection Environment
specification below 0x80, those of the OCP profile from 0x80 to 0x85, those of this implementation from
0x86, and a class in the top byte for the errors of platform, crypto and validation.  (A panic sends no
status; its value here is not used.) -/
def statusWord : Err → U32
  | .noError => 0
  | .internal _ => 1
  | .invalidCommand => 2
  | .invalidArgument => 3
  | .sessionExhausted => 4
  | .initializationSeedLocked => 5
  | .outOfMemory => 6
  | .cancelledCommand => 7
  | .invalidHandle => 0x80
  | .invalidLocality => 0x81
  | .handleDefined => 0x82
  | .argumentNotSupported => 0x83
  | .alreadyInitialized => 0x84
  | .invalidParentLocality => 0x85
  | .x509CsrUnset => 0x86
  | .x509InvalidState => 0x87
  | .x509SkipsExhausted => 0x88
  | .x509InvalidWidth => 0x89
  | .x509AlgorithmMismatch => 0x90
  | .maxTcis => 0x91
  | .invalidMutRefBuf => 0x92
  | .invalidResponseBuf => 0x93
  | .uninitializedResponseHeader => 0x94
  | .platform e => BitVec.ofNat 32 (1 * 2 ^ 24 + platformNumber e)
  | .crypto e => BitVec.ofNat 32 (2 * 2 ^ 24 + cryptoNumber e)
  | .validation e => BitVec.ofNat 32 (3 * 2 ^ 24 + validationErrors.idxOf e)
  | .panic => 1

/-- Command numbers. -/
def wireId : Cmd cfg → U32
  | .getProfile => 0x01
  | .init _ => 0x07
  | .derive _ => 0x08
  | .certify _ => 0x09
  | .sign _ => 0x0A
  | .rotate _ => 0x0e
  | .destroy _ => 0x0f
  | .chain _ => 0x10
  | .update _ => 0x80000000

/-- The command numbers an instance knows; RotateContextHandle (0x0e) can be compiled out. -/
def KnownId (cfg : Cfg) (id : U32) : Prop :=
  id = 0x01 ∨ id = 0x07 ∨ id = 0x08 ∨ id = 0x09 ∨ id = 0x0A ∨
  (id = 0x0e ∧ ¬ Bit cfg.disabled Feature.rotate) ∨ id = 0x0f ∨ id = 0x10 ∨ id = 0x80000000

/-- The parameters of a command on the wire, in order and without gaps. -/
def wireBody : Cmd cfg → List Bytes
  | .getProfile => []
  | .init f => [word f]
  | .derive c => [c.handle.toList, c.data.toList, word c.flags, word c.tciType,
      word c.targetLocality, word c.svn]
  | .certify (.p256 h f t l) => [h.toList, word f, word t, l.toList]
  | .certify (.p384 h f t l) => [h.toList, word f, word t, l.toList]
  | .certify (.mldsa87 h f t l) => [h.toList, word f, word t, l.toList]
  | .sign (.p256 h l f d) => [h.toList, l.toList, word f, d.toList]
  | .sign (.p384 h l f d) => [h.toList, l.toList, word f, d.toList]
  | .sign (.mldsa87 h l f d) => [h.toList, l.toList, word f, d.toList]
  | .sign (.mldsa87Raw h l f n d) => [h.toList, l.toList, word f, word n, d.toList]
  | .rotate c => [c.handle.toList, word c.flags]
  | .destroy h => [h.toList]
  | .chain c => [word c.offset, word c.size]
  | .update c => [c.parentHandle.toList, c.data.toList, word c.reserved, word c.tciType,
      word c.reservedSvn]

/-- A command header: `"DPEC"` as a little-endian word, the command number, the profile number. -/
def wireHeader (id prof : U32) : Bytes := [0x43, 0x45, 0x50, 0x44] ++ word id ++ word prof

/-- A serialised command. -/
def wire (prof : U32) (c : Cmd cfg) : Bytes := wireHeader (wireId c) prof ++ (wireBody c).flatten

/-- The command exists in the instance's profile: label, digest and raw-message sizes are those
of the profile, and the RAW flag (bit 0) of an ML-DSA Sign says which of its two forms it is. -/
def InProfile (cfg : Cfg) : Cmd cfg → Prop
  | .certify (.p256 ..) => cfg.profile = .p256
  | .certify (.p384 ..) => cfg.profile = .p384
  | .certify (.mldsa87 ..) => cfg.profile = .mldsa87
  | .sign (.p256 ..) => cfg.profile = .p256
  | .sign (.p384 ..) => cfg.profile = .p384
  | .sign (.mldsa87 _ _ f _) => cfg.profile = .mldsa87 ∧ ¬ Bit f 0
  | .sign (.mldsa87Raw _ _ f n _) => cfg.profile = .mldsa87 ∧ Bit f 0 ∧ n.toNat ≤ 1024
  | .rotate _ => ¬ Bit cfg.disabled Feature.rotate
  | _ => True

/-- The addresses at which a command may be stored: multiples of four, except DestroyContext. -/
def Aligned (addr : Nat) (c : Cmd cfg) : Prop := addr % 4 = 0 ∨ ∃ h, c = .destroy h

/-- The number of parameter bytes of a command number, in a profile with labels and digests of
`n` bytes and measurements of `m` bytes. -/
def bodySize (n m : Nat) (id : U32) : Nat :=
  if id = 0x07 then 4 else if id = 0x08 then 16 + m + 16 else if id = 0x09 then 24 + n
  else if id = 0x0A then 20 + 2 * n else if id = 0x0e then 20 else if id = 0x0f then 16
  else if id = 0x10 then 8 else if id = 0x80000000 then 16 + m + 12 else 0

/-- Label and digest size of a profile. -/
def labelSize : Profile → Nat
  | .p256 => 32
  | .p384 => 48
  | .mldsa87 => 48

/-- A header of a known command addressed to this instance. -/
def AddressedTo (cfg : Cfg) (b : Bytes) : Prop :=
  ∃ id prof rest, b = wireHeader id prof ++ rest ∧ KnownId cfg id ∧
    (id = 0x01 ∨ prof = wireProfile cfg.profile)

end Dpe
