import Verif.Model.Library
import Verif.Model.Platform
/-
The default platform, platform/src/default.rs, and the device that the simulator puts together from it
and the software crypto back end.
-/
namespace Dpe

/-- What the default platform takes from the certificate that is generated when the crate is built
(test-artifacts/build.rs): its DER encoding, and issuer name, serial number and subject key identifier
as parsed by the crate x509-cert (platform/src/default.rs:46-80; the `unwrap`s there are not modelled,
the certificate is assumed to parse). -/
structure Artifact where
  chain : Bytes
  issuer : Bytes
  serial : Bytes
  keyId : Bytes

/-- The bytes in an array, zeros behind them (`out[..n].copy_from_slice` on a zeroed array). -/
def zeroPadded (n : Nat) (b : Bytes) : BArr n := Vector.ofFn fun i => b.getD i.1 0

/-- `DefaultPlatform`, platform/src/default.rs:82-194.  It has no state.  An overflow in
`get_certificate_chain` (see `defaultChain`) is given the value `PrintError(0)`, which nothing else
yields; `C58_no_overflow` shows that it does not occur.  The crypto half of `Ops` is of no
consequence: `softOps` uses the platform half only. -/
def defaultPlatform (a : Artifact) : Ops Unit where
  Cdi := Unit
  Key := Unit
  rand w := (.error .notImplemented, w)
  hasher w := (.error .notImplemented, w)
  hashInit w := (.error .notImplemented, w)
  hashUpdate _ w := (.error .notImplemented, w)
  hashFinish w := (.error .notImplemented, w)
  deriveCdi _ _ w := (.error .notImplemented, w)
  deriveKeyPair _ _ _ w := (.error .notImplemented, w)
  deriveExportedCdi _ _ w := (.error .notImplemented, w)
  deriveKeyPairExported _ _ _ w := (.error .notImplemented, w)
  sign _ _ w := (.error .notImplemented, w)
  publicKey _ w := (.error .notImplemented, w)
  signAlias _ w := (.error .notImplemented, w)
  sigAlgMldsa := false
  digestSize := 0
  certChain off size w := ((defaultChain a.chain off size).getD (.error (.printError 0)), w)
  issuerName w :=
    (if 128 < a.issuer.length then .error (.issuerNameError 0)
      else .ok (a.issuer.length, zeroPadded 128 a.issuer), w)
  signerId w :=
    (if 128 < a.issuer.length then .error (.issuerNameError 0)
      else if 20 < a.serial.length then .error (.serialNumberError 0)
      else .ok (.issuerAndSerial a.issuer a.serial), w)
  issuerKeyId w :=
    (if a.keyId.length < 20 then .error (.issuerKeyIdentifierError 0)
      else .ok (zeroPadded 20 a.keyId), w)
  vendorId w := (.ok 0, w)
  vendorSku w := (.ok 0, w)
  autoInitLocality w := (.ok 0, w)
  certValidity w := (.ok ⟨ascii "20230227000000Z", ascii "99991231235959Z"⟩, w)
  subjectAltName w := (.error .notImplemented, w)
  ueid w := (.ok (zeroPadded 48 (List.replicate 17 0x0A), 17), w)

/-- `profile::new_crypto`, simulator/src/main.rs:19-47. -/
def Lib.crypto (L : Lib) : Profile → Prims
  | .p256 => L.ecc256
  | .p384 => L.ecc384
  | .mldsa87 => L.mldsa87

/-- Crypto and platform of the simulator, simulator/src/main.rs:186-187. -/
def device (L : Lib) (a : Artifact) (p : Profile) : Ops (Soft (L.crypto p) × Unit) :=
  softOps (L.crypto p) (defaultPlatform a)

end Dpe
