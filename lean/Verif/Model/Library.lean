import Verif.Model.Soft
/-
What the software crypto back end makes of the crates it builds on: crypto/src/hkdf.rs and the parts
of crypto/src/rustcrypto.rs that choose algorithms.  The functions of the crates sha2, hkdf, p256,
p384, ml-dsa and rand are parameters.
-/
namespace Dpe

/-- `SignatureAlgorithm`, crypto/src/lib.rs, for the algorithms that exist. -/
inductive SigAlg
  | p256 | p384 | mldsa87
  deriving DecidableEq, Repr

/-- `DigestAlgorithm`, crypto/src/lib.rs. -/
inductive HashAlg
  | sha256 | sha384
  deriving DecidableEq, Repr

/-- The functions of the crates.  `extract h salt ikm` is `Hkdf::<h>::new(Some(salt), ikm)`,
`expand h prk info n` is `expand(info, out)` on an `n`-byte `out` (`none` for `InvalidLength`),
`key256 b` is `p256::ecdsa::SigningKey::from_slice(b)` (`none` for an error), `sign256 k d` is
`sign_prehash`, `pub256` the coordinates of the verifying key; the same for P-384.  `key87` is
`MlDsa87::from_seed`.  The alias keys are those in the PEM artifacts, as octets. -/
structure Lib where
  Rng : Type
  seed : Rng
  fill16 : Rng → BArr 16 × Rng
  fill32 : Rng → BArr 32 × Rng
  sha256 : Bytes → BArr 32
  sha384 : Bytes → BArr 48
  extract : HashAlg → Bytes → Bytes → Bytes
  expand : HashAlg → Bytes → Bytes → (n : Nat) → Option (BArr n)
  K256 : Type
  key256 : Bytes → Option K256
  sign256 : K256 → Bytes → Option (BArr 32 × BArr 32)
  pub256 : K256 → BArr 32 × BArr 32
  K384 : Type
  key384 : Bytes → Option K384
  sign384 : K384 → Bytes → Option (BArr 48 × BArr 48)
  pub384 : K384 → BArr 48 × BArr 48
  K87 : Type
  key87 : BArr 32 → K87
  sign87 : K87 → Bytes → BArr 4627
  signMu87 : K87 → BArr 64 → BArr 4627
  pub87 : K87 → BArr 2592
  alias256 : Option Bytes
  alias384 : Option Bytes
  alias87 : Option Bytes

namespace Lib

/-- The hash under HKDF, crypto/src/hkdf.rs:21-46 and 56-79. -/
def kdfHash : SigAlg → HashAlg
  | .p256 => .sha256
  | .p384 => .sha384
  | .mldsa87 => .sha256

/-- The size of CDIs and private keys: `curve_size` (crypto/src/ecdsa/mod.rs) or `seed_size`
(crypto/src/ml_dsa.rs). -/
def secretSize : SigAlg → Nat
  | .p256 => 32
  | .p384 => 48
  | .mldsa87 => 32

/-- `hkdf_derive_cdi`, crypto/src/hkdf.rs:16-47. -/
def deriveCdi (L : Lib) (alg : SigAlg) (measurement info : Bytes) : Except CryptoErr Bytes :=
  match L.expand (kdfHash alg) (L.extract (kdfHash alg) info measurement) measurement
      (secretSize alg) with
  | none => .error (.hashError 0)
  | some cdi => .ok cdi.toList

/-- `hkdf_get_priv_key`, crypto/src/hkdf.rs:49-80. -/
def privKey (L : Lib) (alg : SigAlg) (cdi label info : Bytes) : Except CryptoErr Bytes :=
  match L.expand (kdfHash alg) (L.extract (kdfHash alg) info cdi) label (secretSize alg) with
  | none => .error (.hashError 0)
  | some key => .ok key.toList

/-- `new_hasher` ... `finalize`, crypto/src/rustcrypto.rs:105-110. -/
def hash (L : Lib) : HashAlg → Bytes → Bytes
  | .sha256, b => (L.sha256 b).toList
  | .sha384, b => (L.sha384 b).toList

/-- The size of digests. -/
def hashSize : HashAlg → Nat
  | .sha256 => 32
  | .sha384 => 48

/-- Exactly 32 octets (`try_into`, crypto/src/rustcrypto.rs:169-173). -/
def seed87 (k : Bytes) : Option (BArr 32) := if h : k.length = 32 then some ⟨k.toArray, by simpa using h⟩ else none

/-- Signing a digest with a private key given as octets, crypto/src/rustcrypto.rs:152-174, 373 and 408.
The key is read before the kind of the data is looked at. -/
def signPrehash (L : Lib) (alg : SigAlg) (k d : Bytes) : Except CryptoErr Sig :=
  match alg with
  | .p256 =>
    match (L.key256 k).bind fun key => L.sign256 key d with
    | some (r, s) => .ok (.p256 r s)
    | none => .error (.cryptoLibError 1)
  | .p384 =>
    match (L.key384 k).bind fun key => L.sign384 key d with
    | some (r, s) => .ok (.p384 r s)
    | none => .error (.cryptoLibError 1)
  | .mldsa87 =>
    match seed87 k with
    | some _ => .error .mismatchedAlgorithm
    | none => .error (.cryptoLibError 3)

/-- Signing a message: ECDSA signs its digest, crypto/src/rustcrypto.rs:354-390; ML-DSA signs the
message, 393-415. -/
def signMessage (L : Lib) (alg : SigAlg) (k d : Bytes) : Except CryptoErr Sig :=
  match alg with
  | .p256 => L.signPrehash .p256 k (L.sha256 d).toList
  | .p384 => L.signPrehash .p384 k (L.sha384 d).toList
  | .mldsa87 =>
    match seed87 k with
    | some seed => .ok (.mldsa (L.sign87 (L.key87 seed) d))
    | none => .error (.cryptoLibError 3)

/-- Signing a `mu`, crypto/src/rustcrypto.rs:152-174, 388 and 398.  The key is read before the kind of
the data is looked at. -/
def signMu (L : Lib) (alg : SigAlg) (k : Bytes) (d : BArr 64) : Except CryptoErr Sig :=
  match alg with
  | .p256 =>
    match L.key256 k with
    | some _ => .error .mismatchedAlgorithm
    | none => .error (.cryptoLibError 1)
  | .p384 =>
    match L.key384 k with
    | some _ => .error .mismatchedAlgorithm
    | none => .error (.cryptoLibError 1)
  | .mldsa87 =>
    match seed87 k with
    | some seed => .ok (.mldsa (L.signMu87 (L.key87 seed) d))
    | none => .error (.cryptoLibError 3)

/-- `public_key`, crypto/src/rustcrypto.rs:177-222. -/
def publicKey (L : Lib) (alg : SigAlg) (k : Bytes) : Except CryptoErr PubKey :=
  match alg with
  | .p256 =>
    match L.key256 k with
    | some key => .ok (.p256 (L.pub256 key).1 (L.pub256 key).2)
    | none => .error (.cryptoLibError 1)
  | .p384 =>
    match L.key384 k with
    | some key => .ok (.p384 (L.pub384 key).1 (L.pub384 key).2)
    | none => .error (.cryptoLibError 1)
  | .mldsa87 =>
    match seed87 k with
    | some seed => .ok (.mldsa (L.pub87 (L.key87 seed)))
    | none => .error (.cryptoLibError 3)

/-- The alias key, crypto/src/rustcrypto.rs:483-505. -/
def aliasKey (L : Lib) (alg : SigAlg) : Except CryptoErr Bytes :=
  match alg with
  | .p256 => match L.alias256 with | some k => .ok k | none => .error (.cryptoLibError 2)
  | .p384 => match L.alias384 with | some k => .ok k | none => .error (.cryptoLibError 2)
  | .mldsa87 => match L.alias87 with | some k => .ok k | none => .error (.cryptoLibError 3)

/-- `RustCryptoImpl::new(signature_alg, digest_alg, _)`, crypto/src/rustcrypto.rs:279-327. -/
def prims (L : Lib) (alg : SigAlg) (dig : HashAlg) : Prims where
  Rng := L.Rng
  seed := L.seed
  hash := L.hash dig
  digestSize := hashSize dig
  hkdfCdi := L.deriveCdi alg
  hkdfKey := L.privKey alg
  fill16 := L.fill16
  fill32 := L.fill32
  mldsa := decide (alg = .mldsa87)
  signDigest := L.signPrehash alg
  signRaw := L.signMessage alg
  signMu := L.signMu alg
  pub := L.publicKey alg
  aliasKey := L.aliasKey alg

/-- `new_ecc256`, crypto/src/rustcrypto.rs:329-335. -/
def ecc256 (L : Lib) : Prims := L.prims .p256 .sha256
/-- `new_ecc384`, crypto/src/rustcrypto.rs:337-343. -/
def ecc384 (L : Lib) : Prims := L.prims .p384 .sha384
/-- `new_mldsa87`, crypto/src/rustcrypto.rs:346-352. -/
def mldsa87 (L : Lib) : Prims := L.prims .mldsa87 .sha384

end Lib
end Dpe
