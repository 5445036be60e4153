import Verif.Model.Instance
/-
The software crypto back end, crypto/src/rustcrypto.rs.  The cryptographic primitives (SHA-2,
HKDF, ECDSA, ML-DSA, the random generator) are parameters; everything around them is modelled.
-/
namespace Dpe

/-- The primitives used by `RustCryptoImpl` for the algorithms it was created with.
`hash` is `new_hasher` ... `finalize` (crypto/src/rustcrypto.rs:102-108), `hkdfCdi` and
`hkdfKey` are `hkdf_derive_cdi` and `hkdf_get_priv_key` (crypto/src/hkdf.rs:16-80), `fill16`
and `fill32` are `StdRng::fill_bytes` on a 16- and a 32-byte buffer, `signDigest`, `signRaw`
and `signMu` are the arms of `ecdsa_sign_data_inner` and `mldsa_sign_data_inner`
(crypto/src/rustcrypto.rs:355-415) given a private key, `pub` is `public_key`
(crypto/src/rustcrypto.rs:177-222) and `aliasKey` the built-in alias key. -/
structure Prims where
  Rng : Type
  seed : Rng
  hash : Bytes → Bytes
  digestSize : Nat
  hkdfCdi : Bytes → Bytes → Except CryptoErr Bytes
  hkdfKey : Bytes → Bytes → Bytes → Except CryptoErr Bytes
  fill16 : Rng → BArr 16 × Rng
  fill32 : Rng → BArr 32 × Rng
  mldsa : Bool
  signDigest : Bytes → Bytes → Except CryptoErr Sig
  signRaw : Bytes → Bytes → Except CryptoErr Sig
  signMu : Bytes → BArr 64 → Except CryptoErr Sig
  pub : Bytes → Except CryptoErr PubKey
  aliasKey : Except CryptoErr Bytes

/-- `RustCryptoImpl`, crypto/src/rustcrypto.rs:248-256, with the `RustCryptoHasher` (92-95), the
`RustCryptoCdi` (225-229) and the `RustCryptoSigner` (147-150) inside it.  A running hash is
represented by the bytes given to it so far; `none` after `finish`. -/
structure Soft (P : Prims) where
  rng : P.Rng
  slots : List (Bytes × BArr 32)
  hasher : Option Bytes
  cdi : Bytes
  priv : Bytes

/-- `RustCryptoImpl::new`, crypto/src/rustcrypto.rs:279-330. -/
def Soft.new (P : Prims) : Soft P :=
  { rng := P.seed, slots := [], hasher := some [], cdi := [], priv := [] }

/-- `MAX_CDI_HANDLES`, crypto/src/rustcrypto.rs:145. -/
def maxCdiHandles : Nat := 1

variable {P : Prims}

/-- `Hasher::initialize`, crypto/src/rustcrypto.rs:112-115. -/
def Soft.hashInit (w : Soft P) : Except CryptoErr Unit × Soft P := (.ok (), { w with hasher := some [] })

/-- `Hasher::update`, crypto/src/rustcrypto.rs:116-122. -/
def Soft.hashUpdate (b : Bytes) (w : Soft P) : Except CryptoErr Unit × Soft P :=
  match w.hasher with
  | none => (.error (.hashError 0), w)
  | some x => (.ok (), { w with hasher := some (x ++ b) })

/-- `Hasher::finish`, crypto/src/rustcrypto.rs:123-140. -/
def Soft.hashFinish (w : Soft P) : Except CryptoErr Bytes × Soft P :=
  match w.hasher with
  | none => (.error (.hashError 1), w)
  | some x =>
    (if (P.hash x).length = P.digestSize then .ok (P.hash x) else .error .size,
      { w with hasher := none })

/-- `rand_bytes` on a context handle, crypto/src/rustcrypto.rs:423-426. -/
def Soft.rand (w : Soft P) : Except CryptoErr Handle × Soft P :=
  (.ok (P.fill16 w.rng).1, { w with rng := (P.fill16 w.rng).2 })

/-- `derive_cdi`, crypto/src/rustcrypto.rs:429-438.  The `&mut dyn CdiManager` returned is the
one CDI inside the implementation. -/
def Soft.deriveCdi (m info : Bytes) (w : Soft P) : Except CryptoErr Unit × Soft P :=
  match P.hkdfCdi m info with
  | .error e => (.error e, w)
  | .ok cdi => (.ok (), { w with cdi := cdi })

/-- `RustCryptoCdi::derive_key_pair`, crypto/src/rustcrypto.rs:233-241.  The `&mut dyn Signer`
returned is the one signer inside the implementation. -/
def Soft.deriveKeyPair (label info : Bytes) (w : Soft P) : Except CryptoErr Unit × Soft P :=
  match P.hkdfKey w.cdi label info with
  | .error e => (.error e, w)
  | .ok k => (.ok (), { w with priv := k })

/-- `derive_exported_cdi`, crypto/src/rustcrypto.rs:441-463. -/
def Soft.deriveExportedCdi (m info : Bytes) (w : Soft P) : Except CryptoErr (BArr 32) × Soft P :=
  match P.hkdfCdi m info with
  | .error e => (.error e, w)
  | .ok cdi =>
    if w.slots.any (fun e => e.1 == cdi) then (.error .exportedCdiHandleDuplicateCdi, w)
    else if maxCdiHandles ≤ w.slots.length then (.error .exportedCdiHandleLimitExceeded, w)
    else (.ok (P.fill32 w.rng).1,
      { w with rng := (P.fill32 w.rng).2, slots := w.slots ++ [(cdi, (P.fill32 w.rng).1)] })

/-- `derive_key_pair_exported`, crypto/src/rustcrypto.rs:466-481. -/
def Soft.deriveKeyPairExported (h : BArr 32) (label info : Bytes) (w : Soft P) :
    Except CryptoErr Unit × Soft P :=
  match w.slots.find? (fun e => e.2 == h) with
  | some e => Soft.deriveKeyPair label info { w with cdi := e.1 }
  | none => (.error .invalidExportedCdiHandle, w)

/-- `ecdsa_sign_data_inner` and `mldsa_sign_data_inner`, crypto/src/rustcrypto.rs:355-415. -/
def signData (P : Prims) (key : Bytes) : SignData → Except CryptoErr Sig
  | .digest d => P.signDigest key d
  | .mu d => P.signMu key d
  | .raw d => P.signRaw key d
  | .buffer d => P.signRaw key d

/-- `RustCryptoImpl` beside an arbitrary platform. -/
def softOps (P : Prims) {τ : Type} (plat : Ops τ) : Ops (Soft P × τ) where
  Cdi := Unit
  Key := Unit
  rand w := ((Soft.rand w.1).1, ((Soft.rand w.1).2, w.2))
  hasher w := (.ok (), w)
  hashInit w := ((Soft.hashInit w.1).1, ((Soft.hashInit w.1).2, w.2))
  hashUpdate b w := ((Soft.hashUpdate b w.1).1, ((Soft.hashUpdate b w.1).2, w.2))
  hashFinish w := ((Soft.hashFinish w.1).1, ((Soft.hashFinish w.1).2, w.2))
  deriveCdi m i w := ((Soft.deriveCdi m i w.1).1, ((Soft.deriveCdi m i w.1).2, w.2))
  deriveKeyPair _ l i w := ((Soft.deriveKeyPair l i w.1).1, ((Soft.deriveKeyPair l i w.1).2, w.2))
  deriveExportedCdi m i w :=
    ((Soft.deriveExportedCdi m i w.1).1, ((Soft.deriveExportedCdi m i w.1).2, w.2))
  deriveKeyPairExported h l i w :=
    ((Soft.deriveKeyPairExported h l i w.1).1, ((Soft.deriveKeyPairExported h l i w.1).2, w.2))
  sign _ d w := (signData P w.1.priv d, w)
  publicKey _ w := (P.pub w.1.priv, w)
  signAlias d w := (P.aliasKey.bind fun k => signData P k d, w)
  sigAlgMldsa := P.mldsa
  digestSize := P.digestSize
  certChain a b w := ((plat.certChain a b w.2).1, (w.1, (plat.certChain a b w.2).2))
  issuerName w := ((plat.issuerName w.2).1, (w.1, (plat.issuerName w.2).2))
  signerId w := ((plat.signerId w.2).1, (w.1, (plat.signerId w.2).2))
  issuerKeyId w := ((plat.issuerKeyId w.2).1, (w.1, (plat.issuerKeyId w.2).2))
  vendorId w := ((plat.vendorId w.2).1, (w.1, (plat.vendorId w.2).2))
  vendorSku w := ((plat.vendorSku w.2).1, (w.1, (plat.vendorSku w.2).2))
  autoInitLocality w := ((plat.autoInitLocality w.2).1, (w.1, (plat.autoInitLocality w.2).2))
  certValidity w := ((plat.certValidity w.2).1, (w.1, (plat.certValidity w.2).2))
  subjectAltName w := ((plat.subjectAltName w.2).1, (w.1, (plat.subjectAltName w.2).2))
  ueid w := ((plat.ueid w.2).1, (w.1, (plat.ueid w.2).2))

end Dpe
