import Verif.Model.Context
/-
The environment (crypto, RNG, platform) as a record of arbitrary functions, and the
command monad.
-/
namespace Dpe

/-- `PubKey`, crypto/src/lib.rs, with `EcdsaPub256/384` (crypto/src/ecdsa/mod.rs) and
`MldsaPublicKey` (crypto/src/ml_dsa.rs, 2592 bytes). -/
inductive PubKey
  | p256 (x y : BArr 32)
  | p384 (x y : BArr 48)
  | mldsa (k : BArr 2592)

/-- `Signature`, crypto/src/lib.rs, with `EcdsaSignature256/384` and `MldsaSignature`
(4627 bytes). -/
inductive Sig
  | p256 (r s : BArr 32)
  | p384 (r s : BArr 48)
  | mldsa (s : BArr 4627)

/-- `SignData`, crypto/src/lib.rs.  The `ResponseBuffer(buf, range)` variant is represented
by the bytes of that range (`SliceResponseBuffer::read_range`). -/
inductive SignData
  | digest (d : Bytes)
  | mu (d : BArr 64)
  | raw (d : Bytes)
  | buffer (d : Bytes)

/-- `SignerIdentifier`, platform/src/lib.rs. -/
inductive SignerId
  | issuerAndSerial (issuer serial : Bytes)
  | subjectKeyId (ski : Bytes)

/-- `OtherName` inside `SubjectAltName`, platform/src/lib.rs. -/
structure OtherName where
  oid : Bytes
  name : Bytes

/-- `CertValidity`, platform/src/lib.rs. -/
structure Validity where
  notBefore : Bytes
  notAfter : Bytes

/-- The traits `CryptoSuite`, `Hasher`, `CdiManager`, `Signer` (crypto/src/lib.rs) and
`Platform` (platform/src/lib.rs) as arbitrary state-passing functions over a hidden world
`σ`. Nothing is assumed about them.  `Cdi` and `Key` stand for the trait objects
`&mut dyn CdiManager` and `&mut dyn Signer`.  `rand_bytes` is only ever called on a 16-byte
handle.  `hash_all`/`hash` are the default methods built from the hasher
(crypto/src/lib.rs, `Crypto::hash_all`, `with_hasher`).  `Platform::get_certificate_chain`
returns the length written and the whole 2048-byte scratch buffer. `ueid` returns the buffer
prefix of `Ueid::get`. `issuerName` returns the length and the 128-byte buffer
(`MAX_ISSUER_NAME_SIZE`, default feature set). -/
structure Ops (σ : Type) where
  Cdi : Type
  Key : Type
  rand : σ → Except CryptoErr Handle × σ
  hasher : σ → Except CryptoErr Unit × σ
  hashInit : σ → Except CryptoErr Unit × σ
  hashUpdate : Bytes → σ → Except CryptoErr Unit × σ
  hashFinish : σ → Except CryptoErr Bytes × σ
  deriveCdi : Bytes → Bytes → σ → Except CryptoErr Cdi × σ
  deriveKeyPair : Cdi → Bytes → Bytes → σ → Except CryptoErr Key × σ
  deriveExportedCdi : Bytes → Bytes → σ → Except CryptoErr (BArr 32) × σ
  deriveKeyPairExported : BArr 32 → Bytes → Bytes → σ → Except CryptoErr Key × σ
  sign : Key → SignData → σ → Except CryptoErr Sig × σ
  publicKey : Key → σ → Except CryptoErr PubKey × σ
  signAlias : SignData → σ → Except CryptoErr Sig × σ
  sigAlgMldsa : Bool
  digestSize : Nat
  certChain : U32 → U32 → σ → Except PlatErr (U32 × BArr 2048) × σ
  issuerName : σ → Except PlatErr (Nat × BArr 128) × σ
  signerId : σ → Except PlatErr SignerId × σ
  issuerKeyId : σ → Except PlatErr (BArr 20) × σ
  vendorId : σ → Except PlatErr U32 × σ
  vendorSku : σ → Except PlatErr U32 × σ
  autoInitLocality : σ → Except PlatErr U32 × σ
  certValidity : σ → Except PlatErr Validity × σ
  subjectAltName : σ → Except PlatErr OtherName × σ
  ueid : σ → Except PlatErr (BArr 48 × U32) × σ

/-- Everything a command can touch: `env.state()`, the hidden world behind `env.crypto()`
and `env.platform()`, and the response buffer (`SliceResponseBuffer`,
response-buffer/src/lib.rs:96-135; its length is the capacity). -/
structure Sys (cfg : Cfg) (σ : Type) where
  st : State cfg
  w : σ
  out : Bytes

/-- Command monad: errors do not roll back earlier effects. -/
def M (cfg : Cfg) (σ α : Type) := Sys cfg σ → Except Err α × Sys cfg σ

namespace M
variable {cfg : Cfg} {σ α β : Type}

/-- Return a value. -/
protected def pure (a : α) : M cfg σ α := fun s => (.ok a, s)

/-- Sequencing with the `?` operator. -/
protected def bind (x : M cfg σ α) (f : α → M cfg σ β) : M cfg σ β := fun s =>
  match x s with
  | (.ok a, s') => f a s'
  | (.error e, s') => (.error e, s')

instance : Monad (M cfg σ) where
  pure := M.pure
  bind := M.bind

/-- `return Err(e)`. -/
def fail (e : Err) : M cfg σ α := fun s => (.error e, s)

/-- `if c { return Err(e) }`. -/
def failIf (c : Bool) (e : Err) : M cfg σ Unit := fun s => if c then (.error e, s) else (.ok (), s)

/-- Use of a pure `Result` with `?`. -/
def lift (x : Except Err α) : M cfg σ α := fun s => (x, s)

/-- `option.ok_or(e)?`. -/
def okOr (x : Option α) (e : Err) : M cfg σ α := fun s =>
  match x with
  | some a => (.ok a, s)
  | none => (.error e, s)

/-- `env.state()` read. -/
def get : M cfg σ (State cfg) := fun s => (.ok s.st, s)

/-- `env.state()` write. -/
def modify (f : State cfg → State cfg) : M cfg σ Unit := fun s => (.ok (), { s with st := f s.st })

/-- A crypto trait call followed by `?`. -/
def crypto (f : σ → Except CryptoErr α × σ) : M cfg σ α := fun s =>
  match f s.w with
  | (.ok a, w') => (.ok a, { s with w := w' })
  | (.error e, w') => (.error (.crypto e), { s with w := w' })

/-- A platform trait call followed by `?`. -/
def platform (f : σ → Except PlatErr α × σ) : M cfg σ α := fun s =>
  match f s.w with
  | (.ok a, w') => (.ok a, { s with w := w' })
  | (.error e, w') => (.error (.platform e), { s with w := w' })

end M

/-- `SliceResponseBuffer::write_at`, response-buffer/src/lib.rs:112-121: all or nothing
(`offset.checked_add(len)` cannot be exceeded by a list length). `none` is `Overflow`. -/
def bufWrite (buf : Bytes) (off : Nat) (data : Bytes) : Option Bytes :=
  if off + data.length ≤ buf.length then
    some (buf.take off ++ data ++ buf.drop (off + data.length))
  else none

/-- `out.write_at(off, data).map_err(|_| InvalidResponseBuf)?`. -/
def writeAt {cfg : Cfg} {σ : Type} (off : Nat) (data : Bytes) : M cfg σ Unit := fun s =>
  match bufWrite s.out off data with
  | some b => (.ok (), { s with out := b })
  | none => (.error .invalidResponseBuf, s)

/-- Which certificate is requested: `create_dpe_cert`, `create_dpe_csr`,
`create_exported_dpe_cert`, dpe/src/x509.rs:2526-2573. -/
inductive CertKind
  | leafX509
  | leafCsr
  | exportedX509
  deriving DecidableEq, Repr

/-- `CreateDpeCertArgs`, dpe/src/x509.rs:2442-2458. -/
structure CertArgs where
  handle : Handle
  locality : U32
  cdiLabel : Bytes
  keyLabel : Bytes
  context : Bytes
  ueid : Bytes
  critDice : Bool

/-- `CreateDpeCertResult`, dpe/src/x509.rs:2461-2469. -/
structure CertResult where
  certSize : U32
  pubKey : PubKey
  exportedCdi : BArr 32

/-- Environment of the state machine: the trait operations plus the certificate generator
`create_dpe_cert_or_csr` (dpe/src/x509.rs:2671-2816), which reads the state, talks to
crypto/platform and writes into a window of the response buffer (a byte list) but cannot
modify the DPE state.  It is a parameter here, so everything proved about the state machine
holds for every generator; `Verif.Model.X509` supplies the concrete one. -/
structure Env (cfg : Cfg) (σ : Type) extends Ops σ where
  certGen : CertKind → CertArgs → State cfg → σ → Bytes → (Except Err CertResult × σ) × Bytes

end Dpe
