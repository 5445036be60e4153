import Verif.Spec.Sign
import Verif.Model.X509
/-
What a command asks of the crypto implementation and of the platform, in the order in which it asks,
and what it is entitled to ask.
-/
namespace Dpe
variable {cfg : Cfg} {σ : Type}

/-- One call of the crypto implementation or of the platform with its arguments; for the calls whose
result is used later on, also with the result. -/
inductive Use (ops : Ops σ)
  | rand
  | hasher
  | hashInit
  | hashUpdate (b : Bytes)
  | hashFinish (r : Except CryptoErr Bytes)
  | deriveCdi (digest label : Bytes) (r : Except CryptoErr ops.Cdi)
  | deriveKeyPair (cdi : ops.Cdi) (label purpose : Bytes) (r : Except CryptoErr ops.Key)
  | deriveExportedCdi (digest label : Bytes) (r : Except CryptoErr (BArr 32))
  | deriveKeyPairExported (h : BArr 32) (label purpose : Bytes) (r : Except CryptoErr ops.Key)
  | sign (k : ops.Key) (d : SignData) (r : Except CryptoErr Sig)
  | publicKey (k : ops.Key) (r : Except CryptoErr PubKey)
  | signAlias (d : SignData)
  | certChain (offset size : U32)
  | issuerName
  | signerId
  | issuerKeyId
  | vendorId
  | vendorSku
  | autoInitLocality
  | certValidity
  | subjectAltName
  | ueid (r : Except PlatErr (BArr 48 × U32))

/-- The call `f`, noted down as `u` of its result. -/
def noted {ops : Ops σ} {α : Type} (f : σ → α × σ) (u : α → Use ops) :
    σ × List (Use ops) → α × (σ × List (Use ops)) := fun w =>
  ((f w.1).1, ((f w.1).2, w.2 ++ [u (f w.1).1]))

/-- The same crypto implementation and platform with a protocol of all calls, the oldest first. -/
def Ops.logged (ops : Ops σ) : Ops (σ × List (Use ops)) where
  Cdi := ops.Cdi
  Key := ops.Key
  rand := noted ops.rand fun _ => .rand
  hasher := noted ops.hasher fun _ => .hasher
  hashInit := noted ops.hashInit fun _ => .hashInit
  hashUpdate b := noted (ops.hashUpdate b) fun _ => .hashUpdate b
  hashFinish := noted ops.hashFinish .hashFinish
  deriveCdi d l := noted (ops.deriveCdi d l) (.deriveCdi d l)
  deriveKeyPair c l p := noted (ops.deriveKeyPair c l p) (.deriveKeyPair c l p)
  deriveExportedCdi d l := noted (ops.deriveExportedCdi d l) (.deriveExportedCdi d l)
  deriveKeyPairExported h l p := noted (ops.deriveKeyPairExported h l p) (.deriveKeyPairExported h l p)
  sign k d := noted (ops.sign k d) (.sign k d)
  publicKey k := noted (ops.publicKey k) (.publicKey k)
  signAlias d := noted (ops.signAlias d) fun _ => .signAlias d
  sigAlgMldsa := ops.sigAlgMldsa
  digestSize := ops.digestSize
  certChain o n := noted (ops.certChain o n) fun _ => .certChain o n
  issuerName := noted ops.issuerName fun _ => .issuerName
  signerId := noted ops.signerId fun _ => .signerId
  issuerKeyId := noted ops.issuerKeyId fun _ => .issuerKeyId
  vendorId := noted ops.vendorId fun _ => .vendorId
  vendorSku := noted ops.vendorSku fun _ => .vendorSku
  autoInitLocality := noted ops.autoInitLocality fun _ => .autoInitLocality
  certValidity := noted ops.certValidity fun _ => .certValidity
  subjectAltName := noted ops.subjectAltName fun _ => .subjectAltName
  ueid := noted ops.ueid .ueid

/-- The calls that a command makes, in order, whatever its outcome. -/
def usesOf (ops : Ops σ) (c : Cmd cfg) (loc : U32) (st : State cfg) (w : σ) (out : Bytes) :
    List (Use ops) :=
  (exec (ops.logged.env cfg) c loc ⟨st, (w, []), out⟩).2.w.2

/-! ### What a command is entitled to -/

/-- A command that works on the keys of the context in slot `i`, and may: it is sent from the locality
of the context and names it by its handle; Sign and the export of a CDI need a context that is not a
simulation; a certificate and an export need the permission of the context and the support of the
instance, a request the support. -/
def Entitled (st : State cfg) (loc : U32) (i : Nat) : Cmd cfg → Prop
  | .sign c => Resolves st c.handle loc i ∧ (st.at i).ctype = .normal
  | .certify c => Resolves st c.handle loc i ∧
      ((c.format = 0 ∧ st.supports Feature.x509 ∧ (st.at i).allowX509 = true) ∨
        (c.format = 1 ∧ st.supports Feature.csr))
  | .derive c => Resolves st c.handle loc i ∧ (st.at i).ctype = .normal ∧ (st.at i).allowExport = true ∧
      st.supports Feature.cdiExport ∧ Bit c.flags DFlag.exportCdi ∧ Bit c.flags DFlag.createCert ∧
      ¬ Bit c.flags DFlag.recursive ∧ ¬ Bit c.flags DFlag.changeLocality
  | _ => False

/-- The data fed into the hash by some calls. -/
def fedBy {ops : Ops σ} : List (Use ops) → List Bytes
  | [] => []
  | .hashUpdate b :: us => b :: fedBy us
  | _ :: us => fedBy us

/-- The call neither begins nor ends a digest. -/
def Use.feeds {ops : Ops σ} : Use ops → Prop
  | .hashUpdate _ | .vendorId | .vendorSku | .certChain .. => True
  | _ => False

/-- The digest `d` was computed over the ancestry `path` (leaf first): a new hash was fed with the
contribution of each context and, if one of them asks for it, with the internal inputs. -/
def DigestOf {ops : Ops σ} (st : State cfg) (path : List Nat) (before : List (Use ops)) (d : Bytes) :
    Prop :=
  ∃ pre mid post more, before = pre ++ [.hasher, .hashInit] ++ mid ++ [.hashFinish (.ok d)] ++ post ∧
    (∀ u ∈ mid, u.feeds) ∧ fedBy mid = (path.flatMap fun i => nodeChunks (st.at i)) ++ more ∧
    ((∀ i ∈ path, (st.at i).usesInfo = false ∧ (st.at i).usesDice = false) → more = [])

/-- The key `k` was derived from the digest `d` with the labels that belong to the command. -/
def KeyFrom {ops : Ops σ} (c : Cmd cfg) (before : List (Use ops)) (d : Bytes) (k : ops.Key) : Prop :=
  match c with
  | .sign c => ∃ cdi, .deriveCdi d (ascii "DPE") (.ok cdi) ∈ before ∧
      .deriveKeyPair cdi c.label (keyPurpose cfg.profile) (.ok k) ∈ before
  | .certify c => ∃ cdi, .deriveCdi d (ascii "DPE") (.ok cdi) ∈ before ∧
      .deriveKeyPair cdi c.label (keyPurpose cfg.profile) (.ok k) ∈ before
  | .derive _ => ∃ h, .deriveExportedCdi d (ascii "Exported CDI") (.ok h) ∈ before ∧
      .deriveKeyPairExported h (exportPurpose cfg.profile) (exportPurpose cfg.profile) (.ok k) ∈ before
  | _ => False

/-- The command may work on the keys of a context with the ancestry `path`, and `d` is the digest over
that ancestry. -/
def Owns {ops : Ops σ} (st : State cfg) (c : Cmd cfg) (loc : U32) (before : List (Use ops))
    (path : List Nat) (d : Bytes) : Prop :=
  ∃ i, Entitled st loc i c ∧ Path st i path ∧ DigestOf st path before d

/-- The subject `s` is the context with the ancestry `path` and the digest `d`: the measurements are
those of the ancestry, the public key is that of a key derived from the digest, the label is the
caller's or, for an exported CDI, the identity of the device; and it is a CA exactly for an exported
CDI. -/
structure Attests {ops : Ops σ} (st : State cfg) (c : Cmd cfg) (before : List (Use ops))
    (path : List Nat) (d : Bytes) (s : Subject cfg) : Prop where
  chain : s.attested.chain = path.reverse.map fun i => (st.at i).tci
  key : ∃ k, KeyFrom c before d k ∧ .publicKey k (.ok s.key) ∈ before
  label : match c with
    | .certify c => s.attested.label = c.label
    | .derive _ => ∃ u, .ueid (.ok u) ∈ before ∧ s.attested.label = u.1.toList.take u.2.toNat
    | _ => False
  ca : s.attested.ca = true ↔ ∃ x, c = .derive x
  critical : s.attested.critical = marksCritical st

/-- The command deals with measurements. -/
def Cmd.hashes : Cmd cfg → Prop
  | .derive _ | .certify _ | .sign _ | .update _ => True
  | _ => False

/-- The command may need a new handle. -/
def Cmd.needsHandle : Cmd cfg → Prop
  | .init f => ¬ Bit f IFlag.default
  | .rotate c => ¬ Bit c.flags RFlag.targetIsDefault
  | .derive _ | .certify _ | .sign _ | .update _ => True
  | _ => False

/-- The command issues a certificate or a request. -/
def Cmd.certifies : Cmd cfg → Prop
  | .certify _ | .derive _ => True
  | _ => False

/-- What the command `c` from the locality `loc` in the state `st` may ask for after the calls
`before`. -/
def Allowed {ops : Ops σ} (st : State cfg) (c : Cmd cfg) (loc : U32) (before : List (Use ops)) :
    Use ops → Prop
  | .rand => c.needsHandle
  | .hasher | .hashInit | .hashUpdate _ | .hashFinish _ => c.hashes
  | .vendorId | .vendorSku => c = .getProfile ∨
      ∃ i path, Entitled st loc i c ∧ Path st i path ∧ ∃ j ∈ path, (st.at j).usesInfo = true
  | .certChain offset size => c = .chain ⟨offset, size⟩ ∨
      size = 2048 ∧ ∃ i path, Entitled st loc i c ∧ Path st i path ∧ ∃ j ∈ path, (st.at j).usesDice = true
  | .deriveCdi d label _ => label = ascii "DPE" ∧ ((∃ x, c = .sign x) ∨ ∃ x, c = .certify x) ∧
      ∃ path, Owns st c loc before path d
  | .deriveKeyPair cdi label purpose _ => purpose = keyPurpose cfg.profile ∧
      ((∃ x, c = .sign x ∧ label = x.label) ∨ ∃ x, c = .certify x ∧ label = x.label) ∧
      ∃ d, .deriveCdi d (ascii "DPE") (.ok cdi) ∈ before
  | .deriveExportedCdi d label _ => label = ascii "Exported CDI" ∧ (∃ x, c = .derive x) ∧
      ∃ path, Owns st c loc before path d
  | .deriveKeyPairExported h label purpose _ => label = exportPurpose cfg.profile ∧
      purpose = exportPurpose cfg.profile ∧ ∃ d, .deriveExportedCdi d (ascii "Exported CDI") (.ok h) ∈ before
  | .publicKey k _ => c.certifies ∧ ∃ path d, Owns st c loc before path d ∧ KeyFrom c before d k
  | .sign k data _ => ∃ path d, Owns st c loc before path d ∧ KeyFrom c before d k ∧
      match c with
      | .sign x => data = x.message
      | .certify x => x.format = 1 ∧ ∃ s, Attests st c before path d s ∧
          data = .buffer (requestInfo cfg.profile s).written
      | _ => False
  | .signAlias data => ∃ path d s, Owns st c loc before path d ∧ Attests st c before path d s ∧
      match c with
      | .certify x =>
        (x.format = 0 ∧ ∃ serial issuer validity,
          data = .buffer (tbsCertificate cfg.profile serial issuer validity s).written) ∨
        (x.format = 1 ∧ ∃ k sig, KeyFrom c before d k ∧
          .sign k (.buffer (requestInfo cfg.profile s).written) (.ok sig) ∈ before ∧
          data = .buffer (request cfg.profile (requestInfo cfg.profile s) sig).written)
      | .derive _ => ∃ serial issuer validity,
          data = .buffer (tbsCertificate cfg.profile serial issuer validity s).written
      | _ => False
  | .issuerName => c.certifies ∧ (∃ i, Entitled st loc i c) ∧ ∀ x, c = .certify x → x.format = 0
  | .signerId | .issuerKeyId | .certValidity | .subjectAltName => c.certifies ∧ ∃ i, Entitled st loc i c
  | .ueid _ => (∃ x, c = .derive x) ∧ ∃ i, Entitled st loc i c
  | .autoInitLocality => False

/-- Every call is allowed after those before it. -/
def Proper {ops : Ops σ} (st : State cfg) (c : Cmd cfg) (loc : U32) (us : List (Use ops)) : Prop :=
  ∀ before u after, us = before ++ u :: after → Allowed st c loc before u

/-- The call uses key material: a CDI, a key derived from it, or the alias key. -/
def Use.keyed {ops : Ops σ} : Use ops → Prop
  | .deriveCdi .. | .deriveKeyPair .. | .deriveExportedCdi .. | .deriveKeyPairExported .. | .publicKey ..
  | .sign .. | .signAlias _ => True
  | _ => False

/-! ### How often -/

/-- How many random draws, signatures with a derived key, signatures with the alias key and exports of
a CDI some calls contain. -/
structure Tally where
  draws : Nat
  signs : Nat
  alias_ : Nat
  exports : Nat
  deriving DecidableEq, Repr

/-- The contribution of a call. -/
def Use.tally {ops : Ops σ} : Use ops → Tally
  | .rand => ⟨1, 0, 0, 0⟩
  | .sign .. => ⟨0, 1, 0, 0⟩
  | .signAlias _ => ⟨0, 0, 1, 0⟩
  | .deriveExportedCdi .. => ⟨0, 0, 0, 1⟩
  | _ => ⟨0, 0, 0, 0⟩

/-- Sum, for each kind. -/
def Tally.add (a b : Tally) : Tally :=
  ⟨a.draws + b.draws, a.signs + b.signs, a.alias_ + b.alias_, a.exports + b.exports⟩

/-- The sum over some calls. -/
def tallyOf {ops : Ops σ} : List (Use ops) → Tally
  | [] => ⟨0, 0, 0, 0⟩
  | u :: us => u.tally.add (tallyOf us)

/-- At most, for each kind. -/
def Tally.le (a b : Tally) : Prop :=
  a.draws ≤ b.draws ∧ a.signs ≤ b.signs ∧ a.alias_ ≤ b.alias_ ∧ a.exports ≤ b.exports

instance (a b : Tally) : Decidable (a.le b) := by unfold Tally.le; infer_instance

/-- How often a command asks at most: eight draws for each handle that it may replace, one signature
with each key, one export. -/
def Cmd.limit : Cmd cfg → Tally
  | .getProfile | .destroy _ | .chain _ => ⟨0, 0, 0, 0⟩
  | .init _ | .rotate _ => ⟨8, 0, 0, 0⟩
  | .update _ => ⟨16, 0, 0, 0⟩
  | .sign _ => ⟨8, 1, 0, 0⟩
  | .certify _ => ⟨8, 1, 1, 0⟩
  | .derive _ => ⟨16, 0, 1, 1⟩

end Dpe
