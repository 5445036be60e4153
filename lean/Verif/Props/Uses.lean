import Verif.Proofs.Uses
import Verif.Props.Structure
import Verif.Examples.CertRuns
/-
What a command asks of the crypto implementation and of the platform, whatever its outcome (C73).  The protocol
of the calls comes from running the command with an implementation that notes down every call; it is the same
run otherwise.
-/
namespace Dpe
variable {cfg : Cfg} {σ : Type} {ops : Ops σ} {st : State cfg} {c : Cmd cfg} {loc : U32} {w : σ} {out : Bytes}

/-- C73: taking the protocol changes nothing: the result, the state, the outside world and the response buffer
are those of the command itself. -/
theorem C73_faithful (ops : Ops σ) (c : Cmd cfg) (loc : U32) (st : State cfg) (w : σ) (out : Bytes) :
    let x := exec (ops.env cfg) c loc ⟨st, w, out⟩
    let y := exec (ops.logged.env cfg) c loc ⟨st, (w, []), out⟩
    y.1 = x.1 ∧ y.2.st = x.2.st ∧ y.2.w.1 = x.2.w ∧ y.2.out = x.2.out := by
  obtain ⟨es, e, _⟩ := Logs.exec (ops := ops) c loc st w [] out
  intro x y
  have e : y = _ := e
  rw [e]
  exact ⟨rfl, rfl, rfl, rfl⟩

/-- C73: a command draws at most eight random handles for each handle that it may replace, signs at most once
with the derived key and at most once with the alias key, and exports at most one CDI; which of them, depends on
the command. -/
theorem C73_counts (ops : Ops σ) (c : Cmd cfg) (loc : U32) (st : State cfg) (w : σ) (out : Bytes) :
    (tallyOf (usesOf ops c loc st w out)).le c.limit := by
  obtain ⟨es, e, h⟩ := Logs.exec (ops := ops) c loc st w [] out
  unfold usesOf
  rw [e]
  exact h

/-- C73: every call that a command makes, whatever its outcome and whatever the outside world answers, is one
that it may make at that point: keys are derived for nobody but the context that the command names, from the
digest over its ancestry and with the labels of the command; the derived key signs the caller's message or the
request about itself; the alias key signs certificates and requests about that context. -/
theorem C73_uses (hst : InService st) (hfit : AlgorithmFits cfg ops) (hser : SerialGiven ops) (c : Cmd cfg)
    (loc : U32) (w : σ) (out : Bytes) : Proper st c loc (usesOf ops c loc st w out) :=
  (asks_exec (C01_forest hst).links hfit hser c Proper.nil w out).1

theorem Proper.mem {us : List (Use ops)} (h : Proper st c loc us) {u : Use ops} (hu : u ∈ us) :
    ∃ before after, us = before ++ u :: after ∧ Allowed st c loc before u := by
  obtain ⟨before, after, e⟩ := List.append_of_mem hu
  exact ⟨before, after, e, h before u after e⟩

theorem Proper.keyed {us : List (Use ops)} (h : Proper st c loc us) {u : Use ops} (hu : u ∈ us)
    (hk : u.keyed) : ∃ i, Entitled st loc i c := by
  obtain ⟨before, after, rfl, ha⟩ := h.mem hu
  cases u with
  | deriveCdi => obtain ⟨_, _, _, i, hi, _⟩ := ha; exact ⟨i, hi⟩
  | deriveExportedCdi => obtain ⟨_, _, _, i, hi, _⟩ := ha; exact ⟨i, hi⟩
  | deriveKeyPair =>
    obtain ⟨_, _, d, hd⟩ := ha
    obtain ⟨_, _, _, _, _, _, i, hi, _⟩ := h.mem (List.mem_append_left _ hd)
    exact ⟨i, hi⟩
  | deriveKeyPairExported =>
    obtain ⟨_, _, d, hd⟩ := ha
    obtain ⟨_, _, _, _, _, _, i, hi, _⟩ := h.mem (List.mem_append_left _ hd)
    exact ⟨i, hi⟩
  | publicKey => obtain ⟨_, _, _, ⟨i, hi, _⟩, _⟩ := ha; exact ⟨i, hi⟩
  | sign => obtain ⟨_, _, ⟨i, hi, _⟩, _⟩ := ha; exact ⟨i, hi⟩
  | signAlias => obtain ⟨_, _, _, ⟨i, hi, _⟩, _⟩ := ha; exact ⟨i, hi⟩
  | _ => exact hk.elim

/-- C73: no key material is touched, not even in a command that fails later on, unless the command names a
context of its locality and has the permission for what it asks. -/
theorem C73_keys (hst : InService st) (hfit : AlgorithmFits cfg ops) (hser : SerialGiven ops) {u : Use ops}
    (hu : u ∈ usesOf ops c loc st w out) (hk : u.keyed) : ∃ i, Entitled st loc i c :=
  (C73_uses hst hfit hser c loc w out).keyed hu hk

/-- C73: what the alias key signs is a certificate or a request whose measurements are those of the ancestry of
the context that the command names, root first, and which is for a CA exactly if a CDI is exported. -/
theorem C73_alias (hst : InService st) (hfit : AlgorithmFits cfg ops) (hser : SerialGiven ops) {data : SignData}
    (hu : .signAlias data ∈ usesOf ops c loc st w out) :
    ∃ i path s, Entitled st loc i c ∧ Path st i path ∧
      s.attested.chain = (path.reverse.map fun i => (st.at i).tci) ∧
      (s.attested.ca = true ↔ ∃ x, c = .derive x) ∧
      ((∃ serial issuer validity,
          data = .buffer (tbsCertificate cfg.profile serial issuer validity s).written) ∨
        ∃ x sig, c = .certify x ∧ x.format = 1 ∧
          data = .buffer (request cfg.profile (requestInfo cfg.profile s) sig).written) := by
  obtain ⟨before, after, _, path, d, s, ⟨i, hi, hp, _⟩, ha, h⟩ :=
    (C73_uses hst hfit hser c loc w out).mem hu
  refine ⟨i, path, s, hi, hp, ha.chain, ha.ca, ?_⟩
  cases c with
  | certify x =>
    rcases h with ⟨_, h⟩ | ⟨hf, _, sig, _, _, h⟩
    · exact .inl h
    · exact .inr ⟨x, sig, rfl, hf, h⟩
  | derive x => exact .inl h
  | _ => exact h.elim

/-- C73: what a derived key signs is the message of a Sign command, or the information of the request that
CertifyKey was asked for, which holds the public half of a key that was derived in the same way from the same
digest. -/
theorem C73_signed (hst : InService st) (hfit : AlgorithmFits cfg ops) (hser : SerialGiven ops) {k : ops.Key}
    {data : SignData} {r : Except CryptoErr Sig} (hu : .sign k data r ∈ usesOf ops c loc st w out) :
    (∃ x, c = .sign x ∧ data = x.message) ∨
    ∃ x d k', ∃ s : Subject cfg, c = .certify x ∧ x.format = 1 ∧
      data = .buffer (requestInfo cfg.profile s).written ∧ s.attested.label = x.label ∧
      KeyFrom c (usesOf ops c loc st w out) d k ∧ KeyFrom c (usesOf ops c loc st w out) d k' ∧
      .publicKey k' (.ok s.key) ∈ usesOf ops c loc st w out := by
  obtain ⟨before, after, e, path, d, _, hk0, h⟩ := (C73_uses hst hfit hser c loc w out).mem hu
  cases c with
  | sign x => exact .inl ⟨x, rfl, h⟩
  | certify x =>
    obtain ⟨hf, s, ha, h⟩ := h
    obtain ⟨k', hk', hk⟩ := ha.key
    exact .inr ⟨x, d, k', s, rfl, hf, h, ha.label, e ▸ hk0.append _, e ▸ hk'.append _,
      e ▸ List.mem_append_left _ hk⟩
  | _ => exact h.elim

/-! ### Concrete protocols -/

namespace Toy

/-- The name of a call. -/
def nameOf {ops : Ops σ} : Use ops → String
  | .rand => "rand" | .hasher => "hasher" | .hashInit => "init" | .hashUpdate _ => "update"
  | .hashFinish _ => "finish" | .deriveCdi .. => "cdi" | .deriveKeyPair .. => "key"
  | .deriveExportedCdi .. => "export" | .deriveKeyPairExported .. => "exported key" | .sign .. => "sign"
  | .publicKey .. => "public" | .signAlias _ => "alias" | .certChain .. => "chain" | .issuerName => "issuer"
  | .signerId => "signer" | .issuerKeyId => "issuer key" | .vendorId => "vendor" | .vendorSku => "sku"
  | .autoInitLocality => "locality" | .certValidity => "validity" | .subjectAltName => "alt name"
  | .ueid _ => "ueid"

/-- The names of the calls of a command. -/
def called (c : Cmd Toy.cfg) (x : R) (out : Bytes) : List String :=
  (usesOf certOps c 0 x.st x.p.2 out).map nameOf

end Toy

theorem Toy.certOps_fits : AlgorithmFits Toy.cfg Toy.certOps := Toy.decent_cert.fits

theorem Toy.certOps_serial : SerialGiven Toy.certOps := Toy.decent_cert.serial

-- Sign for a grandchild: six updates for three contexts, then the key, the signature and a new handle.
example : Toy.called (.sign (.p256 (Toy.hd 4) Toy.label 0 (Vector.replicate 32 1))) Toy.v4 Toy.bigBuf =
    ["hasher", "init", "update", "update", "update", "update", "update", "update", "finish", "cdi", "key",
      "sign", "rand"] := by decide +kernel

-- The same with a handle that is unknown in the locality: nothing is asked.
example : Toy.called (.sign (.p256 (Toy.hd 9) Toy.label 0 (Vector.replicate 32 1))) Toy.v4 Toy.bigBuf = [] := by
  decide +kernel

-- The theorem on that run: a derived key is used, so the command is entitled to a context.
example : ∃ i, Entitled Toy.v4.st 0 i (.sign (.p256 (Toy.hd 4) Toy.label 0 (Vector.replicate 32 1))) := by
  have h : (usesOf Toy.certOps (.sign (.p256 (Toy.hd 4) Toy.label 0 (Vector.replicate 32 1))) 0 Toy.v4.st
      Toy.v4.p.2 Toy.bigBuf)[9]?.map Toy.nameOf = some "cdi" := by decide +kernel
  rcases e : (usesOf Toy.certOps (.sign (.p256 (Toy.hd 4) Toy.label 0 (Vector.replicate 32 1))) 0 Toy.v4.st
      Toy.v4.p.2 Toy.bigBuf)[9]? with _ | u
  · rw [e] at h; cases h
  · rw [e] at h
    have hm := List.mem_of_getElem? e
    cases u with
    | deriveCdi d l r =>
      exact C73_keys (.reached Toy.v4.reach) Toy.certOps_fits Toy.certOps_serial hm trivial
    | _ => simp [Toy.nameOf] at h

-- CertifyKey: a certificate is signed with the alias key only, a request with the derived key before.
example : (tallyOf (usesOf Toy.certOps (Toy.certifyCmd 4 0) 0 Toy.v4.st Toy.v4.p.2 Toy.bigBuf)) =
    ⟨1, 0, 1, 0⟩ := by decide +kernel
example : (tallyOf (usesOf Toy.certOps (Toy.certifyCmd 4 1) 0 Toy.v4.st Toy.v4.p.2 Toy.bigBuf)) =
    ⟨1, 1, 1, 0⟩ := by decide +kernel

-- A buffer that is too short for the request: signatures are made nevertheless, as many as fit.
example : (tallyOf (usesOf Toy.certOps (Toy.certifyCmd 4 1) 0 Toy.v4.st Toy.v4.p.2 (List.replicate 750 0))) =
    ⟨0, 1, 0, 0⟩ := by decide +kernel

-- An export.
example : (tallyOf (usesOf Toy.certOps (.derive Toy.exportCmd) 0 Toy.v4.st Toy.v4.p.2 Toy.bigBuf)) =
    ⟨0, 0, 1, 1⟩ := by decide +kernel

-- What is not proper: the alias key in a Sign command, a derived key that was never derived, a draw for the
-- default handle.
example (x : SignCmd) (d : SignData) : ¬ Proper (ops := ops) st (.sign x) loc [.signAlias d] := by
  intro h
  obtain ⟨_, _, _, _, _, h⟩ := h [] _ [] rfl
  exact h
example (x : SignCmd) (k : ops.Key) (d : SignData) (r : Except CryptoErr Sig) :
    ¬ Proper st (.sign x) loc [.sign k d r] := by
  intro h
  obtain ⟨_, _, _, ⟨_, h, _⟩, _⟩ := h [] _ [] rfl
  simp at h
example : ¬ Proper (ops := ops) st (.init 0x40000000) loc [.rand] := by
  intro h
  exact h [] _ [] rfl (by decide)

end Dpe
