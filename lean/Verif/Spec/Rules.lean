import Verif.Spec.Effects
import Verif.Spec.Life
/-
The complete list of reasons for which a command is refused, in the order in which they are
reported, and the ways in which the environment can make an allowed command fail.
-/
namespace Dpe
variable {cfg : Cfg} {σ : Type}

/-- A reason to refuse a command, with the error it is reported as. -/
abbrev Rule := Prop × Err

/-- `e` is the error of the first reason that applies. -/
def FirstRefusal : List Rule → Err → Prop
  | [], _ => False
  | (p, e') :: l, e => (p ∧ e = e') ∨ (¬ p ∧ FirstRefusal l e)

/-- No reason applies. -/
def NoRefusal (l : List Rule) : Prop := ∀ x ∈ l, ¬ x.1

/-- `P` holds of the context named by `h`. -/
def Named (st : State cfg) (h : Handle) (loc : U32) (P : Nat → Prop) : Prop :=
  ∃ i, Resolves st h loc i ∧ P i

/-- Handle lookup. -/
def lookupRules (st : State cfg) (h : Handle) (loc : U32) : List Rule :=
  [(¬ LocalityInUse st loc, .invalidLocality), (¬ ∃ i, Names st h loc i, .invalidHandle)]

/-- The target locality of a derivation. -/
def targetOf (c : DeriveCmd cfg) (loc : U32) : U32 :=
  if Bit c.flags DFlag.changeLocality then c.targetLocality else loc

/-- Flag combinations and missing permissions that DeriveContext refuses. -/
def BadDerive (p : Context cfg) (f : U32) : Prop :=
  (Bit f DFlag.allowX509 ∧ p.allowX509 = false) ∨
  (Bit f DFlag.exportCdi ∧
    (¬ Bit f DFlag.createCert ∨ Bit f DFlag.recursive ∨ Bit f DFlag.changeLocality ∨
      p.ctype = .simulation ∨ p.allowExport = false)) ∨
  (Bit f DFlag.recursive ∧
    (Bit f DFlag.retainParent ∨ Bit f DFlag.allowRecursive ∨ p.allowRecursive = false))

/-- The rule that keeps default and non-default contexts apart: a default child needs a target
locality without Active contexts, or with a single one, the parent, which is default and not
retained; a non-default child needs a target locality without a default context, or one whose
(first) default context is the parent, which is not retained. -/
def DefaultClash (st : State cfg) (c : DeriveCmd cfg) (i : Nat) (tl : U32) : Prop :=
  (Bit c.flags DFlag.makeDefault ∧ ∃ j, (st.at j).state = .active ∧ (st.at j).locality = tl ∧
    (j ≠ i ∨ Bit c.flags DFlag.retainParent ∨ (st.at i).handle ≠ Handle.default)) ∨
  (¬ Bit c.flags DFlag.makeDefault ∧ ∃ d, Resolves st Handle.default tl d ∧
    (d ≠ i ∨ Bit c.flags DFlag.retainParent))

/-- A raw message longer than the 1024 bytes the command carries. -/
def SignCmd.TooLong : SignCmd → Prop
  | .mldsa87Raw _ _ _ size _ => 1024 < size.toNat
  | _ => False

/-- The refusal rules of every command that are checked before anything else happens. -/
def earlyRules (st : State cfg) (loc : U32) : Cmd cfg → List Rule
  | .getProfile => []
  | .chain c => [(2048 < c.size.toNat, .invalidArgument)]
  | .init f =>
    [ (Bit f IFlag.default ∧ st.hasInitialized = true, .argumentNotSupported),
      (Bit f IFlag.simulation ∧ ¬ st.supports Feature.simulation, .argumentNotSupported),
      (Bit f IFlag.default ↔ Bit f IFlag.simulation, .invalidArgument),
      (∀ i, i < cfg.maxHandles → Live st i, .maxTcis) ]
  | .rotate c =>
    (¬ st.supports Feature.rotate, .invalidCommand) :: lookupRules st c.handle loc ++
    [ (Bit c.flags RFlag.targetIsDefault ∧
        ((∃ j, Names st Handle.default loc j) ∨
          Named st c.handle loc fun i => ∃ j, j ≠ i ∧ (st.at j).state = .active ∧
            (st.at j).locality = loc), .invalidArgument) ]
  | .destroy h => lookupRules st h loc
  | .sign c =>
    (c.TooLong, .invalidArgument) :: lookupRules st c.handle loc ++
    [ (Named st c.handle loc fun i => (st.at i).ctype = .simulation, .invalidArgument) ]
  | .certify c =>
    lookupRules st c.handle loc ++
    [ (c.format = 0 ∧ ¬ st.supports Feature.x509, .argumentNotSupported),
      (c.format = 0 ∧ Named st c.handle loc fun i => (st.at i).allowX509 = false,
        .invalidArgument),
      (c.format = 1 ∧ ¬ st.supports Feature.csr, .argumentNotSupported),
      (c.format ≠ 0 ∧ c.format ≠ 1, .invalidArgument) ]
  | .derive c =>
    (AsksUnsupported st c.flags, .argumentNotSupported) :: lookupRules st c.handle loc ++
    [ (Named st c.handle loc fun i => BadDerive (st.at i) c.flags, .invalidArgument),
      (Bit c.flags DFlag.recursive ∧
        Named st c.handle loc fun i => (st.at i).tci.tciType ≠ c.tciType, .invalidArgument),
      (Bit c.flags DFlag.recursive ∧ targetOf c loc ≠ loc, .invalidLocality),
      (¬ Bit c.flags DFlag.recursive ∧ Named st c.handle loc fun i =>
        ∃ j, Lists st i j ∧ (st.at j).tci.tciType = c.tciType, .invalidArgument) ]
  | .update c =>
    [ (c.parentHandle = Handle.default, .invalidArgument),
      (¬ ∃ i, Names st c.parentHandle loc i, .invalidParentLocality),
      (¬ Named st c.parentHandle loc fun i => ∃ k, ActiveChild st i c.tciType k,
        .invalidArgument) ]

/-- The refusal rules that DeriveContext checks after it has drawn the new handle of a retained
parent. -/
def lateRules (st : State cfg) (loc : U32) : Cmd cfg → List Rule
  | .derive c =>
    [ (¬ Bit c.flags DFlag.recursive ∧ ¬ Bit c.flags DFlag.exportCdi ∧
        ∀ i, i < cfg.maxHandles → Live st i, .maxTcis),
      (¬ Bit c.flags DFlag.recursive ∧ ¬ Bit c.flags DFlag.exportCdi ∧
        Named st c.handle loc fun i => DefaultClash st c i (targetOf c loc), .invalidArgument) ]
  | _ => []

/-- All reasons for which a command is refused, in order. -/
def rules (st : State cfg) (loc : U32) (c : Cmd cfg) : List Rule :=
  earlyRules st loc c ++ lateRules st loc c

/-- The commands that may draw a random handle. -/
def Cmd.draws : Cmd cfg → Prop
  | .init _ | .derive _ | .certify _ | .sign _ | .rotate _ | .update _ => True
  | .getProfile | .chain _ | .destroy _ => False

/-- The commands that extend a measurement. -/
def Cmd.measures : Cmd cfg → Prop
  | .derive _ | .update _ => True
  | _ => False

/-- The signing command. -/
def Cmd.signs : Cmd cfg → Prop
  | .sign _ => True
  | _ => False

/-- Some cryptographic operation used by command `c` (outside the certificate generator) can
fail with `e`. -/
def CryptoFails (ops : Ops σ) (c : Cmd cfg) (e : CryptoErr) : Prop :=
  ∃ w, (c.draws ∧ (ops.rand w).1 = .error e) ∨
    ((c.measures ∨ c.signs) ∧ ((ops.hasher w).1 = .error e ∨ (ops.hashInit w).1 = .error e ∨
      (∃ b, (ops.hashUpdate b w).1 = .error e) ∨ (ops.hashFinish w).1 = .error e)) ∨
    (c.signs ∧ ((∃ d l, (ops.deriveCdi d l w).1 = .error e) ∨
      (∃ cdi l x, (ops.deriveKeyPair cdi l x w).1 = .error e) ∨
      (∃ k d, (ops.sign k d w).1 = .error e)))

/-- Some platform operation used by command `c` (outside the certificate generator) can fail
with `e`. -/
def PlatFails (ops : Ops σ) (c : Cmd cfg) (e : PlatErr) : Prop :=
  ∃ w, ((c = .getProfile ∨ c.signs) ∧ ((ops.vendorId w).1 = .error e ∨ (ops.vendorSku w).1 = .error e)) ∨
    (∃ k, c = .chain k ∧ (ops.certChain k.offset k.size w).1 = .error e) ∨
    ((∃ k, c = .derive k ∧ Bit k.flags DFlag.exportCdi) ∧ (ops.ueid w).1 = .error e)

/-- The random source can deliver eight handles in a row each of which is the default handle,
carried by a slot of `st`, or equal to one other handle `x`. -/
def RngStuck (ops : Ops σ) (st : State cfg) : Prop :=
  ∃ (w : σ) (l : List Handle) (w' : σ) (x : Handle), Draws ops w (l.map .ok) w' ∧ l.length = 8 ∧
    ∀ h ∈ l, h = Handle.default ∨ (∃ i, i < cfg.maxHandles ∧ (st.at i).handle = h) ∨ h = x

/-- Drawing a handle can fail with `e`. -/
def DrawFault (ops : Ops σ) (st : State cfg) (e : Err) : Prop :=
  (e = .internal .handleGenerationExhausted ∧ RngStuck ops st) ∨
  ∃ ce w, e = .crypto ce ∧ (ops.rand w).1 = .error ce

/-- Reading the certificate chain from offset `off` onwards (and hashing it) succeeds `n`
times. -/
inductive ChainGoes (ops : Ops σ) : Nat → U32 → σ → Prop
  | zero {off : U32} {w : σ} : ChainGoes ops 0 off w
  | succ {n : Nat} {off len : U32} {ch : BArr 2048} {b : Bytes} {w w1 w2 : σ} :
      ops.certChain off 2048 w = (.ok (len, ch), w1) → ops.hashUpdate b w1 = (.ok (), w2) →
      ChainGoes ops n (off + len) w2 → ChainGoes ops (n + 1) off w

/-- The ways in which the environment or the caller's buffer make an allowed command fail. -/
inductive EnvFault (env : Env cfg σ) (s : Sys cfg σ) (c : Cmd cfg) : Err → Prop
  | crypto {e : CryptoErr} : CryptoFails env.toOps c e → EnvFault env s c (.crypto e)
  | platform {e : PlatErr} : PlatFails env.toOps c e → EnvFault env s c (.platform e)
  | stuck : c.draws → RngStuck env.toOps s.st →
      EnvFault env s c (.internal .handleGenerationExhausted)
  | digest {w w' : σ} {d : Bytes} : c.measures → env.hashFinish w = (.ok d, w') →
      d.length ≠ cfg.tciSize → EnvFault env s c (.internal .digestLengthMismatch)
  | chunk {off len : U32} {ch : BArr 2048} {w w' : σ} : c.signs →
      env.certChain off 2048 w = (.ok (len, ch), w') → 2048 < len.toNat →
      EnvFault env s c (.internal .certChainChunkSliceOob)
  | endless {w : σ} : c.signs → ChainGoes env.toOps cfg.diceFuel 0 w → EnvFault env s c .panic
  | ueid {k : DeriveCmd cfg} {w w' : σ} {b : BArr 48} {n : U32} : c = .derive k →
      Bit k.flags DFlag.exportCdi → env.ueid w = (.ok (b, n), w') → 48 < n.toNat →
      EnvFault env s c (.platform .invalidUeidError)
  | cert {kind : CertKind} {args : CertArgs} {w w' : σ} {win' : Bytes} {e : Err} :
      c.issues kind → (∃ i, Resolves s.st args.handle args.locality i) →
      env.certGen kind args s.st w (s.out.drop c.replyMax) = ((.error e, w'), win') →
      EnvFault env s c e
  | buffer : NoFit env s c → EnvFault env s c .invalidResponseBuf
  | wrongKey {k : CertifyCmd} : c = .certify k → WrongKey env s k →
      EnvFault env s c .invalidArgument

/-- A well-behaved environment with a sufficient buffer for command `c` in `s`. -/
structure WellBehaved (env : Env cfg σ) (s : Sys cfg σ) (c : Cmd cfg) : Prop where
  crypto : ∀ e, ¬ CryptoFails env.toOps c e
  platform : ∀ e, ¬ PlatFails env.toOps c e
  rng : ¬ RngStuck env.toOps s.st
  digest : ∀ w d w', env.hashFinish w = (.ok d, w') → d.length = cfg.tciSize
  chunk : ∀ off len ch w w', env.certChain off 2048 w = (.ok (len, ch), w') → len.toNat ≤ 2048
  finite : ∀ w, ¬ ChainGoes env.toOps cfg.diceFuel 0 w
  ueid : ∀ w b n w', env.ueid w = (.ok (b, n), w') → n.toNat ≤ 48
  cert : c.makesCert → ∀ kind args w win, ∃ res w' win',
    env.certGen kind args s.st w win = ((.ok res, w'), win') ∧ win.length ≤ win'.length ∧
    ∀ k, c = .certify k → res.pubKey.kind = k.variant
  buffer : c.replyMax ≤ s.out.length

end Dpe
