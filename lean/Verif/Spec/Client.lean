import Verif.Model.Client
import Verif.Model.X509
import Verif.Spec.Simulator
import Verif.Spec.Service
/-
What a user of the Go client relies on.
-/
namespace Dpe
variable {cfg : Cfg} {σ : Type}

/-- A message and zeros behind it. -/
def Padded (m : Bytes) (d : Bytes) : Prop := ∃ k, d = m ++ List.replicate k 0

/-- The command that a call stands for. -/
inductive Means : GoCall → Cmd cfg → Prop
  | initialize (f : U32) : Means (.initialize f) (.init f)
  | getProfile : Means .getProfile .getProfile
  | certify256 (h : Handle) (l : BArr 32) (format f : U32) :
      Means (.certifyKey h l.toList format f) (.certify (.p256 h f format l))
  | certify384 (h : Handle) (l : BArr 48) (format f : U32) :
      Means (.certifyKey h l.toList format f) (.certify (.p384 h f format l))
  | certifyMl (h : Handle) (l : BArr 48) (format f : U32) :
      Means (.certifyKey h l.toList format f) (.certify (.mldsa87 h f format l))
  | destroy (h : Handle) : Means (.destroy h) (.destroy h)
  | derive (h : Handle) (d : BArr cfg.tciSize) (f y l : U32) :
      Means (.derive h d.toList f y l)
        (.derive { handle := h, data := d, flags := f, tciType := y, targetLocality := l, svn := 0 })
  | rotate (h : Handle) (f : U32) : Means (.rotate h f) (.rotate { handle := h, flags := f })
  | sign256 (h : Handle) (l : BArr 32) (f : U32) (d : BArr 32) :
      Means (.sign h l.toList f d.toList) (.sign (.p256 h l f d))
  | sign384 (h : Handle) (l : BArr 48) (f : U32) (d : BArr 48) :
      Means (.sign h l.toList f d.toList) (.sign (.p384 h l f d))
  | signMl (h : Handle) (l : BArr 48) (f : U32) (d : BArr 64) :
      Means (.sign h l.toList f d.toList) (.sign (.mldsa87 h l f d))
  | signRaw (h : Handle) (l : BArr 48) (m : Bytes) (d : BArr 1024) : Padded m d.toList →
      Means (.signRaw h l.toList m) (.sign (.mldsa87Raw h l 1 (BitVec.ofNat 32 m.length) d))
  | update (h : Handle) (d : BArr cfg.tciSize) (y : U32) :
      Means (.update h d.toList y)
        (.update { parentHandle := h, data := d, reserved := 0, tciType := y, reservedSvn := 0 })

/-- The size of what Sign signs. -/
def signDataSize : Profile → Nat
  | .p256 => 32
  | .p384 => 48
  | .mldsa87 => 64

/-- The calls whose arguments have a wrong size, or that the profile does not have. -/
def Malformed (p : Profile) : GoCall → Prop
  | .certifyKey _ l _ _ => l.length ≠ labelSize p
  | .derive _ d _ _ _ => d.length ≠ digestLength p
  | .sign _ l _ d => l.length ≠ labelSize p ∨ d.length ≠ signDataSize p
  | .signRaw _ l m => p ≠ .mldsa87 ∨ l.length ≠ labelSize p ∨ 1024 < m.length
  | .update _ d _ => d.length ≠ digestLength p
  | _ => False

/-- The calls that the client sends although they are no command of the instance: Sign with the flag for
raw messages (bit 0) in the ML-DSA profile, and RotateContextHandle if the build leaves it out. -/
def Deadly (cfg : Cfg) : GoCall → Prop
  | .sign _ _ f _ => cfg.profile = .mldsa87 ∧ Bit f 0
  | .rotate _ _ => Bit cfg.disabled Feature.rotate
  | _ => False

/-- The call returns `v` when the command's reply is `reply`. -/
def Answer (cfg : Cfg) (k : GoCall) (reply : Bytes) (v : GoValue) : Prop :=
  match k with
  | .getProfile => ∃ vid sku support, reply = profileReply cfg support vid sku ∧
      v = .profile ⟨wireProfile cfg.profile, 0, 13, vid, sku, BitVec.ofNat 32 cfg.maxHandles, support⟩
  | .initialize _ | .rotate _ _ => ∃ h, reply = handlesReply cfg.profile [h] ∧ v = .handle h
  | .destroy _ => reply = handlesReply cfg.profile [] ∧ v = .nothing
  | .certifyKey _ _ _ _ => ∃ h key cert, KeyOf cfg.profile key ∧ reply = certifyReply cfg.profile h key cert ∧
      v = match key with
        | .p256 x y => .key h x.toList y.toList cert
        | .p384 x y => .key h x.toList y.toList cert
        | .mldsa k => .key h k.toList (List.replicate 2592 0) cert
  | .derive _ _ f _ _ =>
    if Bit f DFlag.exportCdi then
      ∃ parent cdi cert, reply = exportReply cfg.profile parent cdi cert ∧ cert.length < 2 ^ 32 ∧
        v = .derived Handle.invalid parent cdi (BitVec.ofNat 32 cert.length) cert
    else ∃ h parent, reply = handlesReply cfg.profile [h, parent] ∧
        v = .derived h parent (Vector.replicate 32 0) 0 []
  | .sign _ _ _ _ | .signRaw _ _ _ => ∃ h sig, SigOf cfg.profile sig ∧
      reply = signReply cfg.profile h sig ∧ v = match sig with
        | .p256 r s => .signature h r.toList s.toList []
        | .p384 r s => .signature h r.toList s.toList []
        | .mldsa s => .signature h [] [] s.toList
  | .update _ _ _ => ∃ h parent, reply = handlesReply cfg.profile [h, parent] ∧ v = .updated h parent

/-- The client for a profile of the instance. -/
def clientKind : Profile → ClKind
  | .p256 => .p256
  | .p384 => .p384
  | .mldsa87 => .mldsa87

/-- `c` is a client that has connected to a simulator of this build, at any time of its life. -/
def Connected (L : Lib) (a : Artifact) (cfg : Cfg) (c : Client) : Prop :=
  ∃ (p loc : U32) (addr : Nat) (s : Sys cfg (Soft (L.crypto cfg.profile) × Unit)) (x : Option (Sys cfg _)),
    InService s.st ∧ addr % 4 = 0 ∧
    newClient (simSend ((device L a cfg.profile).env cfg) loc addr) p (some s) = (.ok c, x)

/-- The kind of an error, in the words of the client; the errors of the certificate writer and of buffers
have none. -/
def Err.kindText : Err → Option String
  | .internal _ => "error internal to DPE"
  | .invalidCommand => "command ID is invalid"
  | .invalidArgument => "argument is invalid"
  | .sessionExhausted => "session exhausted"
  | .initializationSeedLocked => "initialization seed locked"
  | .outOfMemory => "out of memory"
  | .cancelledCommand => "cancelled command"
  | .invalidHandle => "contextHandle does not exist"
  | .invalidLocality => "Hardware Locality does not exist"
  | .handleDefined => "handle already defined"
  | .argumentNotSupported => "argument is not supported by this profile, implementation, or integration"
  | .alreadyInitialized => "already initialized"
  | .invalidParentLocality => "Parent ContextHandle does not exist in the caller's locality"
  | .maxTcis => "maximum number of TCIs have been created"
  | .platform _ => "error internal to platform"
  | .crypto _ => "cryptography error"
  | .validation _ => "validation error"
  | _ => none

end Dpe
