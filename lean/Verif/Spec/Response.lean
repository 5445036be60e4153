import Verif.Spec.Wire
/-
The documented contents of responses: what header and which handles a response carries, how
large it is, and which errors are told apart by the status word.
-/
namespace Dpe
variable {cfg : Cfg} {σ : Type}

/-- The header of a response. -/
def Resp.hdr : Resp cfg → RespHdr
  | .getProfile h .. | .initCtx h .. | .derive h .. | .exported h .. | .rotate h ..
  | .certify256 h .. | .certify384 h .. | .certifyMl h .. | .sign256 h .. | .sign384 h ..
  | .signMl h .. | .destroy h | .chain h .. | .update h .. | .error h => h

/-- The context handles in a response, in order. -/
def Resp.handles : Resp cfg → List Handle
  | .initCtx _ x | .rotate _ x | .certify256 _ x .. | .certify384 _ x .. | .certifyMl _ x ..
  | .sign256 _ x .. | .sign384 _ x .. | .signMl _ x .. => [x]
  | .derive _ x p | .exported _ x p .. | .update _ x p => [x, p]
  | .getProfile .. | .destroy .. | .chain .. | .error .. => []

/-- The structure a response has (`none` for a bare error header). -/
def Resp.kind : Resp cfg → Option RespKind
  | .getProfile .. => some .getProfile
  | .initCtx .. => some .initCtx
  | .derive .. => some .derive
  | .exported .. => some .exported
  | .rotate .. => some .rotate
  | .certify256 .. => some .certify256
  | .certify384 .. => some .certify384
  | .certifyMl .. => some .certifyMl
  | .sign256 .. => some .sign256
  | .sign384 .. => some .sign384
  | .signMl .. => some .signMl
  | .destroy .. => some .destroy
  | .chain .. => some .chain
  | .update .. => some .update
  | .error .. => none

/-- The first `n` bytes of a certificate field, the others zero. -/
def clip {m : Nat} (c : BArr m) (n : U32) : BArr m :=
  Vector.ofFn fun i => if i.1 < n.toNat then c[i] else 0

/-- A response whose certificate field is zero beyond the certificate. -/
def Resp.clipped : Resp cfg → Resp cfg
  | .exported h x p c n b => .exported h x p c n (clip b n)
  | .certify256 h x a b n c => .certify256 h x a b n (clip c n)
  | .certify384 h x a b n c => .certify384 h x a b n (clip c n)
  | .certifyMl h x k n c => .certifyMl h x k n (clip c n)
  | r => r

/-- The success header of an instance: `"DPER"`, status 0, the profile. -/
def successHdr (p : Profile) : RespHdr := ⟨0x44504552, 0, p⟩

/-- The command reports its result in the structure of kind `k`. -/
def RespondsIn (c : Cmd cfg) (k : RespKind) : Prop :=
  match c with
  | .getProfile => k = .getProfile
  | .init _ => k = .initCtx
  | .rotate _ => k = .rotate
  | .destroy _ => k = .destroy
  | .update _ => k = .update
  | .chain _ => k = .chain
  | .derive d => if Bit d.flags DFlag.exportCdi then k = .exported else k = .derive
  | .certify (.p256 ..) => k = .certify256
  | .certify (.p384 ..) => k = .certify384
  | .certify (.mldsa87 ..) => k = .certifyMl
  | .sign (.p256 ..) => k = .sign256
  | .sign (.p384 ..) => k = .sign384
  | .sign (.mldsa87 ..) => k = .signMl
  | .sign (.mldsa87Raw ..) => k = .signMl

/-- The error without the details that a status word does not carry: the payload of platform
and crypto errors, and which internal error it is. -/
def Err.bare : Err → Err
  | .internal _ => .internal .contextIndexOob
  | .platform (.issuerNameError _) => .platform (.issuerNameError 0)
  | .platform (.printError _) => .platform (.printError 0)
  | .platform (.serialNumberError _) => .platform (.serialNumberError 0)
  | .platform (.subjectKeyIdentifierError _) => .platform (.subjectKeyIdentifierError 0)
  | .platform (.certValidityError _) => .platform (.certValidityError 0)
  | .platform (.issuerKeyIdentifierError _) => .platform (.issuerKeyIdentifierError 0)
  | .platform (.subjectAlternativeNameError _) => .platform (.subjectAlternativeNameError 0)
  | .crypto (.abstractionLayer _) => .crypto (.abstractionLayer 0)
  | .crypto (.cryptoLibError _) => .crypto (.cryptoLibError 0)
  | .crypto (.hashError _) => .crypto (.hashError 0)
  | e => e

/-- The certificate generator never changes the size of the window it writes into. -/
def KeepsWindow (env : Env cfg σ) : Prop :=
  ∀ kind args st w win x win', env.certGen kind args st w win = (x, win') →
    win'.length = win.length

/-- The certificate generator never fails with "no error". -/
def NamesErrors (env : Env cfg σ) : Prop :=
  ∀ kind args st w win w' win', env.certGen kind args st w win ≠ ((.error .noError, w'), win')

end Dpe
