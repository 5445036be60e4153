import Verif.Model.Simulator
import Verif.Spec.Complete
import Verif.Spec.Faults
import Verif.Spec.Reference
import Verif.Spec.Wire
/-
What the simulator does for its clients.
-/
namespace Dpe
variable {cfg : Cfg} {σ : Type}

/-- The features that the command line asks for. -/
def SimArgs.asks (a : SimArgs) (f : Nat) : Prop :=
  (f, true) ∈ [(Feature.simulation, a.simulation), (Feature.recursive, a.recursive),
    (Feature.autoInit, a.autoInit), (Feature.rotate, a.rotate), (Feature.x509, a.x509),
    (Feature.csr, a.csr), (Feature.internalInfo, a.internalInfo), (Feature.internalDice, a.internalDice),
    (Feature.retainParent, a.retainParent), (Feature.cdiExport, a.cdiExport)]

/-- `sent` is a request for command `c` from locality `loc`: the locality as a little-endian word, the
command as documented for the instance's profile, and any bytes after that.  `addr` is the address at
which the simulator stores requests. -/
def IsRequest (addr : Nat) (sent : Bytes) (loc : U32) (c : Cmd cfg) : Prop :=
  ∃ prof rest, sent = word loc ++ wire prof c ++ rest ∧
    (c = .getProfile ∨ prof = wireProfile cfg.profile) ∧ InProfile cfg c ∧ Aligned addr c

/-- The answer that reports an error: the response magic `"DPER"`, the status word, the profile. -/
def errorAnswer (p : Profile) (e : Err) : Bytes := [0x52, 0x45, 0x50, 0x44] ++ word (statusWord e) ++ word (wireProfile p)

/-- The command is not refused and can be served, with a reply that fits into its response structure. -/
def Succeeds (ops : Ops σ) (st : State cfg) (loc : U32) (w : σ) (c : Cmd cfg) (reply : Bytes)
    (st' : State cfg) (w' : σ) : Prop :=
  NoRefusal (rules st loc c) ∧ Serves ops st loc w c reply st' w' ∧ reply.length ≤ c.respKind.size cfg

/-- `e` is a proper cause for the failure of a command: the first rule by which it is refused, or, if no
rule applies, a fault of the crypto implementation, the platform or the buffer.  (Drawing the next
handle of a retained parent comes before two of the rules for DeriveContext.) -/
def Blamed (ops : Ops σ) (s : Sys cfg σ) (loc : U32) (c : Cmd cfg) (e : Err) : Prop :=
  FirstRefusal (rules s.st loc c) e ∨
  (∃ d, c = .derive d ∧ Bit d.flags DFlag.retainParent ∧ d.handle ≠ Handle.default ∧
    NoRefusal (earlyRules s.st loc c) ∧ DrawFault ops s.st e) ∨
  (NoRefusal (rules s.st loc c) ∧ Fault ops s c e)

/-- A conversation over the simulator's socket: the requests (each with the address at which the simulator
stores it), the answers, whether the simulator is still alive, and the states before and after.  A request
that is none kills the simulator.  Any other gets one answer: the reply of the command if it succeeds, and
otherwise an error whose status word is not zero and has a proper cause; it then leaves the state as it was,
apart from an update that was cut short. -/
inductive Conversation (ops : Ops σ) :
    State cfg → σ → List (Nat × Bytes) → List Bytes → Bool → State cfg → σ → Prop
  | done {st : State cfg} {w : σ} : Conversation ops st w [] [] true st w
  | crash {st : State cfg} {w : σ} {addr : Nat} {sent : Bytes} {reqs : List (Nat × Bytes)} :
      (¬ ∃ loc, ∃ c : Cmd cfg, IsRequest addr sent loc c) →
      Conversation ops st w ((addr, sent) :: reqs) [] false st w
  | served {st st1 st2 : State cfg} {w w1 w2 : σ} {addr : Nat} {sent : Bytes} {reqs : List (Nat × Bytes)}
      {loc : U32} {c : Cmd cfg} {reply : Bytes} {answers : List Bytes} {alive : Bool} :
      IsRequest addr sent loc c → Succeeds ops st loc w c reply st1 w1 →
      Conversation ops st1 w1 reqs answers alive st2 w2 →
      Conversation ops st w ((addr, sent) :: reqs) (reply :: answers) alive st2 w2
  | failed {st st1 st2 : State cfg} {w w1 w2 : σ} {addr : Nat} {sent : Bytes} {reqs : List (Nat × Bytes)}
      {loc : U32} {c : Cmd cfg} {e : Err} {answers : List Bytes} {alive : Bool} :
      IsRequest addr sent loc c → (¬ ∃ reply st' w', Succeeds ops st loc w c reply st' w') → statusWord e ≠ 0 →
      Blamed ops ⟨st, w, List.replicate (c.respKind.size cfg) 0⟩ loc c e →
      (st1 = st ∨ ∃ u, c = .update u ∧ HalfUpdate st u loc st1) →
      Conversation ops st1 w1 reqs answers alive st2 w2 →
      Conversation ops st w ((addr, sent) :: reqs) (errorAnswer cfg.profile e :: answers) alive st2 w2

end Dpe
