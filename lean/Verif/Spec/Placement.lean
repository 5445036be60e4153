import Verif.Model.X509
import Verif.Spec.Service
import Verif.Spec.Soft
/-
Where contexts are stored.  Two states are alike if they hold the same contexts, linked in the same way,
in whatever slots, and whatever was stored in the other slots before.
-/
namespace Dpe
variable {cfg : Cfg} {σ : Type}

/-- A renumbering of the slots of a table of `n`: a permutation of all numbers that leaves those from `n`
on as they are. -/
structure Renumbering (n : Nat) where
  to : Nat → Nat
  back : Nat → Nat
  back_to : ∀ i, back (to i) = i
  to_back : ∀ i, to (back i) = i
  fixes : ∀ i, n ≤ i → to i = i

/-- `c2` is the context `c` with its links renumbered; everything else is the same. -/
def Relinked (ρ : Renumbering cfg.maxHandles) (c c2 : Context cfg) : Prop :=
  (∃ ch, c2 = { c with parentIdx := ρ.to c.parentIdx, children := ch }) ∧
    ∀ j, c2.children.getLsbD (ρ.to j) = c.children.getLsbD j

/-- A slot without a context.  What else it contains is left over from earlier use; its handle is that of
a slot never used (the default handle) or that of a destroyed context (all ones). -/
def Spare (c : Context cfg) : Prop :=
  c.state = .inactive ∧ (c.handle = Handle.default ∨ c.handle = Handle.invalid)

/-- `st2` holds the contexts of `st`, each in the slot that `ρ` says. -/
structure Moved (ρ : Renumbering cfg.maxHandles) (st st2 : State cfg) : Prop where
  marker : st2.marker = st.marker
  version : st2.version = st.version
  support : st2.support = st.support
  flags : st2.flags = st.flags
  inited : st2.hasInitialized = st.hasInitialized
  live : ∀ i, Live st i → Relinked ρ (st.at i) (st2.at (ρ.to i))
  spare : ∀ i, ¬ Live st i → Spare (st.at i) ∧ Spare (st2.at (ρ.to i))

/-- The two states hold the same contexts. -/
def Alike (st st2 : State cfg) : Prop := ∃ ρ : Renumbering cfg.maxHandles, Moved ρ st st2

/-- Handle and locality name at most one context, and so do parent and type. -/
structure Tidy (st : State cfg) : Prop where
  names : ∀ h loc i j, Names st h loc i → Names st h loc j → i = j
  sib : ∀ i j k, Lists st i j → Lists st i k → (st.at j).tci.tciType = (st.at k).tci.tciType → j = k

/-- From the world `w` on, whatever operations are called, the random source does not deliver a handle with
the property `V`. -/
def Avoids (ops : Ops σ) (V : Handle → Prop) (w : σ) : Prop :=
  ∀ w1, OpCalls ops w w1 → ∀ h, (ops.rand w1).1 = .ok h → ¬ V h

/-- From the world `w` on, the random source does not deliver the handle that marks destroyed contexts. -/
def NeverAllOnes (ops : Ops σ) (w : σ) : Prop := Avoids ops (· = Handle.invalid) w

/-- A request: a command, the locality it comes from, and the response buffer. -/
abbrev Asked (cfg : Cfg) := Cmd cfg × U32 × Bytes

/-- The results of a sequence of requests, and the response buffers after each. -/
def answers (ops : Ops σ) : List (Asked cfg) → State cfg → σ → List (Except Err Nat × Bytes)
  | [], _, _ => []
  | (c, loc, out) :: rest, st, w =>
    let x := exec (ops.env cfg) c loc ⟨st, w, out⟩
    (x.1, x.2.out) :: answers ops rest x.2.st x.2.w

/-- The state is tidy before each of the requests. -/
def TidyAlong (ops : Ops σ) : List (Asked cfg) → State cfg → σ → Prop
  | [], _, _ => True
  | (c, loc, out) :: rest, st, w =>
    let x := exec (ops.env cfg) c loc ⟨st, w, out⟩
    Tidy st ∧ TidyAlong ops rest x.2.st x.2.w

end Dpe
