import Verif.Spec.Placement
import Verif.Spec.Rules
/-
Isolation between localities.  `L` is a set of localities, say those of one tenant; the others belong to
somebody else.
-/
namespace Dpe
variable {cfg : Cfg} {σ : Type}

/-- Slot `i` holds a context that belongs to a locality in `L`. -/
def Inside (L : U32 → Prop) (st : State cfg) (i : Nat) : Prop := Live st i ∧ L (st.at i).locality

/-- No tree reaches across the border: a context and its children belong to the same side. -/
def Apart (L : U32 → Prop) (st : State cfg) : Prop :=
  ∀ i j, Lists st i j → (L (st.at i).locality ↔ L (st.at j).locality)

/-- `st` and `st2` have the same configuration and hold the same contexts inside `L`, in the slots that `ρ`
says.  Nothing is said about contexts outside. -/
structure AgreeInside (L : U32 → Prop) (ρ : Renumbering cfg.maxHandles) (st st2 : State cfg) : Prop where
  marker : st2.marker = st.marker
  version : st2.version = st.version
  support : st2.support = st.support
  flags : st2.flags = st.flags
  inited : st2.hasInitialized = st.hasInitialized
  inside : ∀ i, Inside L st i → Relinked ρ (st.at i) (st2.at (ρ.to i))
  outside : ∀ i, ¬ Inside L st i → ¬ Inside L st2 (ρ.to i)

/-- The two states hold the same contexts inside `L`. -/
def SameInside (L : U32 → Prop) (st st2 : State cfg) : Prop :=
  ∃ ρ : Renumbering cfg.maxHandles, AgreeInside L ρ st st2

/-- Inside `L`, handle and locality name at most one context, and so do parent and type. -/
structure TidyIn (L : U32 → Prop) (st : State cfg) : Prop where
  names : ∀ h loc i j, L loc → Names st h loc i → Names st h loc j → i = j
  sib : ∀ i j k, Lists st i j → Lists st i k → (st.at j).tci.tciType = (st.at k).tci.tciType → j = k

/-- The table is full. -/
def NoRoom (st : State cfg) : Prop := ∀ i, i < cfg.maxHandles → Live st i

/-- The localities that a command is about: where it comes from, and for DeriveContext where the child
goes. -/
def Concerns (c : Cmd cfg) (loc l : U32) : Prop := l = loc ∨ ∃ d, c = .derive d ∧ l = targetOf d loc

/-- The command may take a slot. -/
def TakesSlot : Cmd cfg → Prop
  | .init _ => True
  | .derive _ => True
  | _ => False

/-- The handles found outside `L`, whether in use or left over, except the default handle; and the one that
marks destroyed contexts. -/
def Foreign (L : U32 → Prop) (st : State cfg) (h : Handle) : Prop :=
  h = Handle.invalid ∨ (h ≠ Handle.default ∧ ∃ i, ¬ Inside L st i ∧ (st.at i).handle = h)

/-- A request and the outside world in which it is executed: what the random source will deliver, for
example. -/
structure Turn (cfg : Cfg) (σ : Type) where
  cmd : Cmd cfg
  loc : U32
  out : Bytes
  w : σ

/-- The state after a request. -/
def Turn.after (r : Turn cfg σ) (ops : Ops σ) (st : State cfg) : State cfg :=
  (exec (ops.env cfg) r.cmd r.loc ⟨st, r.w, r.out⟩).2.st

/-- The result of a request and the response buffer after it. -/
def Turn.reply (r : Turn cfg σ) (ops : Ops σ) (st : State cfg) : Except Err Nat × Bytes :=
  ((exec (ops.env cfg) r.cmd r.loc ⟨st, r.w, r.out⟩).1, (exec (ops.env cfg) r.cmd r.loc ⟨st, r.w, r.out⟩).2.out)

/-- What the localities in `L` get to see of a sequence of requests from everywhere: the answers to their
own. -/
def seen (L : U32 → Prop) [DecidablePred L] (ops : Ops σ) :
    List (Turn cfg σ) → State cfg → List (Except Err Nat × Bytes)
  | [], _ => []
  | r :: rest, st =>
    if L r.loc then r.reply ops st :: seen L ops rest (r.after ops st) else seen L ops rest (r.after ops st)

/-- The conditions under which the other localities leave `L` alone, for a sequence of requests that starts
in `st`, while `st2` gets those from `L` only.  Nobody derives a context across the border.  Requests from
inside: handles in `L` are unambiguous; a command that needs a slot finds the table full in both states or in
neither; the random source delivers no handle that is found outside.  Requests from outside: the default
context is not initialised, unless it was before. -/
def LeftAlone (L : U32 → Prop) [DecidablePred L] (ops : Ops σ) :
    List (Turn cfg σ) → State cfg → State cfg → Prop
  | [], _, _ => True
  | r :: rest, st, st2 =>
    if L r.loc then
      (∀ l, Concerns r.cmd r.loc l → L l) ∧ TidyIn L st ∧ (TakesSlot r.cmd → (NoRoom st ↔ NoRoom st2)) ∧
      Avoids ops (fun h => Foreign L st h ∨ Foreign L st2 h) r.w ∧
      LeftAlone L ops rest (r.after ops st) (r.after ops st2)
    else
      (∀ l, Concerns r.cmd r.loc l → ¬ L l) ∧
      (∀ f, r.cmd = .init f → Bit f IFlag.default → st.hasInitialized = true) ∧
      LeftAlone L ops rest (r.after ops st) st2

end Dpe
