import Verif.Model.Context
/-
Specification vocabulary for the context table, independent of the command code: what it
means for the table to be a forest, ancestors, descendants, and the other state rules.
-/
namespace Dpe
variable {cfg : Cfg}

/-- The content of slot `i`; slots outside the table read as a blank inactive context. -/
def State.at (st : State cfg) (i : Nat) : Context cfg := (st.contexts[i]?).getD Context.new

/-- Slot `i` holds a live (Active or Retired) context. -/
def Live (st : State cfg) (i : Nat) : Prop := (st.at i).state ≠ .inactive

/-- Slot `i` lists `j` as one of its children. -/
def Lists (st : State cfg) (i j : Nat) : Prop := (st.at i).children.getLsbD j = true

/-- Slot `i` is the root of a tree. -/
def IsRoot (st : State cfg) (i : Nat) : Prop := Live st i ∧ (st.at i).parentIdx = ROOT

/-- `Path st i l`: `l` is the list of slots met when following parent links from `i` up to
a root, all of them live. -/
inductive Path (st : State cfg) : Nat → List Nat → Prop
  | root {i : Nat} : Live st i → (st.at i).parentIdx = ROOT → Path st i [i]
  | step {i : Nat} {l : List Nat} : Live st i → (st.at i).parentIdx ≠ ROOT →
      Path st (st.at i).parentIdx l → Path st i (i :: l)

/-- `Desc st i j`: `j` is a proper descendant of `i` through child links. -/
inductive Desc (st : State cfg) (i : Nat) : Nat → Prop
  | child {j : Nat} : Lists st i j → Desc st i j
  | step {j k : Nat} : Desc st i j → Lists st j k → Desc st i k

/-- `Anc st i j`: `j` is a proper ancestor of `i` through parent links. -/
inductive Anc (st : State cfg) (i : Nat) : Nat → Prop
  | parent : Live st i → (st.at i).parentIdx ≠ ROOT → Anc st i (st.at i).parentIdx
  | step {j : Nat} : Anc st i j → Live st j → (st.at j).parentIdx ≠ ROOT →
      Anc st i (st.at j).parentIdx

/-- The links form a forest: every live non-root context is listed by exactly one context,
namely its (live) parent; every listed child is live and names the lister as its parent;
following parents from any live context ends at a root after visiting at most `MAX_HANDLES`
distinct contexts. -/
structure Forest (st : State cfg) : Prop where
  parent_lists : ∀ i, Live st i → (st.at i).parentIdx ≠ ROOT →
    Live st (st.at i).parentIdx ∧ Lists st (st.at i).parentIdx i ∧
      ∀ j, Lists st j i → j = (st.at i).parentIdx
  child_live : ∀ i j, Lists st i j → Live st i ∧ Live st j ∧ (st.at j).parentIdx = i
  acyclic : ∀ i, Live st i → ∃ l, Path st i l ∧ l.Nodup ∧ l.length ≤ cfg.maxHandles

/-- `RetiredUp st i j`: `j` belongs to the chain of consecutive Retired ancestors of `i`,
starting at its parent, each having exactly one child. -/
inductive RetiredUp (st : State cfg) (i : Nat) : Nat → Prop
  | parent : (st.at i).parentIdx ≠ ROOT → (st.at (st.at i).parentIdx).state = .retired →
      (∃ c, ∀ k, Lists st (st.at i).parentIdx k ↔ k = c) → RetiredUp st i (st.at i).parentIdx
  | step {j : Nat} : RetiredUp st i j → (st.at j).parentIdx ≠ ROOT →
      (st.at (st.at j).parentIdx).state = .retired →
      (∃ c, ∀ k, Lists st (st.at j).parentIdx k ↔ k = c) → RetiredUp st i (st.at j).parentIdx

/-- Slot `i` is an Active context that handle `h` names in locality `loc`. -/
def Names (st : State cfg) (h : Handle) (loc : U32) (i : Nat) : Prop :=
  (st.at i).state = .active ∧ (st.at i).handle = h ∧ (st.at i).locality = loc

end Dpe
