import Verif.Spec.Crates
import Verif.Spec.Measure
/-
Two ancestries that were put together in the same way, possibly on different devices or after a reset.
-/
namespace Dpe
variable {cfg : Cfg}

/-- The same went into two contexts: type, recorded locality, SVN, permission for certificates, requested
internal inputs, and the same measurements in the same order. -/
def SameMaking (c c' : Context cfg) (log log' : List Bytes) : Prop :=
  c.tci.tciType = c'.tci.tciType ∧ c.tci.locality = c'.tci.locality ∧ c.tci.svn = c'.tci.svn ∧
    c.allowX509 = c'.allowX509 ∧ c.usesInfo = c'.usesInfo ∧ c.usesDice = c'.usesDice ∧ log = log'

/-- Two ancestries, with their logs of measurements, were put together in the same way, in instances with
the same features and flags: equally many contexts, and pairwise the same went into them.  Nothing is said
about handles, slots, present localities, other contexts, or anything else that happened. -/
structure SameBoot (st : State cfg) (log : Nat → List Bytes) (path : List Nat) (st' : State cfg)
    (log' : Nat → List Bytes) (path' : List Nat) : Prop where
  support : st.support = st'.support
  flags : st.flags = st'.flags
  length : path.length = path'.length
  made : ∀ k j j' : Nat, path[k]? = some j → path'[k]? = some j' →
    SameMaking (st.at j) (st'.at j') (log j) (log' j')

/-- The header of an `n`-byte reply, and what follows the first handle. -/
def withoutHandle (out : Bytes) (n : Nat) : Bytes × Bytes := ((out.take n).take 12, (out.take n).drop 28)

end Dpe
