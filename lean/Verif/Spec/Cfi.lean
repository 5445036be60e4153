import Verif.Model.Cfi
import Verif.Spec.Rules
/-
Which decisions of a command are repeated by the assertions of the feature `cfi`.
-/
namespace Dpe
variable {cfg : Cfg}

/-- The handle by which a command names its context. -/
def Cmd.handleOf : Cmd cfg → Option Handle
  | .derive c => some c.handle
  | .certify c => some c.handle
  | .sign c => some c.handle
  | .rotate c => some c.handle
  | .destroy h => some h
  | .update c => some c.parentHandle
  | _ => none

/-- The decision cannot go wrong unnoticed in this command: most can not in any, some only if the command
does not use what the assertions leave out. -/
def Covered (st : State cfg) (loc : U32) (c : Cmd cfg) : Site → Prop
  | .autoInit | .newAutoInit | .tciState | .tciLocality | .initArgs | .initFlags | .rotateSupport
  | .rotateTarget | .rotateClash | .destroyLocality | .deriveTarget | .deriveType | .deriveClash | .derivePick
  | .certIsX509 | .certX509 | .certAllow | .certCsr | .certLocality | .certFormat0 | .certFormat1
  | .signSimulation => True
  -- replacing a used handle: the handle is not the default handle
  | .roll 0 => c.handleOf ≠ some Handle.default
  | .roll _ => ∀ u, c = .update u → ∀ i k, Resolves st u.parentHandle loc i → ActiveChild st i u.tciType k →
      (st.at k).handle ≠ Handle.default
  -- features: neither recursion nor export is asked for without being supported
  | .deriveSupport => ∀ d, c = .derive d → (Bit d.flags DFlag.recursive → st.supports Feature.recursive) ∧
      (Bit d.flags DFlag.createCert ∨ Bit d.flags DFlag.exportCdi → st.supports Feature.cdiExport)
  -- permissions: no export, and recursion only if it is permitted
  | .deriveArgs => ∀ d, c = .derive d → ¬ Bit d.flags DFlag.exportCdi ∧
      (Bit d.flags DFlag.recursive → ¬ Bit d.flags DFlag.allowRecursive ∧
        ∀ i, Resolves st d.handle loc i → (st.at i).allowRecursive = true)
  -- retaining the parent: it is asked for, or the parent is a default context
  | .deriveRetain => ∀ d, c = .derive d → Bit d.flags DFlag.retainParent ∨ d.handle = Handle.default
  | .deriveDefault => c.handleOf ≠ some Handle.default
  | _ => False

end Dpe
