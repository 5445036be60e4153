import Verif.Spec.Forest
import Verif.Spec.Words
/-
The rules a persisted state has to obey, written without reference to the validator, and the
rule each validation error stands for.
-/
namespace Dpe
variable {cfg : Cfg}

/-- A lawful persisted state. -/
structure Lawful (st : State cfg) : Prop where
  /-- The marker is `DPES`, and the layout version 1. -/
  marker : st.marker = 0x44504553 ∧ st.version = 1
  /-- Simulation contexts, the two internal inputs and (below a root) the X.509 privilege
  appear only when supported. -/
  supported : ∀ i, ((st.at i).ctype = .simulation → Bit st.support Feature.simulation) ∧
    ((st.at i).usesDice = true → Bit st.support Feature.internalDice) ∧
    ((st.at i).usesInfo = true → Bit st.support Feature.internalInfo) ∧
    ((st.at i).parentIdx ≠ ROOT → (st.at i).allowX509 = true → Bit st.support Feature.x509)
  /-- Free slots are blank. -/
  blank : ∀ i, ¬ Live st i → (st.at i).parentIdx = ROOT ∧ (∀ j, ¬ Lists st i j) ∧
    (st.at i).tci = Tci.new ∧ (st.at i).usesDice = false ∧ (st.at i).allowX509 = false ∧
    (st.at i).usesInfo = false
  /-- An Active Normal context exists only in an initialised instance. -/
  initialised : ∀ i, (st.at i).state = .active → (st.at i).ctype = .normal →
    st.hasInitialized = true
  /-- The measurement record names the locality of its context. -/
  locality : ∀ i, (st.at i).locality = (st.at i).tci.locality
  /-- Retired contexts have a child. -/
  retired : ∀ i, (st.at i).state = .retired → ∃ j, Lists st i j
  /-- An Active default context is the only Active context of its locality. -/
  alone : ∀ i j, (st.at i).state = .active → (st.at j).state = .active →
    (st.at i).locality = (st.at j).locality → (st.at i).handle = Handle.default → i = j
  /-- The links form a forest. -/
  forest : Forest st
  /-- A context has the type of the context that lists it. -/
  types : ∀ i j, Lists st i j → (st.at i).ctype = (st.at j).ctype
  /-- There is at most one Normal root. -/
  normal : ∀ i j, IsRoot st i → IsRoot st j → (st.at i).ctype = .normal →
    (st.at j).ctype = .normal → i = j

/-- The violation a validation error reports; `False` for errors that no state can cause. -/
def Violates (st : State cfg) : ValErr → Prop
  | .invalidMarker => st.marker ≠ 0x44504553
  | .versionMismatch => st.version ≠ 1
  | .simulationNotSupported => ∃ i, (st.at i).ctype = .simulation ∧ ¬ Bit st.support Feature.simulation
  | .internalDiceNotSupported => ∃ i, (st.at i).usesDice = true ∧ ¬ Bit st.support Feature.internalDice
  | .internalInfoNotSupported => ∃ i, (st.at i).usesInfo = true ∧ ¬ Bit st.support Feature.internalInfo
  | .allowX509NotSupported => ∃ i, (st.at i).parentIdx ≠ ROOT ∧ (st.at i).allowX509 = true ∧
      ¬ Bit st.support Feature.x509
  | .inactiveContextInvalidParent => ∃ i, ¬ Live st i ∧ (st.at i).parentIdx ≠ ROOT
  | .inactiveContextWithChildren => ∃ i j, ¬ Live st i ∧ Lists st i j
  | .inactiveContextWithMeasurement => ∃ i, ¬ Live st i ∧ (st.at i).tci ≠ Tci.new
  | .inactiveContextWithFlagSet => ∃ i, ¬ Live st i ∧ ((st.at i).usesDice = true ∨
      (st.at i).allowX509 = true ∨ (st.at i).usesInfo = true)
  | .dpeNotMarkedInitialized => ∃ i, (st.at i).state = .active ∧ (st.at i).ctype = .normal ∧
      st.hasInitialized = false
  | .parentDoesNotExist => ∃ i, Live st i ∧ (st.at i).parentIdx ≠ ROOT ∧
      cfg.maxHandles ≤ (st.at i).parentIdx
  | .inactiveParent => ∃ i, Live st i ∧ (st.at i).parentIdx < cfg.maxHandles ∧
      ¬ Live st (st.at i).parentIdx
  | .childDoesNotExist => ∃ i j, Live st i ∧ Lists st i j ∧ cfg.maxHandles ≤ j
  | .inactiveChild => ∃ i j, Live st i ∧ Lists st i j ∧ j < cfg.maxHandles ∧ ¬ Live st j
  | .parentChildLinksCorrupted =>
      (∃ i, Live st i ∧ (st.at i).parentIdx < cfg.maxHandles ∧
        ¬ Lists st (st.at i).parentIdx i) ∨
      (∃ i j, Live st i ∧ Live st j ∧ Lists st i j ∧ (st.at j).parentIdx ≠ i)
  | .danglingRetiredContext => ∃ i, (st.at i).state = .retired ∧ ∀ j, ¬ Lists st i j
  | .localityMismatch => ∃ i, (st.at i).locality ≠ (st.at i).tci.locality
  | .multipleDefaultContexts => ∃ i j, i ≠ j ∧ (st.at i).state = .active ∧
      (st.at j).state = .active ∧ (st.at i).locality = (st.at j).locality ∧
      (st.at i).handle = Handle.default ∧ (st.at j).handle = Handle.default
  | .mixedContextLocality => ∃ i j, (st.at i).state = .active ∧
      (st.at j).state = .active ∧ (st.at i).locality = (st.at j).locality ∧
      (st.at i).handle = Handle.default ∧ (st.at j).handle ≠ Handle.default
  | .cyclesInTree => ∃ i, Live st i ∧ Anc st i i
  | .mixedContextTypeConnectedComponents => ∃ i j, Lists st i j ∧ (st.at i).ctype ≠ (st.at j).ctype
  | .multipleNormalConnectedComponents => ∃ i j, i ≠ j ∧ IsRoot st i ∧ IsRoot st j ∧
      (st.at i).ctype = .normal ∧ (st.at j).ctype = .normal
  | .badContextState | .badContextType | .childWithMultipleParents | .allowCaNotSupported => False

end Dpe
