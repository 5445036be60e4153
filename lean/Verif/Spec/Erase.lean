import Verif.Spec.Authorise
import Verif.Spec.Effects
import Verif.Spec.Image
/-
What is left of a context that was destroyed: the bytes of its slot in the stored state, and two instances
that differ in nothing but the contexts that are about to be destroyed.
-/
namespace Dpe
variable {cfg : Cfg}

/-- A slot that was never used, as it is stored, with measurements of `t` bytes: the default handle, no
measurement, no parent, and the permission to export. -/
def unusedSlot (t : Nat) : Bytes :=
  List.replicate 16 0x00 ++ List.replicate (24 + 2 * t) 0 ++ [255, 0, 0, 0, 0, 0, 1, 0]

/-- A slot whose context was destroyed: the all-ones handle, no measurement, no parent, no permission; but
one byte for the type and one for the permission to export. -/
def clearedSlot (t : Nat) (kind permission : UInt8) : Bytes :=
  List.replicate 16 0xFF ++ List.replicate (24 + 2 * t) 0 ++ [255, kind, 0, 0, 0, 0, permission, 0]

/-- Slot `i` of the state stored in `b`. -/
def slotBytes (cfg : Cfg) (b : Bytes) (i : Nat) : Bytes :=
  (b.drop (8 + i * contextSize cfg.tciSize)).take (contextSize cfg.tciSize)

/-- The bytes of a slot whose context was destroyed. -/
def Cleared (t : Nat) (x : Bytes) : Prop :=
  ∃ kind permission, (kind = 0 ∨ kind = 1) ∧ (permission = 0 ∨ permission = 1) ∧ x = clearedSlot t kind permission

/-- The two states have contexts in the same slots, in the same stage of life and with the same links, and
are the same except for the contexts that go when slot `idx` is destroyed: those may have any handle,
measurements, locality, type and permissions. -/
structure SameBut (st st2 : State cfg) (idx : Nat) : Prop where
  rest : SameMeta st st2
  links : ∀ i, (st2.at i).parentIdx = (st.at i).parentIdx ∧ (st2.at i).children = (st.at i).children ∧
    (st2.at i).state = (st.at i).state
  others : ∀ i, ¬ DestroyedWith st idx i → st2.at i = st.at i

end Dpe
