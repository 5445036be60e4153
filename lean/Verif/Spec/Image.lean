import Verif.Spec.Wire
import Verif.Spec.Service
/-
The layout of a stored DPE state, as a table of offsets.
-/
namespace Dpe
variable {cfg : Cfg}

/-- The bytes `x` are found at offset `o` of `b`. -/
def HasBytes (b : Bytes) (o : Nat) (x : Bytes) : Prop := (b.drop o).take x.length = x

/-- The byte at offset `o` of `b` is `x`. -/
def HasByte (b : Bytes) (o x : Nat) : Prop := ∃ y, b[o]? = some y ∧ y.toNat = x

/-- The byte at offset `o` of `b` stands for the truth value `x`: zero for false, anything else for
true. -/
def HasBool (b : Bytes) (o : Nat) (x : Bool) : Prop := ∃ y, b[o]? = some y ∧ (y ≠ 0 ↔ x = true)

/-- The two words of a 64-bit number, least significant first. -/
def longWord (x : BitVec 64) : Bytes :=
  word (BitVec.ofNat 32 x.toNat) ++ word (BitVec.ofNat 32 (x.toNat / 2 ^ 32))

/-- The two bytes of a 16-bit number, least significant first. -/
def halfWord (x : BitVec 16) : Bytes := [UInt8.ofNat x.toNat, UInt8.ofNat (x.toNat / 256)]

/-- The number of bytes of a stored context, with measurements of `t` bytes. -/
def contextSize (t : Nat) : Nat := 48 + 2 * t

/-- The number of bytes of a stored state. -/
def stateSize (cfg : Cfg) : Nat := 16 + cfg.maxHandles * contextSize cfg.tciSize

/-- A context stored at offset `o`. -/
structure StoredContext (b : Bytes) (o : Nat) (c : Context cfg) : Prop where
  handle : HasBytes b o c.handle.toList
  tciType : HasBytes b (o + 16) (word c.tci.tciType)
  cumulative : HasBytes b (o + 20) c.tci.cumulative.toList
  current : HasBytes b (o + 20 + cfg.tciSize) c.tci.current.toList
  tciLocality : HasBytes b (o + 20 + 2 * cfg.tciSize) (word c.tci.locality)
  svn : HasBytes b (o + 24 + 2 * cfg.tciSize) (word c.tci.svn)
  children : HasBytes b (o + 28 + 2 * cfg.tciSize) (longWord c.children)
  locality : HasBytes b (o + 36 + 2 * cfg.tciSize) (word c.locality)
  parent : HasByte b (o + 40 + 2 * cfg.tciSize) c.parentIdx
  kind : HasByte b (o + 41 + 2 * cfg.tciSize) (match c.ctype with | .normal => 0 | .simulation => 1)
  state : HasByte b (o + 42 + 2 * cfg.tciSize)
    (match c.state with | .inactive => 0 | .active => 1 | .retired => 2)
  info : HasBool b (o + 43 + 2 * cfg.tciSize) c.usesInfo
  dice : HasBool b (o + 44 + 2 * cfg.tciSize) c.usesDice
  x509 : HasBool b (o + 45 + 2 * cfg.tciSize) c.allowX509
  exportCdi : HasBool b (o + 46 + 2 * cfg.tciSize) c.allowExport
  recursive : HasBool b (o + 47 + 2 * cfg.tciSize) c.allowRecursive

/-- A state stored in the bytes `b`; the last byte may be anything. -/
structure StoredState (b : Bytes) (st : State cfg) : Prop where
  size : b.length = stateSize cfg
  marker : HasBytes b 0 (word st.marker)
  version : HasBytes b 4 (word st.version)
  contexts : ∀ i, i < cfg.maxHandles → StoredContext b (8 + i * contextSize cfg.tciSize) (st.at i)
  support : HasBytes b (stateSize cfg - 8) (word st.support)
  flags : HasBytes b (stateSize cfg - 4) (halfWord st.flags)
  initialised : HasBool b (stateSize cfg - 2) st.hasInitialized

end Dpe
