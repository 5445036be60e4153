import Verif.Examples.Session
import Verif.Model.Suite
/-
A device with ML-DSA for the examples of C86.
-/
namespace Dpe.Ref

/-- One slot, ML-DSA-87. -/
def ml : Cfg :=
  { maxHandles := 1, tciSize := 48, profile := .mldsa87, disabled := 0, maxCertSize := 12468,
    diceFuel := 2, pos := by decide, le64 := by decide }

theorem ml_built : Built ml cert := ⟨rfl, by decide⟩

theorem ml_standard : ml.Standard := ⟨rfl, by decide⟩

/-- The last 64 bytes, turned round. -/
def turn (x : Bytes) : BArr 64 := pad 64 x.reverse

/-- The crates of the examples, where messages are signed by their `mu`. -/
def muLib : Lib := { lib with sign87 := fun k m => lib.signMu87 k (fipsMu turn (lib.pub87 k).toList [] m) }

theorem muLib_total : muLib.Total where
  expand _ _ _ _ _ := ⟨_, rfl⟩
  sign256 _ _ _ := ⟨_, rfl⟩
  sign384 _ _ _ := ⟨_, rfl⟩
  alias256 := ⟨_, _, rfl, rfl⟩
  alias384 := ⟨_, _, rfl, rfl⟩
  alias87 := ⟨_, rfl, by decide⟩

theorem muLib_signs : SignsByMu muLib turn := fun _ _ => rfl

/-- The transport of a client in locality 3. -/
def wireMl : Transport (Option (Sys ml (Soft (muLib.crypto ml.profile) × Unit))) :=
  simSend ((device muLib cert ml.profile).env ml) 3 8

/-- A client connects and creates the default context, which may get X.509 certificates. -/
theorem created : (match newClient wireMl 5 (some (simStart ml muLib cert features.args).2) with
    | (.ok c, some s) =>
      match c.call wireMl (.initialize 0x40000000) (some s) with
      | (.ok _, some s) =>
        (match s.st.findActive Handle.default 3 with | .ok i => i == 0 | _ => false) && s.st.hasInitialized &&
        (s.st.at 0).parentIdx == 255 && (s.st.at 0).allowX509 && (s.st.at 0).ctype != .simulation &&
        decide (s.st.supports Feature.x509)
      | _ => false
    | _ => false) = true := by decide +kernel

end Dpe.Ref
