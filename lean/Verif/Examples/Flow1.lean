import Verif.Examples.Flow
/-
The conversation of `Examples/Flow.lean` with UpdateContextMeasurement.
-/
namespace Dpe.Ref

theorem flowedUpdate : flow (fun _ hp => .update hp (List.replicate 32 8) 9) updatedHandle = true := by decide +kernel

end Dpe.Ref
