import Verif.Examples.Talk0
/-
The conversation of `Examples/Talk.lean` with certificate format 1 (CSR).
-/
namespace Dpe.Ref

theorem talked1 : talk 1 derived = true := by decide +kernel

end Dpe.Ref
