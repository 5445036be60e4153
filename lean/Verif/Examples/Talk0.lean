import Verif.Examples.Talk
/-
The conversation of `Examples/Talk.lean` with certificate format 0 (X.509).
-/
namespace Dpe.Ref

theorem talked0 : talk 0 derived = true := by decide +kernel

end Dpe.Ref
