import Verif.Model.Resp
import Verif.Spec.Words
/-
The octets of the specification are those of the code.
-/
namespace Dpe

@[simp] theorem word_eq (x : U32) : word x = le32 x := rfl

@[simp] theorem word16_eq (x : BitVec 16) : word16 x = le16 x := rfl

theorem wireProfile_eq (p : Profile) : wireProfile p = p.code := by cases p <;> rfl

end Dpe
