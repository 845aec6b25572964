import Verif.Spec.Brighter
import Verif.Core.IEEE
/-!
Specification for C134: an image and its negative.
-/
namespace Imgproc
open FloatOps

/-- spec: `b` is the negative of `a`: the opposite number (the two zeros are not told apart), the opposite infinity, or both NaN -/
inductive Opposite {f : Fmt} : Flt f → Flt f → Prop
  | num {a b : Flt f} {q : Rat} (ha : a.val.toQ? = some q) (hb : b.val.toQ? = some (-q)) : Opposite a b
  | inf {a b : Flt f} {s : Bool} (ha : a.val = .inf s) (hb : b.val = .inf (!s)) : Opposite a b
  | nan {a b : Flt f} (ha : a.val = .nan) (hb : b.val = .nan) : Opposite a b

/-- what the edge filters need of the platform's `powf`: a number and its opposite have the same square -/
def EvenSquare [Libm f32] : Prop := ∀ x y : F32, Opposite x y → FloatOps.pow x (num 2) = FloatOps.pow y (num 2)

end Imgproc
