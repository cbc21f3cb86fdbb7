import Verif.Model.TransformationNew
import Verif.Spec.Transformation
/-! # What the type of a matrix says -/

namespace Patro.TransformationNew

open Transformation (TType)

/-- The image of the point `(x, y)` by the matrix with the rows `(a, b)` and `(c, d)`. -/
def image (a b c d x y : ℚ) : ℚ × ℚ := (a * x + b * y, c * x + d * y)

/-- What a type says of the images of all the points; the other types are given no meaning. -/
def Says (t : TType) (f : ℚ → ℚ → ℚ × ℚ) : Prop :=
  match t with
  | .identity => ∀ x y, f x y = (x, y)
  | .xParity => ∀ x y, f x y = (-x, y)
  | .yParity => ∀ x y, f x y = (x, -y)
  | .parity => ∀ x y, f x y = (-x, -y)
  | .scale => ∃ k, k ≠ 1 ∧ k ≠ -1 ∧ ∀ x y, f x y = (k * x, k * y)
  | _ => False

end Patro.TransformationNew
