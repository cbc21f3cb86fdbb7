import Verif.Model.Transformation
import Verif.Spec.Line
/-! # Specification for transformations -/

namespace Patro.Transformation

open Classical

/-- The linear transformations a program can build with the class methods, products and in-place products, including the
ones left by an in-place product that fails. -/
inductive Lin.Reach : Lin ℝ → Prop
  | identity : Reach Lin.identity
  | rotation (angle) : Reach (Lin.rotation angle)
  | scale (x y) : Reach (Lin.scale x y)
  | mul (t u r) : Reach t → Reach u → t.mul u = .ok r → Reach r
  | imul (t u) : Reach t → Reach u → Reach (t.imul u).2

/-- The same for affine transformations, which a program can also build from a matrix. -/
inductive Aff.Reach : Aff ℝ → Prop
  | identity : Reach Aff.identity
  | matrix (a b c d e f : ℝ) : Reach (Aff.new !![a, b, c; d, e, f; 0, 0, 1])
  | translation (v) : Reach (Aff.translation v)
  | rotation (angle) : Reach (Aff.rotation angle)
  | rotationAt (c angle) : Reach (Aff.rotationAt c angle)
  | scale (x y) : Reach (Aff.scale x y)
  | screen (h) : Reach (Aff.screen h)
  | mul (t u) : Reach t → Reach u → Reach (t.mul u)
  | imul (t u) : Reach t → Reach u → Reach (t.imul u)

/-- A map of the plane that multiplies all the distances by `k`. -/
def Similarity (k : ℝ) (f : Vec ℝ → Vec ℝ) : Prop := ∀ p q, distance (f p) (f q) = k * distance p q

end Patro.Transformation
