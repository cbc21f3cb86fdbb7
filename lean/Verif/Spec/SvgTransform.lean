import Verif.Model.SvgTransform
import Mathlib.Data.Set.Basic
/-! # Specification for the transform and length attributes of SVG -/

namespace Patro.SvgTransform

open Patro.Xml (Text)

noncomputable section

/-- What a transform function of SVG 1.1 does to a point; `none` when it is not a function or has a wrong number of arguments. -/
def svgFunction (name : String) (args : List ℝ) (p : Vec ℝ) : Option (Vec ℝ) :=
  match name, args with
  | "matrix", [a, b, c, d, e, f] => some ⟨a * p.x + c * p.y + e, b * p.x + d * p.y + f⟩
  | "translate", [x] => some ⟨p.x + x, p.y⟩
  | "translate", [x, y] => some ⟨p.x + x, p.y + y⟩
  | "scale", [s] => some ⟨s * p.x, s * p.y⟩
  | "scale", [x, y] => some ⟨x * p.x, y * p.y⟩
  | "rotate", [angle] => some (p.rotate angle)
  | "rotate", [angle, x, y] => some (⟨x, y⟩ + (p - ⟨x, y⟩).rotate angle)
  | "skewX", [angle] => some ⟨p.x + Real.tan (Vec.radians angle) * p.y, p.y⟩
  | "skewY", [angle] => some ⟨p.x, p.y + Real.tan (Vec.radians angle) * p.x⟩
  | _, _ => none

/-- A transform function as it is written, without spaces. -/
def writeFunction (print : ℝ → Text) (name : String) (args : List ℝ) : Text :=
  name.toList ++ '(' :: Xml.join ',' (args.map print) ++ [')']

/-- What is needed of `str` and `float` of Python, for a set of numbers: the text of a number has no separator and is read back as the
same number. -/
structure Codec (numbers : Set ℝ) (print : ℝ → Text) (float : Text → Option ℝ) : Prop where
  sep : ∀ x ∈ numbers, ∀ c ∈ [' ', ',', '(', ')'], c ∉ print x
  read : ∀ x ∈ numbers, float (print x) = some x

end

end Patro.SvgTransform
