import Verif.Model.LineTools
import Verif.Spec.Line
/-! # Specification of the measuring functions of lines and triangles -/

namespace Patro

/-- The point is in the box, sides included. -/
def InBox {K : Type _} [LinearOrder K] (box : Box K) (p : Vec K) : Prop := box.xInf ≤ p.x ∧ p.x ≤ box.xSup ∧ box.yInf ≤ p.y ∧ p.y ≤ box.ySup

namespace Triangle

/-- The properties of a triangle the code announces and that need its lengths or its directions, with the exception they raise. -/
def Property.failure : Property → Option PyErr
  | .area => none
  | .orthocenter | .centroid | .circumcenter | .inCircle => some .notImplementedError
  | _ => some .attributeError

end Triangle

end Patro
