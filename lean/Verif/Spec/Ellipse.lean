import Verif.Model.Ellipse
import Verif.Spec.Conic
import Verif.Spec.Shapes
/-! # Specification for ellipses -/

namespace Patro.Conic

/-- The coordinate of a point along the first axis of the ellipse (at `angle` degrees from the x axis). -/
noncomputable def along (center : Vec ℝ) (angle : ℝ) (q : Vec ℝ) : ℝ :=
  (q.x - center.x) * Real.cos (angle * Real.pi / 180) + (q.y - center.y) * Real.sin (angle * Real.pi / 180)

/-- The coordinate of a point along the second axis of the ellipse. -/
noncomputable def across (center : Vec ℝ) (angle : ℝ) (q : Vec ℝ) : ℝ :=
  -(q.x - center.x) * Real.sin (angle * Real.pi / 180) + (q.y - center.y) * Real.cos (angle * Real.pi / 180)

/-- The left-hand side of the equation of the ellipse: 1 on the ellipse, less inside, more outside. -/
noncomputable def ellipseValue (center : Vec ℝ) (rx ry angle : ℝ) (q : Vec ℝ) : ℝ :=
  (along center angle q / rx) ^ 2 + (across center angle q / ry) ^ 2

/-- The points of an ellipse. -/
def ellipsePoints (center : Vec ℝ) (rx ry angle : ℝ) : Set (Vec ℝ) := {q | ellipseValue center rx ry angle q = 1}

/-- The points of an ellipse object, when it is not cut by a domain. -/
def Ellipse.points (e : Ellipse) : Set (Vec ℝ) := ellipsePoints e.center e.radiusX e.radiusY e.angle

/-- The smallest box that contains a set: it contains the set and each side touches it. -/
def IsSmallestBox (b : Box ℝ) (s : Set (Vec ℝ)) : Prop :=
  (∀ q ∈ s, b.Contains q) ∧ (∃ q ∈ s, q.x = b.xInf) ∧ (∃ q ∈ s, q.x = b.xSup) ∧ (∃ q ∈ s, q.y = b.yInf) ∧
    ∃ q ∈ s, q.y = b.ySup

end Patro.Conic
