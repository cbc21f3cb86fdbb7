import Verif.Model.Shapes
import Verif.Spec.Line
/-! # Specification for triangles, rectangles, boxes and polylines: the sets of points -/

namespace Patro

variable {K : Type _} [Field K] [LinearOrder K]

/-- The point `q` is in the closed triangle `a b c`: a barycentre of the vertices with non-negative weights. -/
def InTriangle (a b c q : Vec K) : Prop :=
  ∃ u v w : K, 0 ≤ u ∧ 0 ≤ v ∧ 0 ≤ w ∧ u + v + w = 1 ∧
    q = ⟨u * a.x + v * b.x + w * c.x, u * a.y + v * b.y + w * c.y⟩

/-- The three points are aligned. -/
def Aligned (a b c : Vec K) : Prop := (b.x - a.x) * (c.y - a.y) = (b.y - a.y) * (c.x - a.x)

/-- The point is in the closed rectangle with sides parallel to the axes and opposite corners `a` and `b`. -/
def InRectangle (a b q : Vec K) : Prop :=
  ∃ s t : K, 0 ≤ s ∧ s ≤ 1 ∧ 0 ≤ t ∧ t ≤ 1 ∧ q = ⟨(1 - s) * a.x + s * b.x, (1 - t) * a.y + t * b.y⟩

/-- The point is in the box. -/
def Box.Contains (b : Box K) (q : Vec K) : Prop := b.xInf ≤ q.x ∧ q.x ≤ b.xSup ∧ b.yInf ≤ q.y ∧ q.y ≤ b.ySup

/-- The point is on the open polygonal line through these points: between two consecutive ones. -/
def OnPolyline (points : List (Vec K)) (q : Vec K) : Prop :=
  ∃ (i : Nat) (a b : Vec K), points[i]? = some a ∧ points[i + 1]? = some b ∧ Between a b q

end Patro
