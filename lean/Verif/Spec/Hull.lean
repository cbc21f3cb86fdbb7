import Verif.Model.Hull
import Verif.Spec.Polygon
/-! # Specification of the convex hull -/

namespace Patro.Hull

/-- `q` is in the convex hull of the points: the smallest set that contains them and every segment that joins two of its
points. -/
inductive InHull (points : List (Vec ℝ)) : Vec ℝ → Prop
  | point (q) : q ∈ points → InHull points q
  | between (a b q) : InHull points a → InHull points b → Between a b q → InHull points q

/-- `q` is on the left of the line from `a` to `b`, or on this line. -/
def LeftOf (a b q : Vec ℝ) : Prop := 0 ≤ (b.x - a.x) * (q.y - a.y) - (b.y - a.y) * (q.x - a.x)

/-- `p0` is the lowest of the points, and the leftmost one of the lowest ones. -/
def IsLowest (points : List (Vec ℝ)) (p0 : Vec ℝ) : Prop :=
  p0 ∈ points ∧ ∀ q ∈ points, p0.y < q.y ∨ (p0.y = q.y ∧ p0.x ≤ q.x)

/-- The three points are aligned. -/
def Collinear (a b c : Vec ℝ) : Prop := (b.x - a.x) * (c.y - a.y) = (b.y - a.y) * (c.x - a.x)

end Patro.Hull
