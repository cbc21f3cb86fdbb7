import Verif.Model.Line
import Mathlib.Order.Bounds.Basic
/-! # Specification for lines and segments: the sets of points -/

namespace Patro

variable {K : Type _} [Field K]

/-- The point `q` is on the line. -/
def Line.Contains (l : Line K) (q : Vec K) : Prop := ∃ s : K, q = ⟨l.p.x + s * l.v.x, l.p.y + s * l.v.y⟩

/-- The point `q` is on the segment from `a` to `b`: between the two end points, which are included. -/
def Between [LE K] (a b q : Vec K) : Prop :=
  ∃ t : K, 0 ≤ t ∧ t ≤ 1 ∧ q = ⟨(1 - t) * a.x + t * b.x, (1 - t) * a.y + t * b.y⟩

/-- The point `q` is on the segment. -/
def Segment.Contains [LE K] (s : Segment K) (q : Vec K) : Prop := Between s.p0 s.p1 q

/-- Euclidean distance of two points. -/
noncomputable def distance (a b : Vec ℝ) : ℝ := Real.sqrt ((a.x - b.x) ^ 2 + (a.y - b.y) ^ 2)

end Patro
