import Verif.Model.Dxf
import Verif.Spec.Conic
/-! # Specification for DXF polylines -/

namespace Patro.Dxf

open Conic

/-- The middle of two points. -/
noncomputable def mid (p q : Vec ℝ) : Vec ℝ := ⟨(p.x + q.x) / 2, (p.y + q.y) / 2⟩

/-- The summit of the arc from `p` to `q` with a bulge: the point at the distance `bulge` times half the length of the chord from the
middle of the chord, on the right of the chord when the bulge is positive, on the left when it is negative. -/
noncomputable def summit (p q : Vec ℝ) (bulge : ℝ) : Vec ℝ :=
  ⟨(p.x + q.x) / 2 + bulge * (q.y - p.y) / 2, (p.y + q.y) / 2 - bulge * (q.x - p.x) / 2⟩

/-- The points drawn for a circle with a domain: counter-clockwise from the start to the stop. -/
noncomputable def drawn (c : Circle ℝ) : Set (Vec ℝ) :=
  match c.domain with
  | some d => arcPoints c.center c.radius d.start d.sweep
  | none => circlePoints c.center c.radius

/-- The pairs of successive vertices of a polyline. -/
def successive (closed : Bool) (vertices : List Vertex) : List (Vertex × Vertex) :=
  vertices.zip (vertices.tail ++ (if closed then vertices.take 1 else []))

end Patro.Dxf
