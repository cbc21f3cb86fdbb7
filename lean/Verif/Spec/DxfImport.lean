import Verif.Model.DxfImport
import Verif.Spec.Dxf
import Verif.Spec.Spline
/-! # Specification of the import of DXF files: the points of an entity, as the DXF reference defines them, and the points of an item -/

namespace Patro.DxfImport

open Conic Dxf
open Spline (BSpline)

noncomputable section

/-- The position, in the plane of the drawing, of the point (x, y) of an entity with a planar coordinate system: the x axis is turned back
when the extrusion is (0, 0, -1). -/
def place (mirrored : Bool) (x y : ℝ) : Vec ℝ := if mirrored then ⟨-x, y⟩ else ⟨x, y⟩

/-- The point of parameter `t` (in radians) of an ellipse entity: the minor axis is the major axis turned by a right angle around the
extrusion, times the ratio. -/
def ellipsePoint (mirrored : Bool) (center major : P3) (ratio t : ℝ) : Vec ℝ :=
  let r := if mirrored then -ratio else ratio
  ⟨center.1 + Real.cos t * major.1 - Real.sin t * (r * major.2.1), center.2.1 + Real.cos t * major.2.1 + Real.sin t * (r * major.1)⟩

/-- The parameter `t` is met when going up from `a` to `b`, through a full turn if `b` is below `a`. -/
def Between (turn a b t : ℝ) : Prop := a ≤ t ∧ t ≤ (if a < b then b else b + turn)

/-- The points of a line, a circle, an arc (counter-clockwise from its start to its end) and an ellipse. -/
def Entity.Has : Entity → Vec ℝ → Prop
  | .line a b, q => ∃ s, 0 ≤ s ∧ s ≤ 1 ∧ q = ⟨a.1 + s * (b.1 - a.1), a.2.1 + s * (b.2.1 - a.2.1)⟩
  | .circle m c r, q => ∃ a, q = place m (c.1 + r * Real.cos (a * Real.pi / 180)) (c.2.1 + r * Real.sin (a * Real.pi / 180))
  | .arc m c r start stop, q => ∃ a, Between 360 start stop a ∧
      q = place m (c.1 + r * Real.cos (a * Real.pi / 180)) (c.2.1 + r * Real.sin (a * Real.pi / 180))
  | .ellipse m c major ratio start stop, q => ∃ t, Between (2 * Real.pi) start stop t ∧ q = ellipsePoint m c major ratio t
  | .lwpolyline .., _ => False
  | .spline .., _ => False
  | .other _, _ => False

/-- The points of an item. A point is on a segment when it is between its ends; it is on a circle or an arc when its `distance_to_point` is
null; it is on an ellipse when it is its point at an angle from 0 to 360 inside its domain. -/
def Item.Has : Item → Vec ℝ → Prop
  | .segment s, q => ∃ t, 0 ≤ t ∧ t ≤ 1 ∧ q = s.p0 + (s.p1 - s.p0).smul t
  | .circle c, q => c.distanceToPoint q = 0
  | .ellipse e, q => ∃ a, 0 ≤ a ∧ a ≤ 360 ∧ (∀ d, e.domain = some d → d.isInside a = true) ∧ q = e.pointAtAngle a
  | .polyline _, _ => False
  | .spline _, _ => False

/-- The vertices of a light-weight polyline. -/
def vertices (points : List (ℝ × ℝ × ℝ × ℝ × ℝ)) : List Vertex := points.map fun p => ⟨⟨p.1, p.2.1⟩, p.2.2.2.2⟩

/-- The points of control in the plane. -/
def plane (l : List P3) : List (Vec ℝ) := l.map fun p => ⟨p.1, p.2.1⟩

/-- The knots of `n` points of a given degree which the importer assumes: `degree + 1` zeros, then one more at each knot, the last one
`degree + 1` times. -/
def StandardKnots (degree n : Nat) (knots : List ℝ) : Prop :=
  knots.length = n + degree + 1 ∧ ∀ i, i < n + degree + 1 → knots[i]? = some ((min (i - degree) (n - degree) : Nat) : ℝ)

/-- The entities the importer has a method for. -/
def known : Entity → Bool
  | .other _ => false
  | _ => true

/-- The entities that stop the importer: a closed polyline without points, a spline with too few control points. -/
def Bad : Entity → Prop
  | .lwpolyline _ closed points => closed = true ∧ points = []
  | .spline points degree _ _ _ _ => points.length ≤ degree
  | _ => False

/-- The exception it raises. -/
def refusal : Entity → PyErr
  | .lwpolyline .. => .indexError
  | _ => .valueError

/-- The lines, circles, arcs and ellipses in the ranges DXF files usually have: not mirrored, positive radii, angles from 0 to 360 and
parameters from 0 to a full turn, which differ; the major axis of an ellipse does not point upwards. -/
def Usual : Entity → Prop
  | .line _ _ => True
  | .circle m _ r => m = false ∧ 0 ≤ r
  | .arc m _ r a b => m = false ∧ 0 ≤ r ∧ 0 ≤ a ∧ a < 360 ∧ 0 ≤ b ∧ b ≤ 360 ∧ a ≠ b
  | .ellipse m _ major ratio a b => m = false ∧ 0 ≤ ratio ∧ 0 ≤ a ∧ a < 2 * Real.pi ∧ 0 ≤ b ∧ b ≤ 2 * Real.pi ∧ a ≠ b ∧
      (major.1 ≠ 0 ∨ major.2.1 < 0)
  | _ => False

/-- The item is the entity. -/
def Represents : Entity → Item → Prop
  | .line a b, i => (∃ s, i = .segment s) ∧ ∀ q, i.Has q ↔ (Entity.line a b).Has q
  | .circle m c r, i => (∃ s, i = .circle s ∧ s.domain = none) ∧ (Usual (.circle m c r) → ∀ q, i.Has q ↔ (Entity.circle m c r).Has q)
  | .arc m c r a b, i => (∃ s, i = .circle s ∧ s.domain ≠ none) ∧ (Usual (.arc m c r a b) → ∀ q, i.Has q ↔ (Entity.arc m c r a b).Has q)
  | .ellipse m c major ratio a b, i => (∃ s, i = .ellipse s ∧ s.domain ≠ none) ∧
      (Usual (.ellipse m c major ratio a b) → ∀ q, i.Has q ↔ (Entity.ellipse m c major ratio a b).Has q)
  | .lwpolyline _ closed points, i => i = .polyline ((successive closed (vertices points)).map fun (v, w) => Dxf.item v w w)
  | .spline points degree _ _ _ _, i => ∃ s : BSpline ℝ, i = .spline s ∧ s.points = plane points ∧ s.degree = degree ∧ s.uniform = true ∧
      StandardKnots degree points.length s.knots
  | .other _, _ => False

end

end Patro.DxfImport
