import Verif.Model.SceneGeometry
import Verif.Spec.Conic
import Verif.Spec.Path
import Verif.Spec.Shapes
/-! # Specification for the objects of a scene: the points they cover -/

namespace Patro.SceneGeometry

open Conic

/-- The points of a segment. -/
def segmentPoints (p q : Vec ℝ) : Set (Vec ℝ) :=
  {v | ∃ t, 0 ≤ t ∧ t ≤ 1 ∧ v = ⟨(1 - t) * p.x + t * q.x, (1 - t) * p.y + t * q.y⟩}

/-- The points of a quadratic Bézier curve. -/
def quadraticPoints (p0 p1 p2 : Vec ℝ) : Set (Vec ℝ) :=
  {v | ∃ t, 0 ≤ t ∧ t ≤ 1 ∧ v = ⟨(1 - t) ^ 2 * p0.x + 2 * t * (1 - t) * p1.x + t ^ 2 * p2.x,
    (1 - t) ^ 2 * p0.y + 2 * t * (1 - t) * p1.y + t ^ 2 * p2.y⟩}

/-- The point of a cubic Bézier curve at a parameter. -/
def cubicPoint (p0 p1 p2 p3 : Vec ℝ) (t : ℝ) : Vec ℝ :=
  ⟨(1 - t) ^ 3 * p0.x + 3 * t * (1 - t) ^ 2 * p1.x + 3 * t ^ 2 * (1 - t) * p2.x + t ^ 3 * p3.x,
   (1 - t) ^ 3 * p0.y + 3 * t * (1 - t) ^ 2 * p1.y + 3 * t ^ 2 * (1 - t) * p2.y + t ^ 3 * p3.y⟩

/-- The points of a cubic Bézier curve. -/
def cubicPoints (p0 p1 p2 p3 : Vec ℝ) : Set (Vec ℝ) := {v | ∃ t, 0 ≤ t ∧ t ≤ 1 ∧ v = cubicPoint p0 p1 p2 p3 t}

/-- The points of the segments which join pairs of points. -/
def edgesPoints (edges : List (Vec ℝ × Vec ℝ)) : Set (Vec ℝ) := {v | ∃ e ∈ edges, v ∈ segmentPoints e.1 e.2}

/-- The pairs of successive points of an open line. -/
def openEdges (l : List (Vec ℝ)) : List (Vec ℝ × Vec ℝ) := l.zip l.tail

/-- The pairs of successive points of a closed line. -/
def closedEdges (l : List (Vec ℝ)) : List (Vec ℝ × Vec ℝ) := l.zip (l.tail ++ l.take 1)

/-- The four corners of a rectangle with sides along the axes, given by two opposite corners. -/
def corners (p q : Vec ℝ) : List (Vec ℝ) := [p, ⟨p.x, q.y⟩, q, ⟨q.x, p.y⟩]

/-- The point of an ellipse at a parameter in degrees. -/
noncomputable def onEllipse (center : Vec ℝ) (rx ry angle t : ℝ) : Vec ℝ :=
  let x := rx * Real.cos (t * Real.pi / 180)
  let y := ry * Real.sin (t * Real.pi / 180)
  ⟨center.x + Real.cos (angle * Real.pi / 180) * x - Real.sin (angle * Real.pi / 180) * y,
   center.y + Real.sin (angle * Real.pi / 180) * x + Real.cos (angle * Real.pi / 180) * y⟩

/-- The points of an arc of an ellipse, over `sweep` degrees from `start`. -/
def ellipseArc (center : Vec ℝ) (rx ry angle start sweep : ℝ) : Set (Vec ℝ) :=
  {v | ∃ s, 0 ≤ s ∧ s ≤ sweep ∧ v = onEllipse center rx ry angle (start + s)}

/-- The points an object covers: its line and not its interior. A path, a spline and a line without ends are treated apart. -/
noncomputable def Geometry.points : Geometry → Option (Set (Vec ℝ))
  | .quadratic c => some (quadraticPoints c.p0 c.p1 c.p2)
  | .cubic c => some (cubicPoints c.p0 c.p1 c.p2 c.p3)
  | .circle c => some (match c.domain with
    | none => circlePoints c.center c.radius
    | some d => arcPoints c.center c.radius d.start d.sweep)
  | .ellipse e => some (match e.domain with
    | none => ellipseArc e.center e.radiusX e.radiusY e.angle 0 360
    | some d => ellipseArc e.center e.radiusX e.radiusY e.angle d.start d.sweep)
  | .polygon points => some (edgesPoints (closedEdges points))
  | .polyline points => some (edgesPoints (openEdges points))
  | .rectangle r => some (edgesPoints (closedEdges (corners r.p0 r.p1)))
  | .segment s => some (segmentPoints s.p0 s.p1)
  | .triangle t => some (edgesPoints (closedEdges [t.p0, t.p1, t.p2]))
  | .line | .path _ | .spline _ | .other => none

/-- The points an item covers. -/
noncomputable def Item.drawn : Item → Option (Set (Vec ℝ))
  | .quadratic p0 p1 p2 => some (quadraticPoints p0 p1 p2)
  | .cubic p0 p1 p2 p3 => some (cubicPoints p0 p1 p2 p3)
  | .circle center radius start stop => some (arcPoints center radius start (Domain.sweep ⟨start, stop⟩))
  | .ellipse center rx ry angle start stop => some (ellipseArc center rx ry angle start (Domain.sweep ⟨start, stop⟩))
  | .polygon points => some (edgesPoints (closedEdges points))
  | .polyline points => some (edgesPoints (openEdges points))
  | .rectangle p q => some (edgesPoints (closedEdges (corners p q)))
  | .segment p q => some (segmentPoints p q)
  | .path _ _ _ => none

/-- The items which are determined by their points: Bézier curves, polygons, polylines and segments. -/
def Item.byPoints : Item → Bool
  | .quadratic .. | .cubic .. | .polygon .. | .polyline .. | .segment .. => true
  | _ => false

/-- The control points of the items drawn for the parts of a path which are not arcs: two for a segment, three for a quadratic curve, four
for a cubic one. -/
def Item.control : Item → List (Vec ℝ)
  | .segment p q => [p, q]
  | .quadratic p0 p1 p2 => [p0, p1, p2]
  | .cubic p0 p1 p2 p3 => [p0, p1, p2, p3]
  | _ => []

/-- The points of a segment of a path item, after its start. -/
def PathSegment.points : PathSegment → List (Vec ℝ)
  | .linear p => [p]
  | .quadratic p1 p2 => [p1, p2]
  | .cubic p1 p2 p3 => [p1, p2, p3]

/-- An arc of an ellipse. -/
def isArc : Path.Part ℝ → Bool
  | .arc .. => true
  | _ => false

/-- The smallest box which contains the points. -/
def IsBoxOf (b : Box ℝ) (points : List (Vec ℝ)) : Prop :=
  (∀ v ∈ points, b.Contains v) ∧
  ∀ b' : Box ℝ, (∀ v ∈ points, b'.Contains v) → b'.xInf ≤ b.xInf ∧ b.xSup ≤ b'.xSup ∧ b'.yInf ≤ b.yInf ∧ b.ySup ≤ b'.ySup

/-! ## Rounded corners -/

/-- Where the part of index `i` starts and stops, and where the part before starts, according to the points of the parts before rounding.
The part before the first one is the last one. -/
def startOf (tr : List (List (Vec ℝ))) (i : Nat) : Vec ℝ := ((tr[i]?).bind List.head?).getD 0
@[inherit_doc startOf] def stopOf (tr : List (List (Vec ℝ))) (i : Nat) : Vec ℝ := ((tr[i]?).bind List.getLast?).getD 0
@[inherit_doc startOf] def beforeOf (tr : List (List (Vec ℝ))) (i : Nat) : Vec ℝ := startOf tr (if i = 0 then tr.length - 1 else i - 1)

/-- An arc at a corner: it leaves the part before at `p`, and joins the part after at `q`. -/
structure Arc where
  center : Vec ℝ
  start : ℝ
  stop : ℝ
  p : Vec ℝ
  q : Vec ℝ

/-- The arc of radius `r` rounds the corner `a`, `c`, `b`: its ends are at the same distance of the corner, on the half-lines from the corner
to `a` and to `b`, it is tangent there, and drawn counter-clockwise from `start` to `stop` it joins them by less than a half turn. -/
structure Rounds (a c b : Vec ℝ) (r : ℝ) (arc : Arc) : Prop where
  before : ∃ k, 0 < k ∧ arc.p = c + (a - c).smul k
  after : ∃ k, 0 < k ∧ arc.q = c + (b - c).smul k
  same : distance arc.p c = distance arc.q c
  tangentBefore : (arc.center - arc.p).dot (c - a) = 0
  tangentAfter : (arc.center - arc.q).dot (b - c) = 0
  sweep : 0 < Domain.sweep ⟨arc.start, arc.stop⟩ ∧ Domain.sweep ⟨arc.start, arc.stop⟩ < 180
  left : 0 < (c - a).cross (b - c) → arc.p = onCircle arc.center r arc.start ∧
    arc.q = onCircle arc.center r (arc.start + Domain.sweep ⟨arc.start, arc.stop⟩)
  right : (c - a).cross (b - c) < 0 → arc.q = onCircle arc.center r arc.start ∧
    arc.p = onCircle arc.center r (arc.start + Domain.sweep ⟨arc.start, arc.stop⟩)

/-- The part of index `i` has a rounded corner at its start. -/
def rounded (parts : List (Path.Part ℝ)) (i : Nat) : Option ℝ := (parts[i]?).bind Path.Part.radius

/-- The items expected for the part of index `i`: the arc at its start, if any, then the segment, which runs from the end of the arc, if
any, to the start of the arc at its end, if any; for a curve the curve. The corner at the end of the last part is the one of the first
part. -/
noncomputable def expected (parts : List (Path.Part ℝ)) (tr : List (List (Vec ℝ))) (arcs : Nat → Arc) (i : Nat) : List Item :=
  match tr[i]?.getD [] with
  | [a, b] =>
    let next := if i + 1 = parts.length then 0 else i + 1
    (match rounded parts i with
      | some r => [.circle (arcs i).center r (arcs i).start (arcs i).stop]
      | none => []) ++
    [.segment (if (rounded parts i).isSome then (arcs i).q else a) (if (rounded parts next).isSome then (arcs next).p else b)]
  | [a, b, c] => [.quadratic a b c]
  | [a, b, c, d] => [.cubic a b c d]
  | _ => []

/-- The path is closed once: the closing segment which knows that the first corner is rounded is the last one, and it is there when the
first corner is rounded. -/
def ClosedOnce (parts : List (Path.Part ℝ)) : Prop :=
  (∀ i p a r b, parts[i]? = some (.line p a r true b) → i + 1 = parts.length) ∧
  ((rounded parts 0).isSome → ∃ p a r b, parts.getLast? = some (.line p a r true b))

end Patro.SceneGeometry
