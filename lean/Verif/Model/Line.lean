import Verif.Model.Vector
/-!
# Model of `Patro/GeometryEngine/Line.py`, `Segment.py` and of `triangle_orientation` in `Triangle.py`

Coordinates are elements of an ordered field, or real numbers when lengths are used. Rounding is not modelled.
-/

namespace Patro

/-- `Line2D` (Patro/GeometryEngine/Line.py:42-58): a point and a vector. -/
structure Line (K : Type _) where
  p : Vec K
  v : Vec K
deriving DecidableEq, Repr

/-- `Segment2D` (Patro/GeometryEngine/Segment.py:39-61): two points. -/
structure Segment (K : Type _) where
  p0 : Vec K
  p1 : Vec K
deriving DecidableEq, Repr

namespace Line

variable {K : Type _} [Field K]

/-- `Line2D.from_two_points(p0, p1)` (Line.py:48-51). -/
def fromTwoPoints (p0 p1 : Vec K) : Line K := ⟨p0, p1 - p0⟩

/-- `interpolate(s)` (Line.py:88-90). -/
def interpolate (l : Line K) (s : K) : Vec K := l.p + l.v.smul s

/-- `parallel_line_at(point)` (Line.py:143-145). -/
def parallelLineAt (l : Line K) (point : Vec K) : Line K := ⟨point, l.v⟩

/-- `orthogonal_line_at(point)` (Line.py:158-161). -/
def orthogonalLineAt (l : Line K) (point : Vec K) : Line K := ⟨point, l.v.normal⟩

/-- `orthogonal_line_at_abscissa(s)` (Line.py:165-169). -/
def orthogonalLineAtAbscissa (l : Line K) (s : K) : Line K := ⟨l.interpolate s, l.v.normal⟩

/-- `get_y_from_x(x)` (Line.py:117-119): the coordinates are Python floats, so that `v.tan`
(Vector.py:378-381) raises `ZeroDivisionError` when `v.x` is null. -/
def getYFromX [DecidableEq K] (l : Line K) (x : K) : Except PyErr K :=
  if l.v.x = 0 then .error .zeroDivisionError else .ok (l.v.y / l.v.x * (x - l.p.x) + l.p.y)

/-- `get_x_from_y(y)` (Line.py:123-125), in the same way. -/
def getXFromY [DecidableEq K] (l : Line K) (y : K) : Except PyErr K :=
  if l.v.y = 0 then .error .zeroDivisionError else .ok (l.v.x / l.v.y * (y - l.p.y) + l.p.x)

variable [LinearOrder K]

/-- `intersection_abscissae(l1, l2)` (Line.py:173-190); `none` for `(None, None)`. -/
def intersectionAbscissae (l1 l2 : Line K) : Option (K × K) :=
  let cross := l1.v.cross l2.v
  if Vec.roundsToZero cross then none
  else
    let denominator := 1 / cross
    let delta := l2.p - l1.p
    some (delta.cross l2.v * denominator, delta.cross l1.v * denominator)

/-- `intersection(other)` (Line.py:194-200). -/
def intersection (l1 l2 : Line K) : Option (Vec K) :=
  (l1.intersectionAbscissae l2).map fun s => l1.interpolate s.1

noncomputable section

/-- `point_at_distance(distance, point)` (Line.py:97-98); `none` when the vector of the line is null (nan). -/
def pointAtDistance (l : Line ℝ) (distance : ℝ) (point : Vec ℝ) : Option (Vec ℝ) :=
  l.v.toNormalised.map fun vn => point + vn.smul distance

/-- `shifted_parallel_line(shift)` (Line.py:149-154); `none` when the vector of the line is null (nan). -/
def shiftedParallelLine (l : Line ℝ) (shift : ℝ) : Option (Line ℝ) :=
  l.v.normal.toNormalised.map fun n => ⟨l.p + n.smul shift, l.v⟩

/-- `projected_abscissa(point)` (Line.py:204-210). -/
def projectedAbscissa (l : Line ℝ) (point : Vec ℝ) : Except PyErr ℝ := (point - l.p).projectionOn l.v

/-- `projected_point(point)` (Line.py:212-213). -/
def projectedPoint (l : Line ℝ) (point : Vec ℝ) : Except PyErr (Vec ℝ) :=
  (l.projectedAbscissa point).map l.interpolate

/-- `distance_to_line(point)` (Line.py:224-246). -/
def distanceToLine (l : Line ℝ) (point : Vec ℝ) : Except PyErr ℝ := (point - l.p).deviationWith l.v

open Classical in
/-- `distance_and_abscissa_to_line(point)` (Line.py:250-258). -/
def distanceAndAbscissaToLine (l : Line ℝ) (point : Vec ℝ) : Except PyErr (ℝ × ℝ) :=
  let delta := point - l.p
  if delta.magnitudeSquare = 0 then .ok (0, 0)
  else do
    let d ← delta.deviationWith l.v
    let s ← delta.projectionOn l.v
    return (d, s)

end

end Line

namespace Triangle

variable {K : Type _} [Field K] [LinearOrder K]

/-- `triangle_orientation(p0, p1, p2)` (Patro/GeometryEngine/Triangle.py:38-64). -/
def triangleOrientation (p0 p1 p2 : Vec K) : Int :=
  let dx1 := p1.x - p0.x
  let dy1 := p1.y - p0.y
  let dx2 := p2.x - p0.x
  let dy2 := p2.y - p0.y
  if dx1 * dy2 > dx2 * dy1 then 1
  else if dx1 * dy2 < dx2 * dy1 then -1
  else if dx1 * dx2 < 0 ∨ dy1 * dy2 < 0 then -1
  else if dx1 * dx1 + dy1 * dy1 ≥ dx2 * dx2 + dy2 * dy2 then 0
  else 1

end Triangle

namespace Segment

variable {K : Type _} [Field K]

/-- `vector` (Segment.py:65-67). -/
def vector (s : Segment K) : Vec K := s.p1 - s.p0

/-- `center` (Segment.py:76-79). -/
def center (s : Segment K) : Vec K := (s.p0 + s.p1).sdiv 2

/-- `to_line()` (Segment.py:94-96). -/
def toLine (s : Segment K) : Line K := Line.fromTwoPoints s.p0 s.p1

/-- `point_at_t(t)`: `Primitive2P.interpolate` (Primitive.py:489-491). -/
def interpolate (s : Segment K) (t : K) : Vec K := s.p0.smul (1 - t) + s.p1.smul t

/-- `side_of(point)` (Segment.py:163-174). -/
def sideOf (s : Segment K) (point : Vec K) : K := s.vector.cross (point - s.p0)

/-- `share_vertex_with(segment2)` (Segment.py:143-159). -/
def shareVertexWith [DecidableEq K] (s t : Segment K) : Option (Vec K) :=
  if s.p0 = t.p0 ∨ s.p0 = t.p1 then some s.p0
  else if s.p1 = t.p0 ∨ s.p1 = t.p1 then some s.p1
  else none

variable [LinearOrder K]

/-- `left_of(point)`, `right_of(point)`, `is_collinear(point)` (Segment.py:178-188). -/
def leftOf (s : Segment K) (point : Vec K) : Bool := decide (s.sideOf point > 0)
@[inherit_doc leftOf] def rightOf (s : Segment K) (point : Vec K) : Bool := decide (s.sideOf point < 0)
@[inherit_doc leftOf] def isCollinear (s : Segment K) (point : Vec K) : Bool := decide (s.sideOf point = 0)

open Triangle in
/-- `intersect_with(segment2)` (Segment.py:104-122). -/
def intersectWith (s t : Segment K) : Bool :=
  let ccw11 := triangleOrientation s.p0 s.p1 t.p0
  let ccw12 := triangleOrientation s.p0 s.p1 t.p1
  let ccw21 := triangleOrientation t.p0 t.p1 s.p0
  let ccw22 := triangleOrientation t.p0 t.p1 s.p1
  (decide (ccw11 * ccw12 < 0) && decide (ccw21 * ccw22 < 0)) || decide (ccw11 * ccw12 * ccw21 * ccw22 = 0)

/-- `intersection(segment2)` (Segment.py:126-139); `none` for `(None, None)`. -/
def intersection (s t : Segment K) : Option (Vec K × Bool) :=
  (s.toLine.intersectionAbscissae t.toLine).map fun u =>
    (s.interpolate u.1, decide (0 ≤ u.1 ∧ u.1 ≤ 1) && decide (0 ≤ u.2 ∧ u.2 ≤ 1))

noncomputable section

/-- `length` (Segment.py:72-74). -/
def length (s : Segment ℝ) : ℝ := s.vector.magnitude

open Classical in
/-- `distance_to_point(point)` (Segment.py:192-207). -/
def distanceToPoint (seg : Segment ℝ) (point : Vec ℝ) : Except PyErr ℝ :=
  let line := seg.toLine
  if line.v.magnitudeSquare = 0 then .ok (seg.p0 - point).magnitude
  else do
    let (d, s) ← line.distanceAndAbscissaToLine point
    if 0 ≤ s ∧ s ≤ seg.length then return |d|
    else
      let p := if s < 0 then seg.p0 else seg.p1
      return (p - point).magnitude

open Classical in
/-- `contain_point(point)` (Segment.py:211-220). -/
def containPoint (seg : Segment ℝ) (point : Vec ℝ) : Except PyErr Bool := do
  let (_, s) ← seg.toLine.distanceAndAbscissaToLine point
  return decide (0 ≤ s ∧ s ≤ 1)

end

end Segment

end Patro
