import Verif.Model.Transformation
import Verif.Model.Line
/-!
# Model of `Patro/GeometryEngine/Mixin.py` and of the circle of `Patro/GeometryEngine/Conic.py`
-/

namespace Patro.Conic

open MathFunctions Transformation

/-- `AngularDomain` (Mixin.py:43-92): the angles are in degrees. -/
structure Domain (K : Type _) where
  start : K
  stop : K
deriving DecidableEq

namespace Domain

section Ordered

variable {K : Type _} [Field K] [LinearOrder K]

/-- `span` (Mixin.py:96-98). -/
def span (d : Domain K) : K := |d.stop - d.start|

/-- `is_null` (Mixin.py:102-104). -/
def isNull (d : Domain K) : Bool := decide (d.stop = d.start)

/-- `is_closed` (Mixin.py:106-108). -/
def isClosed (d : Domain K) : Bool := decide (d.span ≥ 360)

/-- `is_over_closed` (Mixin.py:110-112). -/
def isOverClosed (d : Domain K) : Bool := decide (d.span > 360)

/-- `is_counterclockwise` (Mixin.py:114-118). -/
def isCounterclockwise (d : Domain K) : Bool := decide (d.start ≤ d.stop)

/-- `is_clockwise` (Mixin.py:120-123). -/
def isClockwise (d : Domain K) : Bool := decide (d.stop < d.start)

/-- `is_inside(angle)` (Mixin.py:141-146). -/
def isInside (d : Domain K) (angle : K) : Bool :=
  if d.isCounterclockwise then decide (d.start ≤ angle) && decide (angle ≤ d.stop)
  else !(decide (d.stop < angle) && decide (angle < d.start))

end Ordered

/-- `length` (Mixin.py:127-137). -/
noncomputable def length (d : Domain ℝ) : ℝ :=
  if d.isClosed then 2 * Real.pi
  else
    let length := Vec.radians d.stop - Vec.radians d.start
    if d.isCounterclockwise then length
    else 2 * Real.pi - length

end Domain

/-- `Circle2D` (Conic.py:64-138). The domain is the object the caller gave; `clone` passes the same object, so that a later
assignment to the bounds of the domain is seen by both circles; this is not modelled here. -/
structure Circle (K : Type _) where
  center : Vec K
  radius : K
  domain : Option (Domain K) := none

/-- What `Circle2D.intersect_segment` returns: `None`, a vector (not in a tuple), or two vectors. -/
inductive Hits (K : Type _) where
  | none
  | one (p : Vec K)
  | two (p0 p1 : Vec K)

namespace Circle

noncomputable section

open Classical

/-- `Circle2D.from_two_points(center, point)` (Conic.py:70-73). -/
def fromTwoPoints (center point : Vec ℝ) : Circle ℝ := ⟨center, (point - center).magnitude, none⟩

/-- `Circle2D(center, radius, domain, diameter, start_angle, distance)` (Conic.py:107-133). A null radius with a null
distance raises `ZeroDivisionError`. -/
def new (center : Vec ℝ) (radius : ℝ) (domain : Option (Domain ℝ) := none) (diameter : Bool := false)
    (startAngle : Option ℝ := none) (distance : Option ℝ := none) : Except PyErr (Circle ℝ) :=
  let radius := if diameter then radius / 2 else radius
  match startAngle, distance with
  | some startAngle, some distance =>
    if distance > 2 * Real.pi * radius then .ok ⟨center, radius, none⟩
    else do
      let q ← Vec.pyDiv distance radius
      return ⟨center, radius, some ⟨startAngle, startAngle + Vec.degrees q⟩⟩
  | _, _ => .ok ⟨center, radius, domain⟩

/-- `is_closed` (Mixin.py:167-169). -/
def isClosed (c : Circle ℝ) : Bool := c.domain.isNone

/-- `apply_transformation(transformation)` (Conic.py:142-146) for an affine transformation. The center is assigned before
the product by the radius may fail: the second component is the state of the circle afterwards. -/
def applyTransformation (c : Circle ℝ) (t : Aff ℝ) : Except PyErr Unit × Circle ℝ :=
  let c' := { c with center := t.apply c.center }
  match scalarMul t.type (t.m 0 0) c.radius with
  | .ok r => (.ok (), { c' with radius := r })
  | .error e => (.error e, c')

/-- `perimeter` (Conic.py:173-178): the branches are swapped. -/
def perimeter (c : Circle ℝ) : Except PyErr ℝ :=
  match c.domain with
  | some _ => .ok (2 * Real.pi * c.radius)
  | none => .error .attributeError

/-- `area` (Conic.py:180-183). -/
def area (c : Circle ℝ) : ℝ := Real.pi * c.radius ^ 2

/-- `point_at_angle(angle)` (Conic.py:187-188). -/
def pointAtAngle (c : Circle ℝ) (angle : ℝ) : Vec ℝ := Vec.fromPolar c.radius angle + c.center

/-- `start_stop_point(start)` (Mixin.py:173-179), with `start_point` and `stop_point` (Mixin.py:183-191). -/
def startStopPoint (c : Circle ℝ) (start : Bool := true) : Option (Vec ℝ) :=
  match c.domain with
  | some d => some (c.pointAtAngle (if start then d.start else d.stop))
  | none => none

/-- `point_in_circle_frame(point)` (Conic.py:192-193). -/
def pointInCircleFrame (c : Circle ℝ) (point : Vec ℝ) : Vec ℝ := point - c.center

/-- `angle_for_point(point)` (Conic.py:197-207). -/
def angleForPoint (c : Circle ℝ) (point : Vec ℝ) : ℝ :=
  let orientation := (c.pointInCircleFrame point).orientation
  if orientation < 0 then 360 + orientation else orientation

/-- `point_at_distance(distance)` (Conic.py:211-213). -/
def pointAtDistance (c : Circle ℝ) (distance : ℝ) : Except PyErr (Vec ℝ) := do
  let q ← Vec.pyDiv distance c.radius
  return c.pointAtAngle (Vec.degrees q)

/-- `tangent_at_angle(angle)` (Conic.py:217-220). -/
def tangentAtAngle (c : Circle ℝ) (angle : ℝ) : Line ℝ :=
  let point := Vec.fromPolar c.radius angle + c.center
  ⟨point, (point - c.center).normal⟩

/-- `signed_distance_to_point(point)` (Conic.py:231-236). -/
def signedDistanceToPoint (c : Circle ℝ) (point : Vec ℝ) : ℝ := (point - c.center).magnitude - c.radius

/-- `distance_to_point(point)` (Conic.py:245-259). -/
def distanceToPoint (c : Circle ℝ) (point : Vec ℝ) : ℝ :=
  match c.domain with
  | some d =>
    if d.isInside (c.angleForPoint point) then |c.signedDistanceToPoint point|
    else min (point - c.pointAtAngle d.start).magnitude (point - c.pointAtAngle d.stop).magnitude
  | none => |c.signedDistanceToPoint point|

/-- `is_point_inside(point)` (Conic.py:263-264). -/
def isPointInside (c : Circle ℝ) (point : Vec ℝ) : Bool := decide ((point - c.center).magnitudeSquare ≤ c.radius ^ 2)

/-- `intersect_segment(segment)` (Conic.py:268-308). The division by `dr2`, null for a segment of null length, raises
`ZeroDivisionError`. -/
def intersectSegment (c : Circle ℝ) (segment : Segment ℝ) : Except PyErr (Hits ℝ) :=
  let dx := segment.vector.x
  let dy := segment.vector.y
  let dr2 := dx ^ 2 + dy ^ 2
  let p0 := segment.p0 - c.center
  let p1 := segment.p1 - c.center
  let D := p0.cross p1
  let discriminant := c.radius ^ 2 * dr2 - D ^ 2
  if discriminant < 0 then .ok .none
  else if discriminant = 0 then do
    let x ← Vec.pyDiv (D * dy) dr2
    let y ← Vec.pyDiv (-D * dx) dr2
    return .one (⟨x, y⟩ + c.center)
  else do
    let xa := D * dy
    let ya := -D * dx
    let xb := sign dy * dx * Real.sqrt discriminant
    let yb := |dy| * Real.sqrt discriminant
    let x0 ← Vec.pyDiv (xa - xb) dr2
    let y0 ← Vec.pyDiv (ya - yb) dr2
    let x1 ← Vec.pyDiv (xa + xb) dr2
    let y1 ← Vec.pyDiv (ya + yb) dr2
    return .two (⟨x0, y0⟩ + c.center) (⟨x1, y1⟩ + c.center)

end

end Circle

end Patro.Conic
