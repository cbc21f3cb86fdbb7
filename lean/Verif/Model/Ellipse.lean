import Verif.Model.Conic
import Verif.Model.Shapes
import Verif.Model.Bezier
/-!
# Model of `Ellipse2D` of `Patro/GeometryEngine/Conic.py`

Coordinates, radii and angles are real numbers; rounding is not modelled. Angles are in degrees as in the code.
-/

namespace Patro.Conic

open MathFunctions Transformation Bezier

/-- `Ellipse2D` (Conic.py:339-450): the attributes, with the cache `_bounding_box`. The setters convert the radii and the
angle to `float`, and the center to a vector. -/
structure Ellipse where
  center : Vec ℝ
  radiusX : ℝ
  radiusY : ℝ
  angle : ℝ
  domain : Option (Domain ℝ) := none
  cache : Option (Box ℝ) := none

/-- What `Ellipse2D.svg_arc` returns: a segment for a null radius. -/
inductive SvgArc where
  | segment (s : Segment ℝ)
  | ellipse (e : Ellipse)

/-- A call on an ellipse object: the setters of `center` (Mixin.py:201-203), `radius_x`, `radius_y`, `angle`
(Conic.py:479-497) and `domain` (Mixin.py:158-163), `apply_transformation`, and a read of `bounding_box`. -/
inductive EllipseOp where
  | setCenter (v : Vec ℝ)
  | setRadiusX (r : ℝ)
  | setRadiusY (r : ℝ)
  | setAngle (a : ℝ)
  | setDomain (d : Option (Domain ℝ))
  | transform (t : Aff ℝ)
  | readBox

namespace Ellipse

noncomputable section

open Classical

/-- `Ellipse2D(center, radius_x, radius_y, angle, domain)` (Conic.py:440-448). -/
def new (center : Vec ℝ) (rx ry : ℝ) (angle : ℝ := 0) (domain : Option (Domain ℝ) := none) : Ellipse :=
  ⟨center, rx, ry, angle, domain, none⟩

/-- `clone()` (Conic.py:452-458). -/
def clone (e : Ellipse) : Ellipse := new e.center e.radiusX e.radiusY e.angle e.domain

/-- `apply_transformation(transformation)` (Conic.py:462-466) for an affine transformation: the outcome and the ellipse
afterwards. The center is assigned before the product by a radius may fail, and the cache is reset last. -/
def applyTransformation (e : Ellipse) (t : Aff ℝ) : Except PyErr Unit × Ellipse :=
  let e1 := { e with center := t.apply e.center }
  match scalarMul t.type (t.m 0 0) e.radiusX with
  | .error x => (.error x, e1)
  | .ok rx =>
    let e2 := { e1 with radiusX := rx }
    match scalarMul t.type (t.m 0 0) e.radiusY with
    | .error x => (.error x, e2)
    | .ok ry => (.ok (), { e2 with radiusY := ry, cache := none })

/-- `major_vector` (Conic.py:499-502): the arguments of `from_polar(radius, angle)` are swapped. -/
def majorVector (e : Ellipse) : Vec ℝ := Vec.fromPolar e.angle e.radiusX

/-- `minor_vector` (Conic.py:504-507), in the same way. -/
def minorVector (e : Ellipse) : Vec ℝ := Vec.fromPolar (e.angle + 90) e.radiusY

/-- `eccentricity` (Conic.py:511-516): the radii are Python floats, `math.sqrt` of a negative number is a `ValueError`. -/
def eccentricity (e : Ellipse) : Except PyErr ℝ := do
  let q ← Vec.pyDiv e.radiusY e.radiusX
  if 1 - q ^ 2 < 0 then .error .valueError else return Real.sqrt (1 - q ^ 2)

/-- `matrix()` (Conic.py:520-551). -/
def matrix (e : Ellipse) : Matrix (Fin 3) (Fin 3) ℝ :=
  let angle := Vec.radians e.angle
  let c := Real.cos angle
  let s := Real.sin angle
  let c2 := c ^ 2
  let s2 := s ^ 2
  let a2 := e.radiusX ^ 2
  let b2 := e.radiusY ^ 2
  let xc := e.center.x
  let yc := e.center.y
  let A := a2 * s + b2 * c2
  let B := 2 * (b2 - a2) * c * s
  let C := a2 * c2 * b2 * s2
  let D := -2 * A * xc - B * yc
  let E := -B * xc - 2 * C * yc
  let F := A * xc ^ 2 + B * xc * yc + C * yc ^ 2 - a2 * b2
  !![A, B / 2, D / 2; B / 2, C, E / 2; D / 2, E / 2, F]

/-- `point_in_ellipse_frame(point)` (Conic.py:555-556). -/
def pointInFrame (e : Ellipse) (point : Vec ℝ) : Vec ℝ := (point - e.center).rotate (-e.angle)

/-- `point_from_ellipse_frame(point)` (Conic.py:558-559). -/
def pointFromFrame (e : Ellipse) (point : Vec ℝ) : Vec ℝ := e.center + point.rotate e.angle

/-- `point_at_angle(angle)` (Conic.py:563-569). -/
def pointAtAngle (e : Ellipse) (angle : ℝ) : Vec ℝ :=
  let point := Vec.fromEllipse e.radiusX e.radiusY angle
  let point := if e.angle ≠ 0 then point.rotate e.angle else point
  e.center + point

/-- `start_stop_point(start)` (Mixin.py:173-179), with `start_point` and `stop_point` (Mixin.py:183-191). -/
def startStopPoint (e : Ellipse) (start : Bool := true) : Option (Vec ℝ) :=
  match e.domain with
  | some d => some (e.pointAtAngle (if start then d.start else d.stop))
  | none => none

/-- What `bounding_box` computes when there is no cached value (Conic.py:577-594). `enlarge` of the IntervalArithmetic
package is assumed to move both bounds of the interval outwards, in place. The arguments of `from_polar` are swapped. -/
def computeBox (e : Ellipse) : Option (Box ℝ) :=
  if e.angle = 0 then
    let b := Box.ofPoint e.center
    some ⟨b.xInf - e.radiusX, b.xSup + e.radiusX, b.yInf - e.radiusY, b.ySup + e.radiusY⟩
  else
    let angleX := e.angle
    let angleY := angleX + 90
    Box.fromPoints ([Vec.fromPolar angleX e.radiusX, Vec.fromPolar angleX (-e.radiusX),
      Vec.fromPolar angleY e.radiusY, Vec.fromPolar angleY (-e.radiusY)].map fun offset => e.center + offset)

/-- `bounding_box` (Conic.py:573-595): the box and the ellipse afterwards. -/
def boundingBox (e : Ellipse) : Option (Box ℝ) × Ellipse :=
  match e.cache with
  | some b => (some b, e)
  | none => let b := e.computeBox; (b, { e with cache := b })

/-- One call. An exception of `apply_transformation` is caught by the caller. -/
def step (e : Ellipse) : EllipseOp → Ellipse
  | .setCenter v => { e with center := v }
  | .setRadiusX r => { e with radiusX := r }
  | .setRadiusY r => { e with radiusY := r }
  | .setAngle a => { e with angle := a }
  | .setDomain d => { e with domain := d }
  | .transform t => (e.applyTransformation t).2
  | .readBox => e.boundingBox.2

/-- `_robust_length(x, y)` (Conic.py:599-603). -/
def robustLength (x y : ℝ) : ℝ :=
  if x < y then |y| * Real.sqrt (1 + (x / y) ^ 2) else |x| * Real.sqrt (1 + (y / x) ^ 2)

/-- The loop of `_distance_point_bisection` (Conic.py:616-632): `i` turns are left, `s` is the current value. The numbers are
numpy floats, so that a division by zero would give an infinity; it does not occur for positive radii and is not
modelled. -/
def bisectLoop (r0 n0 z1 : ℝ) : Nat → ℝ → ℝ → ℝ → ℝ
  | 0, _, _, s => s
  | i + 1, s0, s1, _ =>
    let s := (s0 + s1) / 2
    if s = s0 ∨ s = s1 then s
    else
      let ratio0 := n0 / (s + r0)
      let ratio1 := z1 / (s + 1)
      let g := ratio0 ^ 2 + ratio1 ^ 2 - 1
      if g > 0 then bisectLoop r0 n0 z1 i s s1 s
      else if g < 0 then bisectLoop r0 n0 z1 i s0 s s
      else s

/-- `_distance_point_bisection(r0, z0, z1, g)` (Conic.py:607-632). -/
def distancePointBisection (r0 z0 z1 g : ℝ) : ℝ :=
  let n0 := r0 * z0
  let s0 := z1 - 1
  let s1 := if g < 0 then 0 else robustLength n0 z1 - 1
  bisectLoop r0 n0 z1 1074 s0 s1 0

/-- `_eberly_distance(point)` (Conic.py:636-690): the distance and the point of the ellipse, in the frame of the ellipse.
Null radii (infinities of numpy) are not modelled. -/
def eberlyDistance (e : Ellipse) (point : Vec ℝ) : ℝ × Vec ℝ :=
  let y0 := point.x
  let y1 := point.y
  let e0 := e.radiusX
  let e1 := e.radiusY
  if y1 > 0 then
    if y0 > 0 then
      let z0 := y0 / e0
      let z1 := y1 / e1
      let g := z0 ^ 2 + z1 ^ 2 - 1
      if g ≠ 0 then
        let r0 := (e0 / e1) ^ 2
        let sbar := distancePointBisection r0 z0 z1 g
        let x0 := r0 * y0 / (sbar + r0)
        let x1 := y1 / (sbar + 1)
        (Real.sqrt ((x0 - y0) ^ 2 + (x1 - y1) ^ 2), ⟨x0, x1⟩)
      else (0, ⟨y0, y1⟩)
    else (|y1 - e1|, ⟨0, e1⟩)
  else
    let numer0 := e0 * y0
    let denom0 := e0 ^ 2 - e1 ^ 2
    if numer0 < denom0 then
      let xde0 := numer0 / denom0
      let x0 := e0 * xde0
      let x1 := e1 * Real.sqrt (1 - xde0 ^ 2)
      (Real.sqrt ((x0 - y0) ^ 2 + x1 ^ 2), ⟨x0, x1⟩)
    else (|y0 - e0|, ⟨e0, 0⟩)

/-- `point_in_frame_abs` of `distance_to_point` (Conic.py:698-699). -/
def absInFrame (e : Ellipse) (point : Vec ℝ) : Vec ℝ := ⟨|(e.pointInFrame point).x|, |(e.pointInFrame point).y|⟩

/-- `distance_to_point(point)` (Conic.py:694-700, 716-717). -/
def distanceToPoint (e : Ellipse) (point : Vec ℝ) : ℝ := (e.eberlyDistance (e.absInFrame point)).1

/-- `distance_to_point(point, return_point=True)` (Conic.py:709-715). -/
def distanceAndPoint (e : Ellipse) (point : Vec ℝ) : ℝ × Vec ℝ :=
  let inFrame := e.pointInFrame point
  let r := e.eberlyDistance (e.absInFrame point)
  (r.1, e.pointFromFrame ⟨sign inFrame.x * r.2.x, sign inFrame.y * r.2.y⟩)

/-- `distance_to_point(point, is_inside=True)`, that is `is_point_inside(point)` (Conic.py:702-708, 721-722): points of the
frame are compared with the center. -/
def isPointInside (e : Ellipse) (point : Vec ℝ) : Bool :=
  decide ((e.absInFrame point - e.center).magnitudeSquare ≤
    ((e.eberlyDistance (e.absInFrame point)).2 - e.center).magnitudeSquare)

/-- `intersect_segment(segment)` (Conic.py:726-741). The loop over `None` raises `TypeError`, and the loop over a vector (a
tangent line) goes over its coordinates, which have no attribute `x`. -/
def intersectSegment (e : Ellipse) (segment : Segment ℝ) : Except PyErr (List (Vec ℝ)) := do
  let yScale ← Vec.pyDiv e.radiusX e.radiusY
  let toFrame := fun p : Vec ℝ => (⟨(e.pointInFrame p).x, (e.pointInFrame p).y * yScale⟩ : Vec ℝ)
  match ← (⟨⟨0, 0⟩, e.radiusX, none⟩ : Circle ℝ).intersectSegment ⟨toFrame segment.p0, toFrame segment.p1⟩ with
  | .none => .error .typeError
  | .one _ => .error .attributeError
  | .two p0 p1 =>
    let y0 ← Vec.pyDiv p0.y yScale
    let y1 ← Vec.pyDiv p1.y yScale
    return [e.pointFromFrame ⟨p0.x, y0⟩, e.pointFromFrame ⟨p1.x, y1⟩]

/-- `_bezier_arc(start_angle, stop_angle)` (Conic.py:789-812). The sine that divides is not null for the angles `to_bezier`
gives (this is proved). -/
def bezierArc (e : Ellipse) (startAngle stopAngle : ℝ) : Cubic ℝ :=
  let angle1 := Vec.radians startAngle
  let angle2 := Vec.radians stopAngle
  let halfDelta := (angle2 - angle1) / 2
  let t := 8 / 3 * Real.sin (halfDelta / 2) ^ 2 / Real.sin halfDelta
  let p0 := e.pointAtAngle startAngle
  let p3 := e.pointAtAngle stopAngle
  let offset1 : Vec ℝ := ⟨-e.radiusX * Real.sin angle1, e.radiusY * Real.cos angle1⟩
  let offset2 : Vec ℝ := ⟨e.radiusX * Real.sin angle2, -e.radiusY * Real.cos angle2⟩
  let offset1 := if e.angle ≠ 0 then offset1.rotate e.angle else offset1
  let offset2 := if e.angle ≠ 0 then offset2.rotate e.angle else offset2
  ⟨p0, p0 + offset1.smul t, p3 + offset2.smul t, p3⟩

/-- `start_angle` and `angle_span` of `to_bezier` (Conic.py:766-772). -/
def bezierSpan (e : Ellipse) : ℝ × ℝ :=
  match e.domain with
  | some d => (d.start, d.span)
  | none => (0, 360)

/-- `number_of_segments` of `to_bezier` (Conic.py:775). -/
def numberOfSegments (angleSpan : ℝ) : Nat := ⌈|angleSpan / (90001 / 1000)|⌉₊

/-- `to_bezier()` (Conic.py:762-785): a null span divides by zero. -/
def toBezier (e : Ellipse) : Except PyErr (List (Cubic ℝ)) :=
  let startAngle := e.bezierSpan.1
  let angleSpan := e.bezierSpan.2
  let n := numberOfSegments angleSpan
  if n = 0 then .error .zeroDivisionError
  else
    let angleStep := angleSpan / n
    .ok ((List.range n).map fun (i : Nat) =>
      let angle1 := startAngle + i * angleStep
      let angle2 := angle1 + angleStep
      e.bezierArc angle1 angle2)

/-- Python's `x % 360` for a float. -/
def mod360 (x : ℝ) : ℝ := x - 360 * ⌊x / 360⌋

/-- `Ellipse2D.svg_arc(point1, point2, radius_x, radius_y, angle, large_arc, sweep)` (Conic.py:350-436). When the radii are
too small the name `self` of the warning is not defined. `ratio` divides by a radius which is not null here. -/
def svgArc (point1 point2 : Vec ℝ) (radiusX radiusY angle : ℝ) (largeArc sweep : Bool) : Except PyErr SvgArc :=
  if radiusX = 0 ∨ radiusY = 0 then .ok (.segment ⟨point1, point2⟩)
  else
    let radiusX := |radiusX|
    let radiusY := |radiusY|
    let originPrime := (point1 + point2).sdiv 2
    let point1Prime := ((Lin.rotation (-angle)).apply (point1 - point2)).sdiv 2
    let radiiScale := point1Prime.x ^ 2 / radiusX ^ 2 + point1Prime.y ^ 2 / radiusY ^ 2
    if radiiScale > 1 then .error .nameError
    else do
      let den := radiusX ^ 2 * point1Prime.y ^ 2 + radiusY ^ 2 * point1Prime.x ^ 2
      let num := radiusX ^ 2 * radiusY ^ 2 - den
      let ratio := radiusX / radiusY
      let sgn : ℝ := (if largeArc ≠ sweep then 1 else -1) * -1
      let q ← Vec.pyDiv num den
      let centerPrime := (point1Prime.antiNormal.scale ratio (1 / ratio)).smul (sgn * Real.sqrt q)
      let center := (Lin.rotation angle).apply centerPrime + originPrime
      let vector1 := (point1Prime - centerPrime).divide radiusX radiusY
      let vector2 := -(point1Prime + centerPrime).divide radiusX radiusY
      let theta ← (⟨1, 0⟩ : Vec ℝ).angleWith vector1
      let delta ← vector1.angleWith vector2
      let delta := mod360 delta
      let delta := if sweep = false ∧ delta > 0 then delta - 360 else if sweep = true ∧ delta < 0 then delta + 360 else delta
      return .ellipse (new center radiusX radiusY angle (some ⟨theta, theta + delta⟩))

end

end Ellipse

end Patro.Conic
