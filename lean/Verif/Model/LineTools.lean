import Verif.Model.Line
import Verif.Model.IterTools
import Verif.Model.Shapes
/-!
# Model of the measuring functions of `Line2D` (`Patro/GeometryEngine/Line.py`) and `Triangle2D` (`Patro/GeometryEngine/Triangle.py`)
-/

namespace Patro

namespace Line

/-- `is_parallel(other)` and `is_orthogonal(other)` (Line.py:131-139). -/
def isParallel {K : Type _} [Field K] [LinearOrder K] (l other : Line K) : Bool := l.v.isParallel other.v
@[inherit_doc isParallel] def isOrthogonal {K : Type _} [Field K] [LinearOrder K] (l other : Line K) : Bool := l.v.isOrthogonal other.v

noncomputable section

/-- The call `self.v.magnitude()` (Line.py:104): the property gives a number, which cannot be called. -/
def callMagnitude (_ : ℝ) : Except PyErr ℝ := .error .typeError

/-- `compute_distance_between_abscissae(s0, s1)` (Line.py:102-104). -/
def computeDistanceBetweenAbscissae (l : Line ℝ) (s0 s1 : ℝ) : Except PyErr ℝ := do
  let m ← callMagnitude l.v.magnitude
  return |s1 - s0| * m

/-- `compute_distance(s_list)` (Line.py:108-113). -/
def computeDistance (l : Line ℝ) (abscissae : List ℝ) : Except PyErr (List ℝ) := do
  let pairs ← IterTools.pairwise abscissae
  pairs.mapM fun p => l.computeDistanceBetweenAbscissae p.1 p.2

open Classical in
/-- `triangle_projected_point(point, distance, reverse)` (Line.py:215-220): `math.sqrt` raises `ValueError` for a negative number. The
vector of the line is not null where `point_at_distance` is called, and its result is a vector. -/
def triangleProjectedPoint (l : Line ℝ) (point : Vec ℝ) (distance : ℝ) (reverse : Bool) : Except PyErr (Option (Vec ℝ)) := do
  let p ← l.projectedPoint point
  let square := distance ^ 2 - (p - point).magnitudeSquare
  if square < 0 then .error .valueError
  else
    let d := Real.sqrt square
    let d := if reverse then -d else d
    return l.pointAtDistance d p

end

/-- `get_x_y_from_bounding_box(interval)` (Line.py:262-274). `interval.bounding_box()` and `interval.size()` are those of the
IntervalArithmetic package: the left, bottom, right and top sides, and the width and height. The property `tan` raises
`ZeroDivisionError` for a null abscissa. -/
def getXYFromBoundingBox {K : Type _} [Field K] [LinearOrder K] (l : Line K) (box : Box K) : Except PyErr (Vec K × Vec K) :=
  if l.v.x = 0 then .error .zeroDivisionError
  else if box.xSup - box.xInf = 0 then .error .zeroDivisionError
  else if |l.v.y / l.v.x| > (box.ySup - box.yInf) / (box.xSup - box.xInf) then do
    let xMin ← l.getXFromY box.yInf
    let xMax ← l.getXFromY box.ySup
    return (⟨xMin, box.yInf⟩, ⟨xMax, box.ySup⟩)
  else do
    let yMin ← l.getYFromX box.xInf
    let yMax ← l.getYFromX box.xSup
    return (⟨box.xInf, yMin⟩, ⟨box.xSup, yMax⟩)

end Line

namespace Triangle

noncomputable section

/-- A `Triangle2D` object with the attributes that its methods would add: the lengths `_p10`, `_p21`, `_p02` and the directions `_a10`, `_a21`,
`_a02` (Triangle.py:81-98, 152-168). -/
structure Object where
  triangle : Triangle ℝ
  lengths : Option (ℝ × ℝ × ℝ) := none
  angles : Option (ℝ × ℝ × ℝ) := none

/-- `Triangle2D(p0, p1, p2)` (Triangle.py:87-96). -/
def Object.new (p0 p1 p2 : Vec ℝ) : Except PyErr Object := (Triangle.create p0 p1 p2).map fun t => { triangle := t }

/-- `hasattr(value)` with a single argument (Triangle.py:154, 163): the attribute is read first, which raises `AttributeError` when it is
missing; then `hasattr` raises `TypeError`. -/
def hasattr {α : Type} (value : Option α) : Except PyErr Bool :=
  match value with
  | none => .error .attributeError
  | some _ => .error .typeError

/-- `_cache_length()` (Triangle.py:152-157). -/
def Object.cacheLength (o : Object) : Except PyErr Object := do
  let present ← hasattr o.lengths
  let t := o.triangle
  if present then return o
  else return { o with lengths := some ((t.p1 - t.p0).magnitude, (t.p2 - t.p1).magnitude, (t.p0 - t.p2).magnitude) }

/-- `_cache_angle()` (Triangle.py:161-166). -/
def Object.cacheAngle (o : Object) : Except PyErr Object := do
  let present ← hasattr o.angles
  let t := o.triangle
  if present then return o
  else return { o with angles := some ((t.p1 - t.p0).orientation, (t.p2 - t.p1).orientation, (t.p0 - t.p2).orientation) }

/-- The properties a user reads: `area`, `perimeter`, `is_equilateral`, `is_scalene`, `is_isosceles`, `is_right`, `is_obtuse`, `is_acute`,
`is_oblique`, `orthocenter`, `centroid`, `circumcenter`, `in_circle` (Triangle.py:170-278). -/
inductive Property where
  | area | perimeter | isEquilateral | isScalene | isIsosceles | isRight | isObtuse | isAcute | isOblique
  | orthocenter | centroid | circumcenter | inCircle
deriving DecidableEq

/-- What a property gives. -/
inductive Value where
  | number (x : ℝ)
  | bool (b : Prop)

/-- `_p10`, `_p21`, `_p02` once they are cached. -/
def Object.readLengths (o : Object) : Except PyErr (ℝ × ℝ × ℝ) :=
  match o.lengths with
  | none => .error .attributeError
  | some l => .ok l

/-- `_a10`, `_a21`, `_a02` once they are cached. -/
def Object.readAngles (o : Object) : Except PyErr (ℝ × ℝ × ℝ) :=
  match o.angles with
  | none => .error .attributeError
  | some l => .ok l

/-- `is_equilateral` (Triangle.py:196-201). -/
def Object.isEquilateral (o : Object) : Except PyErr (Object × Prop) := do
  let o ← o.cacheLength
  let (a, b, c) ← o.readLengths
  return (o, a = b ∧ b = c)

/-- `is_scalene` (Triangle.py:205-212). -/
def Object.isScalene (o : Object) : Except PyErr (Object × Prop) := do
  let o ← o.cacheLength
  let (a, b, c) ← o.readLengths
  return (o, a ≠ b ∧ b ≠ c ∧ c ≠ a)

/-- A property of a triangle (Triangle.py:170-278), with the object afterwards. -/
def Object.read (o : Object) : Property → Except PyErr (Object × Value)
  | .area => .ok (o, .number o.triangle.area)
  | .perimeter => do
    let o ← o.cacheLength
    let (a, b, c) ← o.readLengths
    return (o, .number (a + b + c))
  | .isEquilateral => do
    let (o, b) ← o.isEquilateral
    return (o, .bool b)
  | .isScalene => do
    let (o, b) ← o.isScalene
    return (o, .bool b)
  | .isIsosceles => do
    let o ← o.cacheLength
    let (o, e) ← o.isEquilateral
    let (o, s) ← o.isScalene
    return (o, .bool (¬ e ∧ ¬ s))
  | .isRight => do
    let _ ← o.cacheAngle
    .error .notImplementedError
  | .isObtuse => do
    let o ← o.cacheAngle
    let (a, b, c) ← o.readAngles
    return (o, .bool (max (max a b) c > 90))
  | .isAcute => do
    let o ← o.cacheAngle
    let (a, b, c) ← o.readAngles
    return (o, .bool (max (max a b) c < 90))
  | .isOblique => do
    let (o, e) ← o.isEquilateral
    return (o, .bool (¬ e))
  | .orthocenter | .centroid | .circumcenter | .inCircle => .error .notImplementedError

/-- The object after a property has been read, with or without an exception: nothing is assigned before the exception. -/
def Object.after (o : Object) (p : Property) : Object :=
  match o.read p with
  | .ok r => r.1
  | .error _ => o

end

end Triangle

end Patro
