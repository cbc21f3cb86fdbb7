import Verif.Model.Line
/-!
# Model of `BoundingBox.py`, `Triangle.py`, `Rectangle.py` and `Polyline.py` of `Patro/GeometryEngine`

Coordinates are elements of an ordered field, or real numbers when lengths are used. Rounding is not modelled.
-/

namespace Patro

/-- `Interval2D` of the IntervalArithmetic package, which is not part of the repository: a closed interval of abscissae and
one of ordinates. -/
@[ext] structure Box (K : Type _) where
  xInf : K
  xSup : K
  yInf : K
  ySup : K
deriving DecidableEq, Repr

namespace Box

variable {K : Type _} [LinearOrder K]

/-- `Vector2D.bounding_box` (Patro/GeometryEngine/Vector.py:248-251). -/
def ofPoint (p : Vec K) : Box K := ⟨p.x, p.x, p.y, p.y⟩

/-- `|=` of the IntervalArithmetic package, assumed to be the smallest interval that contains both. -/
def union (a b : Box K) : Box K := ⟨min a.xInf b.xInf, max a.xSup b.xSup, min a.yInf b.yInf, max a.ySup b.ySup⟩

/-- The loop of `bounding_box_from_points` with its variable `bounding_box`
(Patro/GeometryEngine/BoundingBox.py:37-42). -/
def fromPointsLoop : Option (Box K) → List (Vec K) → Option (Box K)
  | box, [] => box
  | none, p :: ps => fromPointsLoop (some (ofPoint p)) ps
  | some box, p :: ps => fromPointsLoop (some (box.union (ofPoint p))) ps

/-- `bounding_box_from_points(points)` (Patro/GeometryEngine/BoundingBox.py:33-43). -/
def fromPoints (points : List (Vec K)) : Option (Box K) := fromPointsLoop none points

end Box

/-- `Triangle2D` (Patro/GeometryEngine/Triangle.py:81-92): the three points. -/
@[ext] structure Triangle (K : Type _) where
  p0 : Vec K
  p1 : Vec K
  p2 : Vec K
deriving DecidableEq, Repr

namespace Triangle

variable {K : Type _} [Field K] [LinearOrder K]

/-- `Triangle2D.__init__` (Triangle.py:87-92). -/
def create (p0 p1 p2 : Vec K) : Except PyErr (Triangle K) :=
  if (p1 - p0).isParallel (p2 - p0) then .error .valueError else .ok ⟨p0, p1, p2⟩

/-- `same_side(p1, p2, a, b)` (Triangle.py:68-77). -/
def sameSide (p1 p2 a b : Vec K) : Bool :=
  let v := b - a
  let cross1 := v.cross (p1 - a)
  let cross2 := v.cross (p2 - a)
  decide (cross1 * cross2 ≥ 0)

/-- `is_point_inside(point)` (Triangle.py:282-291). -/
def isPointInside (t : Triangle K) (point : Vec K) : Bool :=
  sameSide point t.p0 t.p1 t.p2 && sameSide point t.p1 t.p0 t.p2 && sameSide point t.p2 t.p0 t.p1

/-- `edges` (Triangle.py:106-120). -/
def edges (t : Triangle K) : List (Segment K) := [⟨t.p0, t.p1⟩, ⟨t.p1, t.p2⟩, ⟨t.p2, t.p0⟩]

/-- `area` (Triangle.py:178-191). -/
def area (t : Triangle K) : K := 1 / 2 * |(t.p1 - t.p0).cross (t.p2 - t.p0)|

/-- `bisector_vector0`, `bisector_vector1`, `bisector_vector2` (Triangle.py:124-134). -/
def bisectorVector0 (t : Triangle K) : Vec K := (t.p1 - t.p0) + (t.p2 - t.p0)
@[inherit_doc bisectorVector0] def bisectorVector1 (t : Triangle K) : Vec K := (t.p0 - t.p1) + (t.p2 - t.p1)
@[inherit_doc bisectorVector0] def bisectorVector2 (t : Triangle K) : Vec K := (t.p1 - t.p2) + (t.p0 - t.p2)

/-- `bisector_line0`, `bisector_line1`, `bisector_line2` (Triangle.py:138-148). -/
def bisectorLine0 (t : Triangle K) : Line K := ⟨t.p0, t.bisectorVector0⟩
@[inherit_doc bisectorLine0] def bisectorLine1 (t : Triangle K) : Line K := ⟨t.p1, t.bisectorVector1⟩
@[inherit_doc bisectorLine0] def bisectorLine2 (t : Triangle K) : Line K := ⟨t.p2, t.bisectorVector2⟩

end Triangle

/-- `Rectangle2D` (Patro/GeometryEngine/Rectangle.py:39-51): two opposite corners. -/
@[ext] structure Rectangle (K : Type _) where
  p0 : Vec K
  p1 : Vec K
deriving DecidableEq, Repr

namespace Rectangle

variable {K : Type _} [Field K] [LinearOrder K]

/-- `p01` and `p10` (Rectangle.py:70-76). -/
def p01 (r : Rectangle K) : Vec K := ⟨r.p0.x, r.p1.y⟩
@[inherit_doc p01] def p10 (r : Rectangle K) : Vec K := ⟨r.p1.x, r.p0.y⟩

/-- `edges` (Rectangle.py:78-91). -/
def edges (r : Rectangle K) : List (Segment K) := [⟨r.p0, r.p01⟩, ⟨r.p01, r.p1⟩, ⟨r.p1, r.p10⟩, ⟨r.p10, r.p0⟩]

/-- `diagonal` (Rectangle.py:95-97). -/
def diagonal (r : Rectangle K) : Vec K := r.p1 - r.p0

/-- `perimeter` (Rectangle.py:101-104). -/
def perimeter (r : Rectangle K) : K := 2 * (|r.diagonal.x| + |r.diagonal.y|)

/-- `area` (Rectangle.py:108-111). -/
def area (r : Rectangle K) : K := |r.diagonal.x * r.diagonal.y|

/-- `bounding_box`: `PointPrimitive.bounding_box` with the two points (Primitive.py:249-259, 475-477). -/
def boundingBox (r : Rectangle K) : Option (Box K) := Box.fromPoints [r.p0, r.p1]

/-- `is_point_inside(point)` (Rectangle.py:115-119); `in` of an interval of the IntervalArithmetic package is assumed to
test the closed interval. A missing bounding box (`None`) would raise `AttributeError`. -/
def isPointInside (r : Rectangle K) (point : Vec K) : Except PyErr Bool :=
  match r.boundingBox with
  | none => .error .attributeError
  | some b => .ok (decide (b.xInf ≤ point.x ∧ point.x ≤ b.xSup) && decide (b.yInf ≤ point.y ∧ point.y ≤ b.ySup))

end Rectangle

/-- `Polyline2D` (Patro/GeometryEngine/Polyline.py:37-50): the points and the cached edges. -/
structure Polyline (K : Type _) where
  points : List (Vec K)
  edges : Option (List (Segment K))
deriving DecidableEq, Repr

namespace Polyline

variable {K : Type _}

/-- `Polyline2D.__init__` (Polyline.py:43-49). -/
def create (points : List (Vec K)) : Except PyErr (Polyline K) :=
  if points.length < 2 then .error .valueError else .ok ⟨points, none⟩

/-- `[Segment2D(points[i], points[i+1]) for i in range(number_of_points - 1)]` (Polyline.py:58-59). -/
def pointEdges : List (Vec K) → List (Segment K)
  | p :: q :: ps => ⟨p, q⟩ :: pointEdges (q :: ps)
  | _ => []

/-- `edges` (Polyline.py:53-60): the edges, and the polyline with its cache filled. -/
def getEdges (pl : Polyline K) : List (Segment K) × Polyline K :=
  match pl.edges with
  | none => (pointEdges pl.points, { pl with edges := some (pointEdges pl.points) })
  | some es => (es, pl)

/-- `_set_points(points)` (Patro/GeometryEngine/Primitive.py:652-654) as called by `apply_transformation`
(Primitive.py:276-284) for a transformation that maps a point to `f point`: the cache of edges is kept. -/
def transform (pl : Polyline K) (f : Vec K → Vec K) : Polyline K := { pl with points := pl.points.map f }

noncomputable section

open Classical in
/-- The loop of `distance_to_point` with its variable `distance` (Polyline.py:72-76). -/
def distanceLoop (point : Vec ℝ) : Option ℝ → List (Segment ℝ) → Except PyErr (Option ℝ)
  | distance, [] => .ok distance
  | distance, e :: es => do
    let edgeDistance ← e.distanceToPoint point
    match distance with
    | none => distanceLoop point (some edgeDistance) es
    | some d => distanceLoop point (some (if edgeDistance < d then edgeDistance else d)) es

/-- `distance_to_point(point)` (Polyline.py:70-77): the distance (`none` for `None`) and the polyline afterwards. -/
def distanceToPoint (pl : Polyline ℝ) (point : Vec ℝ) : Except PyErr (Option ℝ) × Polyline ℝ :=
  let (es, pl) := pl.getEdges
  (distanceLoop point none es, pl)

end

/-- The calls of the API of a polyline which read or change it. -/
inductive Op (K : Type _) where
  | edges
  | distance (point : Vec K)
  | transform (f : Vec K → Vec K)

/-- The polyline after a call. -/
def Op.run (pl : Polyline K) : Op K → Polyline K
  | .edges => pl.getEdges.2
  | .distance _ => pl.getEdges.2
  | .transform f => pl.transform f

end Polyline

end Patro
