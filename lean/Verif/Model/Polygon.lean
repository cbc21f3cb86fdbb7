import Verif.Model.Shapes
import Verif.Model.IterTools
/-!
# Model of `Polygon2D` in `Patro/GeometryEngine/Polygon.py`

The object is the record of its attributes; a query returns its result, or the exception it raises, and the object
afterwards, with its caches. Coordinates are elements of an ordered field, or real numbers when lengths are used.
Rounding is not modelled.
-/

namespace Patro

open MathFunctions (sign)

/-- The attributes of `Polygon2D` (Patro/GeometryEngine/Polygon.py:91-113). `areaSign` and `barycenter` are `none` while
the attribute does not exist, the other ones when it is `None`. The axes of inertia are not modelled. -/
structure Polygon (K : Type _) where
  points : List (Vec K)
  edges : Option (List (Segment K)) := none
  isSimple : Option Bool := none
  isConvex : Option Bool := none
  area : Option K := none
  areaSign : Option K := none
  barycenter : Option (Vec K) := none
  isClockwise : Option Bool := none
deriving DecidableEq, Repr

namespace Polygon

variable {K : Type _}

/-- `Polygon2D.__init__(*points, is_convex, is_clockwise)` (Polygon.py:91-110). -/
def create (points : List (Vec K)) (isConvex isClockwise : Option Bool := none) : Except PyErr (Polygon K) :=
  if points.length < 3 then .error .valueError
  else .ok { points := points, isConvex := isConvex, isClockwise := isClockwise }

/-- `_set_points(points)` (Patro/GeometryEngine/Primitive.py:652-654) as called by `apply_transformation`
(Primitive.py:276-284) for a transformation that maps a point to `f point`: the caches are kept. -/
def transform (p : Polygon K) (f : Vec K → Vec K) : Polygon K := { p with points := p.points.map f }

/-- `[Segment2D(*pair) for pair in self.closed_pairwise_points]` (Polygon.py:131, Primitive.py:330-333). -/
def pointEdges (points : List (Vec K)) : Except PyErr (List (Segment K)) :=
  (IterTools.closedPairwise points).map fun pairs => pairs.map fun pair => ⟨pair.1, pair.2⟩

/-- `edges` (Polygon.py:128-134). -/
def getEdges (p : Polygon K) : Except PyErr (List (Segment K)) × Polygon K :=
  match p.edges with
  | some es => (.ok es, p)
  | none =>
    match pointEdges p.points with
    | .ok es => (.ok es, { p with edges := some es })
    | .error e => (.error e, p)

section Field

variable [Field K] [LinearOrder K]

/-- The body of the inner loop of `_test_is_simple` for two distinct edges (Polygon.py:150-164): `false` when the loop
returns `False`. -/
def pairIsSimple (edge1 edge2 : Segment K) : Bool :=
  match edge1.intersection edge2 with
  | none => true
  | some (intersection, intersect) =>
    if intersect then
      match edge1.shareVertexWith edge2 with
      | some commonVertex => decide (commonVertex = intersection)
      | none => false
    else true

/-- `_test_is_simple()` (Polygon.py:143-165); `edge1 is not edge2` compares the positions in the list. -/
def testIsSimple (edges : List (Segment K)) : Bool :=
  edges.zipIdx.all fun (edge1, i) => edges.zipIdx.all fun (edge2, j) => i == j || pairIsSimple edge1 edge2

/-- `is_simple` (Polygon.py:190-195). -/
def getIsSimple (p : Polygon K) : Except PyErr Bool × Polygon K :=
  match p.isSimple with
  | some b => (.ok b, p)
  | none =>
    match p.getEdges with
    | (.error e, p) => (.error e, p)
    | (.ok es, p) =>
      let b := testIsSimple es
      (.ok b, { p with isSimple := some b })

/-- `Segment2D.cross(other)` (Patro/GeometryEngine/Segment.py:89-90). -/
def _root_.Patro.Segment.cross (s t : Segment K) : K := s.vector.cross t.vector

/-- The loop of `_test_is_convex` (Polygon.py:182-186) for the edge `edge` and those which follow: the next edge is the
following one, or `first` after the last one. -/
def turnsLoop (sign0 : K) (first : Segment K) : Segment K → List (Segment K) → Bool
  | edge, [] => decide (sign (edge.cross first) = sign0)
  | edge, next :: rest => if sign (edge.cross next) ≠ sign0 then false else turnsLoop sign0 first next rest

/-- The turns of `_test_is_convex` (Polygon.py:176-186); `IndexError` without edges. -/
def testTurns : List (Segment K) → Except PyErr Bool
  | [] => .error .indexError
  | e :: es => .ok (turnsLoop (sign (((e :: es).getLast (List.cons_ne_nil _ _)).cross e)) e e es)

/-- `is_convex` (Polygon.py:199-203) with `_test_is_convex()` (Polygon.py:169-186). -/
def getIsConvex (p : Polygon K) : Except PyErr Bool × Polygon K :=
  match p.isConvex with
  | some b => (.ok b, p)
  | none =>
    match p.getIsSimple with
    | (.error e, p) => (.error e, p)
    | (.ok false, p) => (.ok false, { p with isConvex := some false })
    | (.ok true, p) =>
      match p.getEdges with
      | (.error e, p) => (.error e, p)
      | (.ok es, p) =>
        match testTurns es with
        | .error e => (.error e, p)
        | .ok b => (.ok b, { p with isConvex := some b })

/-- `cross = xi * yi1 - xi1 * yi` (Polygon.py:256) for the closed list of points. -/
def crossTerms : List (Vec K) → List K
  | p :: q :: ps => (p.x * q.y - q.x * p.y) :: crossTerms (q :: ps)
  | _ => []

/-- `(xi + xi1) * cross` and `(yi + yi1) * cross` (Polygon.py:267-268). -/
def xTerms : List (Vec K) → List K
  | p :: q :: ps => ((p.x + q.x) * (p.x * q.y - q.x * p.y)) :: xTerms (q :: ps)
  | _ => []
@[inherit_doc xTerms] def yTerms : List (Vec K) → List K
  | p :: q :: ps => ((p.y + q.y) * (p.x * q.y - q.x * p.y)) :: yTerms (q :: ps)
  | _ => []

/-- `_compute_area_barycenter()` (Polygon.py:235-275), for a polygon which is simple. -/
def computeArea (p : Polygon K) : Except PyErr Unit × Polygon K :=
  match IterTools.closedIterator p.points with
  | .error e => (.error e, p)
  | .ok closed =>
    let area := 1 / 2 * (crossTerms closed).sum
    if area = 0 then (.ok (), { p with area := some 0, barycenter := p.points[0]? })
    else
      let factor := 1 / (6 * area)
      let x := factor * (xTerms closed).sum
      let y := factor * (yTerms closed).sum
      (.ok (), { p with area := some |area|, areaSign := some (sign area), barycenter := some ⟨x, y⟩ })

/-- `_check_area()` (Polygon.py:363-365). The test of `is_simple` inside `_compute_area_barycenter` repeats the one made
here and reads its cache. -/
def checkArea (p : Polygon K) : Except PyErr Unit × Polygon K :=
  match p.getIsSimple with
  | (.error e, p) => (.error e, p)
  | (.ok simple, p) => if simple = true ∧ p.area = none then p.computeArea else (.ok (), p)

/-- `area` (Polygon.py:369-373). -/
def getArea (p : Polygon K) : Except PyErr (Option K) × Polygon K :=
  match p.checkArea with
  | (.error e, p) => (.error e, p)
  | (.ok (), p) => (.ok p.area, p)

/-- `barycenter` (Polygon.py:397-401): `AttributeError` when it has not been computed. -/
def getBarycenter (p : Polygon K) : Except PyErr (Vec K) × Polygon K :=
  match p.checkArea with
  | (.error e, p) => (.error e, p)
  | (.ok (), p) =>
    match p.barycenter with
    | some b => (.ok b, p)
    | none => (.error .attributeError, p)

/-- `is_clockwise` (Polygon.py:377-388): `None` when the polygon is not simple, `AttributeError` when the sign of the area
has not been set. -/
def getIsClockwise (p : Polygon K) : Except PyErr (Option Bool) × Polygon K :=
  match p.getIsSimple with
  | (.error e, p) => (.error e, p)
  | (.ok false, p) => (.ok none, p)
  | (.ok true, p) =>
    match p.isClockwise with
    | some b => (.ok (some b), p)
    | none =>
      match p.checkArea with
      | (.error e, p) => (.error e, p)
      | (.ok (), p) =>
        match p.areaSign with
        | none => (.error .attributeError, p)
        | some s => (.ok (some (decide (s < 0))), { p with isClockwise := some (decide (s < 0)) })

/-- `point_barycenter` (Polygon.py:226-231). -/
def pointBarycenter (p : Polygon K) : Except PyErr (Vec K) :=
  match p.points with
  | [] => .error .indexError
  | start :: rest => .ok ((rest.foldl (· + ·) start).sdiv (p.points.length : K))

/-- The loop of `_winding_number_test` (Polygon.py:476-485): `edge.is_left` and `edge.is_right` do not exist in
`Segment2D` and raise `AttributeError`, so that the winding number is still 0 at the end of the loop. -/
def windingLoop (y : K) : List (Segment K) → Except PyErr Int
  | [] => .ok 0
  | edge :: es =>
    if edge.p0.y ≤ y then
      if edge.p1.y > y then .error .attributeError else windingLoop y es
    else
      if edge.p1.y ≤ y then .error .attributeError else windingLoop y es

/-- `is_point_inside(point)` (Polygon.py:491-498, 466-487). -/
def isPointInside (p : Polygon K) (point : Vec K) : Except PyErr Bool × Polygon K :=
  match p.getEdges with
  | (.error e, p) => (.error e, p)
  | (.ok es, p) => ((windingLoop point.y es).map fun n => decide (n > 0), p)

/-- The calls of the API that read the area or transform the polygon in place. -/
inductive Op (K : Type _) where
  | edges | isSimple | isConvex | area | barycenter | isClockwise
  | isPointInside (point : Vec K)
  | transform (f : Vec K → Vec K)

/-- The polygon after a call. -/
def Op.run (p : Polygon K) : Op K → Polygon K
  | .edges => p.getEdges.2
  | .isSimple => p.getIsSimple.2
  | .isConvex => p.getIsConvex.2
  | .area => p.getArea.2
  | .barycenter => p.getBarycenter.2
  | .isClockwise => p.getIsClockwise.2
  | .isPointInside q => (p.isPointInside q).2
  | .transform f => p.transform f

end Field

noncomputable section

/-- `perimeter` (Polygon.py:220-222). -/
def perimeter (p : Polygon ℝ) : Except PyErr ℝ × Polygon ℝ :=
  match p.getEdges with
  | (.error e, p) => (.error e, p)
  | (.ok es, p) => (.ok (es.map Segment.length).sum, p)

end

end Polygon

end Patro
