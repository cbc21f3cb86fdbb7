import Verif.Model.Polygon
/-!
# Model of the remaining functions of `Patro/GeometryEngine/Polygon.py`: conversion to a triangle, crossing number, names, turns
-/

namespace Patro.PolygonRest

variable {K : Type _} [Field K] [LinearOrder K]

/-- `is_triangle` (Polygon.py:115-116). -/
def isTriangle (p : Polygon K) : Bool := p.points.length == 3

/-- `to_triangle()` (Polygon.py:118-122). -/
def toTriangle (p : Polygon K) : Except PyErr (Triangle K) :=
  if isTriangle p then
    match p.points with
    | [a, b, c] => Triangle.create a b c
    | _ => .error .typeError
  else .error .valueError

/-- The loop of `_crossing_number_test` (Polygon.py:455-460): `edge.vector.slope` does not exist in `Vector2D`, so that
`AttributeError` is raised for an edge that crosses the horizontal line of the point. -/
def crossingLoop (y : K) : Nat → List (Segment K) → Except PyErr Nat
  | n, [] => .ok n
  | n, edge :: rest =>
    if (edge.p0.y ≤ y ∧ y < edge.p1.y) ∨ (edge.p1.y ≤ y ∧ y < edge.p0.y) then .error .attributeError
    else crossingLoop y n rest

/-- `_crossing_number_test(point)` (Polygon.py:444-463). -/
def crossingNumberTest (p : Polygon K) (point : Vec K) : Except PyErr Bool × Polygon K :=
  match p.getEdges with
  | (.error e, p) => (.error e, p)
  | (.ok edges, p) => ((crossingLoop point.y 0 edges).map fun n => n &&& 1 == 1, p)

/-- `RegularPolygon2D.ngon_name(number_of_edges)` (Polygon.py:645-650): the name `self` is not defined in a class method. -/
def ngonName (_numberOfEdges : Int) : Except PyErr (Option String) := .error .nameError

/-- `ccw(p1, p2, p3)` (Polygon.py:727-734). -/
def ccw (p1 p2 p3 : Vec K) : K := (p2.x - p1.x) * (p3.y - p1.y) - (p2.y - p1.y) * (p3.x - p1.x)

/-- `is_three_point_ccw`, `is_three_point_cw` and `is_three_point_collinear` (Polygon.py:736-743). -/
def isCcw (p1 p2 p3 : Vec K) : Bool := decide (ccw p1 p2 p3 > 0)
@[inherit_doc isCcw] def isCw (p1 p2 p3 : Vec K) : Bool := decide (ccw p1 p2 p3 < 0)
@[inherit_doc isCcw] def isCollinear (p1 p2 p3 : Vec K) : Bool := decide (ccw p1 p2 p3 = 0)

end Patro.PolygonRest
