import Verif.Model.Polygon
/-!
# Model of the convex hull, of regular polygons and of `simplify` (Patro/GeometryEngine/Polygon.py)

Coordinates are real numbers. `sorted` and `list.sort` are stable sorts, modelled by `List.mergeSort`.
-/

namespace Patro.Hull

noncomputable section

open Classical

/-- `sort_by_y(p0, p1)` (Polygon.py:679-680), the comparison of the first sort. -/
def sortByY (p0 p1 : Vec ℝ) : ℝ := if p0.y = p1.y then p0.x - p1.x else p0.y - p1.y

/-- The loop over the sorted directions (Polygon.py:702-721). Each item is a tuple, so that caching the magnitude in it for
two consecutive items of the same orientation raises `TypeError`. -/
def scanData : List (Vec ℝ × ℝ) → Except PyErr Unit
  | prev :: current :: rest => if prev.2 = current.2 then .error .typeError else scanData (current :: rest)
  | _ => .ok ()

/-- `sort_point_for_graham_scan(points)` (Polygon.py:663-723): `IndexError` for an empty list. -/
def sortPoints (points : List (Vec ℝ)) : Except PyErr (List (Vec ℝ)) :=
  match points.mergeSort (fun a b => decide (¬ sortByY b a < 0)) with
  | [] => .error .indexError
  | p0 :: rest =>
    let data := (rest.map fun point => (point, (point - p0).orientation)).mergeSort
      (fun a b => decide (¬ b.2 < a.2))
    match scanData data with
    | .error e => .error e
    | .ok () => .ok (p0 :: data.map (·.1))

/-- `ccw(p1, p2, p3)` (Polygon.py:727-734). -/
def ccw (p1 p2 p3 : Vec ℝ) : ℝ := (p2.x - p1.x) * (p3.y - p1.y) - (p2.y - p1.y) * (p3.x - p1.x)

/-- The inner loop of `convex_hull` (Polygon.py:767-768). The stack is the list in reverse order: its head is
`_convex_hull[-1]`. -/
def popLoop (point : Vec ℝ) : List (Vec ℝ) → List (Vec ℝ)
  | b :: a :: rest => if ccw a b point < 0 then popLoop point (a :: rest) else b :: a :: rest
  | stack => stack

/-- `convex_hull(points, as_polygon=False)` (Polygon.py:747-775). -/
def convexHull (points : List (Vec ℝ)) : Except PyErr (List (Vec ℝ)) :=
  match sortPoints points with
  | .error e => .error e
  | .ok sorted => .ok (sorted.foldl (fun stack point => point :: popLoop point stack) []).reverse

/-- `convex_hull(points)` (Polygon.py:747-775): a polygon, or a list when it has less than three points. -/
def convexHullPolygon (points : List (Vec ℝ)) : Except PyErr (Polygon ℝ ⊕ List (Vec ℝ)) :=
  match convexHull points with
  | .error e => .error e
  | .ok hull =>
    if 3 ≤ hull.length then (Polygon.create hull (some true) (some false)).map .inl
    else .ok (.inr hull)

/-- `Polygon2D.convex_hull()` (Polygon.py:211-216): the attribute `_is_convex` is read, which is `None` as long as `is_convex` has not been asked
for. -/
def hullOf (p : Polygon ℝ) : Except PyErr (Polygon ℝ ⊕ List (Vec ℝ)) :=
  if p.isConvex = some true then .ok (.inl p) else convexHullPolygon p.points

end

end Patro.Hull
