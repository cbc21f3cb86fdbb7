import Verif.Model.Polygon
import Verif.Spec.Shapes
/-! # Specification for polygons -/

namespace Patro

variable {K : Type _} [Field K] [LinearOrder K]

/-- The segment from `a` to `b` is the edge number `i` of the polygon: it joins the vertex `i` to the next one, and the
last vertex to the first one. -/
def IsEdge (points : List (Vec K)) (i : Nat) (a b : Vec K) : Prop :=
  points[i]? = some a ∧ points[(i + 1) % points.length]? = some b

/-- A simple polygon: two edges meet only where one follows the other, at their common vertex. -/
def SimplePolygon (points : List (Vec K)) : Prop :=
  ∀ i j a b c d q, i ≠ j → IsEdge points i a b → IsEdge points j c d → Between a b q → Between c d q →
    (j = (i + 1) % points.length ∧ q = b) ∨ (i = (j + 1) % points.length ∧ q = a)

/-- A strictly convex polygon with its vertices in counter-clockwise order: the other vertices are on the left of each
edge. -/
def StrictlyConvex (points : List (Vec K)) : Prop :=
  ∀ i a b k c, IsEdge points i a b → points[k]? = some c → k ≠ i → k ≠ (i + 1) % points.length →
    0 < (b.x - a.x) * (c.y - a.y) - (b.y - a.y) * (c.x - a.x)

/-- A strictly convex polygon with its vertices in clockwise order. -/
def StrictlyConvexClockwise (points : List (Vec K)) : Prop :=
  ∀ i a b k c, IsEdge points i a b → points[k]? = some c → k ≠ i → k ≠ (i + 1) % points.length →
    (b.x - a.x) * (c.y - a.y) - (b.y - a.y) * (c.x - a.x) < 0

/-- The triangles of the fan from the first vertex: `p0 p1 p2`, `p0 p2 p3`, and so on. -/
def fan (a : Vec K) : List (Vec K) → List (Vec K × Vec K × Vec K)
  | p :: q :: ps => (a, p, q) :: fan a (q :: ps)
  | _ => []

/-- The triangles that the diagonals from the first vertex cut in a polygon. -/
def triangles : List (Vec K) → List (Vec K × Vec K × Vec K)
  | a :: ps => fan a ps
  | [] => []

/-- Signed area of a triangle, positive in counter-clockwise order. -/
def triangleArea (t : Vec K × Vec K × Vec K) : K :=
  ((t.2.1.x - t.1.x) * (t.2.2.y - t.1.y) - (t.2.1.y - t.1.y) * (t.2.2.x - t.1.x)) / 2

/-- Signed area of a polygon: the sum for its triangles. -/
def signedArea (points : List (Vec K)) : K := ((triangles points).map triangleArea).sum

/-- First moments of area of a polygon: the sum over its triangles of the area times the coordinate of the centroid. -/
def momentX (points : List (Vec K)) : K :=
  ((triangles points).map fun t => triangleArea t * ((t.1.x + t.2.1.x + t.2.2.x) / 3)).sum
@[inherit_doc momentX] def momentY (points : List (Vec K)) : K :=
  ((triangles points).map fun t => triangleArea t * ((t.1.y + t.2.1.y + t.2.2.y) / 3)).sum

end Patro
