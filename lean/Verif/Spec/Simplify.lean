import Verif.Model.PolygonTools
import Verif.Spec.Polygon
/-! # Specification of the simplification of polygons -/

namespace Patro.Polygon

/-- The distance of `q` to the line through `a` and `b`, two distinct points, is at most `threshold`. -/
def Near (threshold : ℝ) (a q b : Vec ℝ) : Prop :=
  b ≠ a ∧ |(b.x - a.x) * (q.y - a.y) - (b.y - a.y) * (q.x - a.x)| ≤ threshold * distance a b

/-- `result` is the list of the points whose index is not in `removed`, in the same order. -/
def Keeps (points : List (Vec ℝ)) (removed : List Nat) (result : List (Vec ℝ)) : Prop :=
  ∃ indices : List Nat, indices.Pairwise (· < ·) ∧ (∀ i, i ∈ indices ↔ i < points.length ∧ i ∉ removed) ∧
    result.map some = indices.map fun i => points[i]?

/-- The vertex `m` is near the line from the vertex `a` to the vertex that follows `m`, the first one after the last one. -/
def NearFrom (points : List (Vec ℝ)) (threshold : ℝ) (a m : Nat) : Prop :=
  ∃ pa pm pn, points[a]? = some pa ∧ points[m]? = some pm ∧ points[(m + 1) % points.length]? = some pn ∧ Near threshold pa pm pn

/-- The vertex `k` is the one to which the line is drawn from the last vertex kept, `a`, when the first vertex is looked at: the second vertex
or, if the last vertex of the polygon is kept, the first of the vertices kept after the first one. -/
def After (n : Nat) (removed : List Nat) (a k : Nat) : Prop :=
  0 < k ∧ (a + 1 < n → k = 1) ∧ (a + 1 = n → k ∉ removed ∧ ∀ b, 0 < b → b < k → b ∈ removed)

/-- When the first vertex is removed: when it is near the line from the last vertex kept, `a`, to the vertex `k` of `After`. -/
def FirstDecided (points : List (Vec ℝ)) (threshold : ℝ) (removed : List Nat) : Prop :=
  ∃ a k pa p0 pk, 0 < a ∧ a ∉ removed ∧ (∀ b, a < b → b < points.length → b ∈ removed) ∧ After points.length removed a k ∧
    points[a]? = some pa ∧ points[0]? = some p0 ∧ points[k]? = some pk ∧ (0 ∈ removed ↔ Near threshold pa p0 pk)

end Patro.Polygon
