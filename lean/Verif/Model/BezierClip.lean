import Verif.Model.BezierIntersect
/-!
# Model of the clipping of convex hulls by `Patro/GeometryEngine/Bezier.py`

Coordinates are elements of an ordered field, or real numbers when distances are computed. Rounding is not modelled.
-/

namespace Patro.BezierClip

open Bezier (Cubic)

section Field

variable {K : Type _} [Field K] [LinearOrder K]

/-- The condition of the walk (Bezier.py:691): the point `q` is past the threshold. -/
def past (top : Bool) (threshold : K) (q : Vec K) : Prop := if top then threshold ≤ q.y else q.y ≤ threshold

instance (top : Bool) (threshold : K) (q : Vec K) : Decidable (past top threshold q) := by unfold past; infer_instance

/-- The loop of `_clip_convex_hull_part` (Bezier.py:688-697) from the point `p`. -/
def walk (top : Bool) (threshold : K) (p : Vec K) : List (Vec K) → Except PyErr (Option K)
  | [] => .ok none
  | q :: rest =>
    if past top threshold q then
      if q.y - p.y = 0 then .error .zeroDivisionError
      else .ok (some (p.x + (threshold - p.y) * (q.x - p.x) / (q.y - p.y)))
    else walk top threshold q rest

/-- `_clip_convex_hull_part(part, top, threshold)` (Bezier.py:675-699). -/
def clipPart (part : List (Vec K)) (top : Bool) (threshold : K) : Except PyErr (Option K) :=
  match part with
  | [] => .error .indexError
  | p :: rest => walk top threshold p rest

/-- `_clip_convex_hull(hull_top, hull_bottom, d_min, d_max)` (Bezier.py:646-671): the name `self` is not defined in the static method. -/
def clipHull (hullTop hullBottom : List (Vec K)) (dMin dMax : K) : Except PyErr K :=
  match hullTop with
  | [] => .error .indexError
  | t :: _ =>
    if t.y < dMin then .error .nameError
    else match hullBottom with
      | [] => .error .indexError
      | b :: _ => if b.y > dMax then .error .nameError else .ok t.x

end Field

noncomputable section

/-- `_clipping_convex_hull()` (Bezier.py:592-643): the top and the bottom part of the hull. The second argument of `Line2D` is a vector; the
names `p1` and `p2` are not defined when the control points are on the same side. -/
def clippingHull (c : Cubic ℝ) : Except PyErr (List (Vec ℝ) × List (Vec ℝ)) := do
  let line : Line ℝ := ⟨c.p0, c.p3⟩
  let d1 ← line.distanceToLine c.p1
  let d2 ← line.distanceToLine c.p2
  if d1 * d2 < 0 then
    if d1 < 0 then return ([c.p0, c.p2, c.p3], [c.p0, c.p1, c.p3])
    else return ([c.p0, c.p1, c.p3], [c.p0, c.p2, c.p3])
  else .error .nameError

end

end Patro.BezierClip
