import Verif.Model.Py
import Verif.Model.Bezier
import Mathlib.Algebra.Order.Floor.Ring
/-!
# Model of `BSpline2D` (`Patro/GeometryEngine/Spline.py:167-461`)

Coordinates and knots are elements of an ordered field with a floor (the rationals or the reals); rounding is not modelled. The
degree is a natural number (`int(degree)` in the code). The uniform spans of `Spline.py:45-163` are in `Model/Bezier.lean`.
-/

namespace Patro.Spline

open Bezier (Quad Cubic)

variable {K : Type _} [Field K] [LinearOrder K]

/-- The state of a `BSpline2D` (Spline.py:191-207, Primitive.py:613-617). -/
structure BSpline (K : Type _) where
  points : List (Vec K)
  degree : Nat
  closed : Bool
  knots : List K
  uniform : Bool
deriving DecidableEq

/-- `uniform_knots` (Spline.py:175-181). -/
def uniformKnots (degree numberOfPoints : Nat) : Except PyErr (List K) :=
  let order := degree + 1
  if numberOfPoints < order then .error .valueError
  else
    let knots := (List.range (numberOfPoints - degree + 1)).map (Nat.cast : Nat → K)
    .ok (List.replicate degree 0 ++ knots ++ List.replicate degree ((numberOfPoints - degree : Nat) : K))

/-- The constructor (Spline.py:191-207). `np.all(np.diff(knots) >= 0)` is the test of the consecutive pairs. Simplified:
a list of one point, which the code refuses, is accepted; see `SplineObject.make`. -/
def BSpline.new (points : List (Vec K)) (degree : Nat) (closed : Bool := false) (knots : Option (List K) := none) :
    Except PyErr (BSpline K) :=
  match knots with
  | some knots =>
    if (knots.zip knots.tail).all fun p => decide (p.2 - p.1 ≥ 0) then .ok ⟨points, degree, closed, knots, false⟩
    else .error .valueError
  | none => do
    let knots ← uniformKnots degree points.length
    return ⟨points, degree, closed, knots, true⟩

/-- `start_knot` (Spline.py:235-240). -/
def BSpline.startKnot (s : BSpline K) : Except PyErr K := if s.uniform then .ok 0 else Py.getItem s.knots 0

/-- `end_knot` (Spline.py:242-247). -/
def BSpline.endKnot (s : BSpline K) : Except PyErr K :=
  if s.uniform then .ok ((s.points.length : K) - s.degree) else Py.getItemInt s.knots (-1)

/-- `number_of_spans` (Spline.py:256-265). -/
def BSpline.numberOfSpans (s : BSpline K) : Except PyErr Nat :=
  if s.uniform then .ok (s.points.length - s.degree + if s.closed then 1 else 0) else .error .notImplementedError

/-- `span` (Spline.py:269-277): `none` is the value `None` returned when the loop finds no knot. -/
def BSpline.span [FloorRing K] (s : BSpline K) (t : K) : Except PyErr (Option Nat) := do
  let start ← s.startKnot
  let stop ← s.endKnot
  if ¬ (start ≤ t ∧ t ≤ stop) then .error .valueError
  else if s.uniform then return some (⌊t⌋.toNat + s.degree)
  else return (s.knots.findIdx? fun k => decide (t < k)).map (· - 1)

/-- `knot_multiplicity` (Spline.py:281-288), the loop. -/
def multiplicity (knot : K) : List K → Nat
  | [] => 0
  | t :: ts => if t = knot then multiplicity knot ts + 1 else if t > knot then 0 else multiplicity knot ts

/-- `basis_function` (Spline.py:292-313), for a natural index. -/
def basisFunction (knots : List K) (t : K) : Nat → Nat → Except PyErr K
  | 0, i => do
    let ki ← Py.getItem knots i
    if ki ≤ t then
      let kj ← Py.getItem knots (i + 1)
      if t < kj then return 1 else return 0
    else return 0
  | k + 1, i => do
    let ki ← Py.getItem knots i
    let kik ← Py.getItem knots (i + (k + 1))
    let c1 ← if kik = ki then pure 0 else do
      let b ← basisFunction knots t k i
      pure ((t - ki) / (kik - ki) * b)
    let ki ← Py.getItem knots (i + 1)
    let kik ← Py.getItem knots (i + (k + 1) + 1)
    let c2 ← if kik = ki then pure 0 else do
      let b ← basisFunction knots t k (i + 1)
      pure ((kik - t) / (kik - ki) * b)
    return c1 + c2

/-- `basis_function` of a spline (Spline.py:292). -/
def BSpline.basis (s : BSpline K) (i k : Nat) (t : K) : Except PyErr K := basisFunction s.knots t k i

/-- The body of the two loops of `_deboor` (Spline.py:333-343). -/
def deboorStep (knots : List K) (degree l : Nat) (t : K) (r : Nat) (points : List (Vec K)) (j : Nat) : Except PyErr (List (Vec K)) := do
  let k : Int := j + ((l : Int) - degree)
  let hi ← Py.getItemInt knots ((j : Int) + 1 + l - r)
  let lo ← Py.getItemInt knots k
  let d := hi - lo
  let alpha := if d = 0 then 0 else (t - lo) / d
  let left ← Py.getItemInt points ((j : Int) - 1)
  let right ← Py.getItem points j
  let point := if alpha = 0 then left else if alpha = 1 then right else left.smul (1 - alpha) + right.smul alpha
  return points.set j point

/-- The inner loop of `_deboor` (Spline.py:332): `j` from `degree` down to `r`. -/
def deboorRow (knots : List K) (degree l : Nat) (t : K) (points : List (Vec K)) (r : Nat) : Except PyErr (List (Vec K)) :=
  ((List.range' r (degree + 1 - r)).reverse).foldlM (deboorStep knots degree l t r) points

/-- `_deboor` (Spline.py:317-345). -/
def BSpline.deboor [FloorRing K] (s : BSpline K) (t : K) : Except PyErr (Vec K) := do
  match ← s.span t with
  | none => .error .typeError
  | some l =>
    let points ← (List.range (s.degree + 1)).mapM fun (j : Nat) => Py.getItemInt s.points ((j : Int) + ((l : Int) - s.degree))
    let points ← (List.range' 1 s.degree).foldlM (deboorRow s.knots s.degree l t) points
    Py.getItem points s.degree

/-- `_naive_point_at_t` (Spline.py:349-356). `self.points` is an iterator (Primitive.py:639-641), so that `point_array` is an array made
of one object, an iterator, by which the values cannot be multiplied. -/
def BSpline.naive (s : BSpline K) (t : K) : Except PyErr (Vec K) := do
  let _ ← (List.range s.points.length).mapM fun i => s.basis i s.degree t
  .error .typeError

/-- `point_at_t` (Spline.py:360-373). `start_point` and `end_point` are `points[0]` and `points[-1]` (Primitive.py:628-634). -/
def BSpline.pointAt [FloorRing K] (s : BSpline K) (t : K) (naive : Bool := false) : Except PyErr (Vec K) :=
  if s.uniform ∧ t = 0 then Py.getItem s.points 0
  else if s.uniform ∧ t = (s.points.length : K) - s.degree then Py.getItemInt s.points (-1)
  else if naive then s.naive t
  else s.deboor t

/-- The weight of a point in `insert_knot` (Spline.py:393-403). -/
def insertWeight (knots : List K) (degree l : Nat) (t : K) (i : Nat) : Except PyErr K :=
  if (i : Int) ≤ (l : Int) - degree then .ok 1
  else if i > l then .ok 0
  else do
    let ti ← Py.getItem knots i
    let tj ← Py.getItem knots (i + degree)
    let d := tj - ti
    return if d > 0 then (t - ti) / d else 0

/-- A new point in `insert_knot` (Spline.py:392-411). -/
def insertPoint (points : List (Vec K)) (knots : List K) (degree l : Nat) (t : K) (i : Nat) : Except PyErr (Vec K) := do
  let w ← insertWeight knots degree l t i
  if w = 0 then Py.getItemInt points ((i : Int) - 1)
  else if w = 1 then Py.getItem points i
  else
    let a ← Py.getItemInt points ((i : Int) - 1)
    let b ← Py.getItem points i
    return a.smul (1 - w) + b.smul w

/-- `insert_knot` (Spline.py:377-416). `None` as span: `None - int` raises. -/
def BSpline.insertKnot [FloorRing K] (s : BSpline K) (t : K) : Except PyErr (BSpline K) := do
  match ← s.span t with
  | none => .error .typeError
  | some l =>
    let newPoints ← (List.range (s.points.length + 1)).mapM fun i => insertPoint s.points s.knots s.degree l t i
    BSpline.new newPoints s.degree false (some (s.knots.take (l + 1) ++ [t] ++ s.knots.drop (l + 1)))

/-- The repeated insertions of `to_bezier_form` (Spline.py:430-431). -/
def insertTimes [FloorRing K] (t : K) : Nat → BSpline K → Except PyErr (BSpline K)
  | 0, s => .ok s
  | n + 1, s => do
    let s ← s.insertKnot t
    insertTimes t n s

/-- `to_bezier_form` (Spline.py:420-434). `range(1, self.end_knot)` are the integers from 1 to the number of spans, excluded. -/
def BSpline.toBezierForm [FloorRing K] (s : BSpline K) (degree : Option Nat := none) : Except PyErr (BSpline K) :=
  if ¬ s.uniform then .error .valueError
  else
    let degree := degree.getD s.degree
    (List.range' 1 (s.points.length - s.degree - 1)).foldlM
      (fun newSpline (t : Nat) => insertTimes (t : K) (degree + 1 - multiplicity (t : K) s.knots) newSpline) s

/-- A curve made by `to_bezier`. -/
inductive Curve (K : Type _) where
  | quad (c : Quad K)
  | cubic (c : Cubic K)
deriving DecidableEq

/-- `cls(*points)` in `to_bezier` (Spline.py:442-447, 458): the class is unbound for a degree below 2, and a wrong number of points is
refused by the constructor (Bezier.py:230, 436). -/
def makeCurve (degree : Nat) (points : List (Vec K)) : Except PyErr (Curve K) :=
  if degree = 2 then
    match points with
    | [a, b, c] => .ok (.quad ⟨a, b, c⟩)
    | _ => .error .typeError
  else if degree ≥ 3 then
    match points with
    | [a, b, c, d] => .ok (.cubic ⟨a, b, c, d⟩)
    | _ => .error .typeError
  else .error .unboundLocalError

/-- `to_bezier` (Spline.py:438-461). -/
def BSpline.toBezier [FloorRing K] (s : BSpline K) : Except PyErr (List (Curve K)) := do
  let spline ← s.toBezierForm
  let order := spline.degree + 1
  let n ← s.numberOfSpans
  (List.range n).mapM fun i => makeCurve s.degree ((spline.points.drop (i * order)).take order)

/-- `Curve` evaluated: `point_at_t` of the curve (Bezier.py:263-267, 462-468). -/
def Curve.pointAt : Curve K → K → Vec K
  | .quad c, t => c.pointAt t
  | .cubic c, t => c.pointAt t

end Patro.Spline
