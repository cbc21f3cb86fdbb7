import Verif.Model.Polygon
/-!
# Model of `RegularPolygon` and of `Polygon2D.simplify` (Patro/GeometryEngine/Polygon.py)

Coordinates are real numbers.
-/

namespace Patro.Polygon

noncomputable section

open Classical

/-- `edge_angle` (Polygon.py:638-640), for a number of edges that the constructor has accepted. -/
def edgeAngle (n : Int) : ℝ := 360 / n

/-- `RegularPolygon.__init__(center, radius, number_of_edges, angle)` (Polygon.py:600-618): the polygon with its
vertices. The attributes center, radius and angle are not modelled, they are only read by their accessors. -/
def regular (center : Vec ℝ) (radius : ℝ) (n : Int) (angle : ℝ) : Except PyErr (Polygon ℝ) :=
  if n < 3 then .error .valueError
  else create ((List.range n.toNat).map fun (i : Nat) => center + Vec.fromPolar radius (angle + i * edgeAngle n))

/-- `while k in remove: k += 1; if k == number_of_points: break` (Polygon.py:514-517); the first argument is
`number_of_points - k`, and the loop stops by itself when it reaches 0. -/
def skipRemoved (remove : List Nat) : Nat → Nat → Nat
  | 0, k => k
  | fuel + 1, k => if k ∈ remove then skipRemoved remove fuel (k + 1) else k

/-- `test_edge_pair(i, j)` (Polygon.py:510-523). -/
def testEdgePair (points : List (Vec ℝ)) (threshold : ℝ) (remove : List Nat) (i j : Nat) : Except PyErr Bool := do
  let n := points.length
  let k := (j + 1) % n
  let k := if i = n - 1 then skipRemoved remove (n - k) k else k
  let p1 ← Py.getItem points i
  let p2 ← Py.getItem points j
  let p3 ← Py.getItem points k
  let deviation ← (p2 - p1).deviationWith (p3 - p1)
  return decide (|deviation| ≤ threshold)

/-- The loop of `simplify` (Polygon.py:525-540), run for at most the given number of iterations: `none` when it is still
running then. The other results are the list `remove` and the exception raised in the loop. -/
def simplifyLoop (points : List (Vec ℝ)) (threshold : ℝ) :
    Nat → Nat → Nat → List Nat → Option (Except PyErr (List Nat))
  | 0, _, _, _ => none
  | fuel + 1, i, j, remove =>
    if i < points.length then
      match testEdgePair points threshold remove i j with
      | .error e => some (.error e)
      | .ok true =>
        if j < i then some (.ok (remove ++ [j]))
        else simplifyLoop points threshold fuel i ((j + 1) % points.length) (remove ++ [j])
      | .ok false =>
        if j < i then some (.ok remove)
        else simplifyLoop points threshold fuel j ((j + 1) % points.length) remove
    else some (.ok remove)

/-- What `simplify` returns: `None`, the polygon itself or a new polygon. -/
inductive Simplified where
  | none
  | self
  | polygon (p : Polygon ℝ)

/-- `simplify(threshold)` (Polygon.py:502-549) after at most `fuel` iterations of its loop: `none` when it is still
running. -/
def simplify (fuel : Nat) (p : Polygon ℝ) (threshold : ℝ) : Option (Except PyErr Simplified) :=
  match simplifyLoop p.points threshold fuel 0 1 [] with
  | none => none
  | some (.error .zeroDivisionError) => some (.ok .none)
  | some (.error e) => some (.error e)
  | some (.ok remove) =>
    if remove = [] then some (.ok .self)
    else some ((create (p.points.zipIdx.filterMap fun (q, i) => if i ∈ remove then none else some q)).map .polygon)

end

end Patro.Polygon
