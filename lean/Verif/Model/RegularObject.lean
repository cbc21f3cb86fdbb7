import Verif.Model.PolygonTools
import Verif.Model.Conic
/-!
# Model of `RegularPolygon` as an object (Patro/GeometryEngine/Polygon.py)

The object has its own attributes beside those of the polygon. The constructor is modelled for the arguments it can be given by position, since the
methods inherited from `Polygon2D` and `PointPrimitive` call the class of the object with points. Coordinates are real numbers.
-/

namespace Patro.RegularObject

open Polygon

noncomputable section

open Classical

/-- The attributes of a `RegularPolygon` (Polygon.py:604-607) and those of the polygon. -/
structure Regular where
  center : Vec ℝ
  radius : ℝ
  angle : ℝ
  numberOfEdges : Int
  polygon : Polygon ℝ

/-- What is given to the constructor: a vector or a number. -/
inductive Arg where
  | vector (v : Vec ℝ)
  | number (x : ℝ)

/-- `Vector2D(value)` (Vector.py:82-100): a number is not iterable. -/
def Arg.toVector : Arg → Except PyErr (Vec ℝ)
  | .vector v => .ok v
  | .number _ => .error .valueError

/-- `float(value)`: a vector has no method `__float__`. -/
def Arg.toFloat : Arg → Except PyErr ℝ
  | .number x => .ok x
  | .vector _ => .error .typeError

/-- `int(value)`: truncation; a vector has no method `__int__`. -/
def Arg.toInt : Arg → Except PyErr Int
  | .number x => .ok (if 0 ≤ x then ⌊x⌋ else ⌈x⌉)
  | .vector _ => .error .typeError

/-- `__init__(center, radius, number_of_edges, angle)` (Polygon.py:600-618). -/
def make (center radius numberOfEdges angle : Arg) : Except PyErr Regular := do
  let c ← center.toVector
  let r ← radius.toFloat
  let a ← angle.toFloat
  let n ← numberOfEdges.toInt
  let p ← regular c r n a
  return ⟨c, r, a, n, p⟩

/-- `RegularPolygon(*args)` (Polygon.py:600): three arguments, or four. -/
def call : List Arg → Except PyErr Regular
  | [c, r, n] => make c r n (.number 0)
  | [c, r, n, a] => make c r n a
  | _ => .error .typeError

/-- `clone()` (Primitive.py:160-166): the class of the object is called with the points. -/
def Regular.clone (p : Regular) : Except PyErr Regular := call (p.polygon.points.map .vector)

/-- `transform(transformation, clone)` (Primitive.py:263-284) with `_set_points` (Primitive.py:652-654), for a transformation of which `isIdentity`
is the property `is_identity`. -/
def Regular.transform (p : Regular) (isIdentity : Bool) (f : Vec ℝ → Vec ℝ) (clone : Bool) : Except PyErr Regular := do
  let obj ← if clone then p.clone else .ok p
  if isIdentity then return obj
  else return { obj with polygon := { obj.polygon with points := obj.polygon.points.map f } }

/-- `simplify(threshold)` (Polygon.py:502-549) after at most `fuel` iterations of its loop, `none` when it is still running: the object returned, or
`None`. The class of the object is called with the points which are kept. -/
def Regular.simplify (fuel : Nat) (p : Regular) (threshold : ℝ) : Option (Except PyErr (Option Regular)) :=
  match simplifyLoop p.polygon.points threshold fuel 0 1 [] with
  | none => none
  | some (.error .zeroDivisionError) => some (.ok none)
  | some (.error e) => some (.error e)
  | some (.ok remove) =>
    if remove = [] then some (.ok (some p))
    else some ((call ((p.polygon.points.zipIdx.filterMap fun (q, i) => if i ∈ remove then none else some q).map .vector)).map some)

/-- `circumcircle` (Polygon.py:658-660). -/
def Regular.circumcircle (p : Regular) : Conic.Circle ℝ := ⟨p.center, p.radius, none⟩

end

end Patro.RegularObject
