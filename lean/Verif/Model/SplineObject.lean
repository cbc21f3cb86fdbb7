import Verif.Model.Spline
import Verif.Model.Shapes
/-!
# Model of `BSpline2D` as an object: the methods it inherits (Patro/GeometryEngine/Primitive.py, Spline.py)

The constructor is modelled for what the inherited methods give to it: vectors, by position. It is also modelled for a list of points, since a list of
one point is unwrapped twice. The other combinations of arguments are not modelled.
-/

namespace Patro.SplineObject

open Spline

variable {K : Type _} [Field K] [LinearOrder K]

/-- What is given as points to the constructor: a list of points or a vector. -/
inductive Arg (K : Type _) where
  | points (l : List (Vec K))
  | vector (v : Vec K)

/-- What `handle_points` returns (Primitive.py:606-610): a list of points, or the coordinates of a vector. -/
inductive Handled (K : Type _) where
  | points (l : List (Vec K))
  | coordinates (l : List K)

/-- `handle_points(points)` (Primitive.py:606-610), called by the constructor of the spline (Spline.py:193). The length of a vector is 2
(Vector.py:154-155). -/
def handlePoints : Arg K → Arg K
  | .points [p] => .vector p
  | a => a

/-- `handle_points((points,))` (Primitive.py:606-610), called by `PrimitiveNP.__init__` with one positional argument: the argument itself, which is
then followed with its iterator (Vector.py:159-160). -/
def unwrap : Arg K → Handled K
  | .points l => .points l
  | .vector v => .coordinates [v.x, v.y]

/-- `PrimitiveNP.__init__(self, points)` (Primitive.py:614-618): a number is not iterable, `Vector2D(x)` raises `ValueError` (Vector.py:100-101). -/
def initPoints (a : Arg K) : Except PyErr (List (Vec K)) :=
  match unwrap a with
  | .points l => .ok l
  | .coordinates [] => .ok []
  | .coordinates (_ :: _) => .error .valueError

/-- `BSpline2D(points, degree, closed, knots)` (Spline.py:191-207), for points, a degree and knots of the expected types. -/
def make (points : Arg K) (degree : Nat) (closed : Bool) (knots : Option (List K)) : Except PyErr (BSpline K) := do
  let l ← initPoints (handlePoints points)
  BSpline.new l degree closed knots

/-- `BSpline2D(*points)` (Spline.py:191): two to four arguments. The first one is read as the points, before the others, which are vectors too:
`int(degree)` would raise `TypeError`. -/
def callVectors : List (Vec K) → Except PyErr (BSpline K)
  | p :: _ :: rest =>
    if rest.length ≤ 2 then do
      let _ ← initPoints (handlePoints (.vector p))
      .error .typeError
    else .error .typeError
  | _ => .error .typeError

/-- `clone()` (Primitive.py:160-166). -/
def clone (s : BSpline K) : Except PyErr (BSpline K) := callVectors s.points

/-- `reverse()` (Primitive.py:374-375) with `reversed_points` (Primitive.py:643-645). -/
def reverse (s : BSpline K) : Except PyErr (BSpline K) := callVectors s.points.reverse

/-- `transform(transformation, clone)` (Primitive.py:263-284) with `_set_points` (Primitive.py:652-654), for a transformation of which `isIdentity`
is the property `is_identity`. -/
def transform (s : BSpline K) (isIdentity : Bool) (f : Vec K → Vec K) (cloned : Bool) : Except PyErr (BSpline K) := do
  let obj ← if cloned then clone s else .ok s
  if isIdentity then return obj
  else return { obj with points := obj.points.map f }

/-- `==` (Primitive.py:226-227) with `is_point_equal` (Primitive.py:663-666). -/
def eq (a b : BSpline K) : Bool := decide (a.points = b.points)

/-- `bounding_box` (Primitive.py:249-259): a spline is not infinite. -/
def boundingBox (s : BSpline K) : Option (Box K) := Box.fromPoints s.points

end Patro.SplineObject
