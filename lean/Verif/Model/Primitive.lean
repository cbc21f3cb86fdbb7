import Verif.Model.Path
import Verif.Model.Polygon
/-!
# Model of the mixins of `Patro/GeometryEngine/Primitive.py` and of the classes which use them

The classes, their bases and the methods they define are data; the method which is called is found by the order of
resolution of Python. An object is its class and the list of its points.
-/

namespace Patro.Primitive

/-- The classes of primitives which are given by points (Patro/GeometryEngine/Primitive.py:55-706, Segment.py:39,
Rectangle.py:39, Triangle.py:81, Polygon.py:52, 553, Polyline.py:37, Bezier.py:73, 206, 414, Spline.py:48, 101, 167), and `object`. -/
inductive Cls where
  | object | Primitive | Primitive2DMixin | PointPrimitive | ClosedPrimitiveMixin | ReversiblePrimitiveMixin
  | Primitive1PMixin | Primitive1P | Primitive2P | Primitive3P | Primitive4P | PrimitiveNP | PolygonMixin | PathMixin
  | Segment2D | Rectangle2D | Triangle2D | Polygon2D | RegularPolygon | Polyline2D
  | BezierMixin2D | QuadraticBezier2D | CubicBezier2D | QuadraticUniformSpline2D | CubicUniformSpline2D | BSpline2D
deriving DecidableEq, Repr

namespace Cls

/-- The bases in the statement of the class, same lines as `Cls`. -/
def bases : Cls → List Cls
  | object => []
  | Primitive | Primitive2DMixin | ClosedPrimitiveMixin | ReversiblePrimitiveMixin | Primitive1PMixin | PolygonMixin | PathMixin => [object]
  | PointPrimitive => [Primitive]
  | Primitive1P => [PointPrimitive, Primitive1PMixin]
  | Primitive2P => [Primitive1P, ReversiblePrimitiveMixin]
  | Primitive3P => [Primitive2P]
  | Primitive4P => [Primitive3P]
  | PrimitiveNP => [PointPrimitive, ReversiblePrimitiveMixin]
  | Segment2D => [Primitive2DMixin, Primitive2P]
  | Rectangle2D => [Primitive2DMixin, ClosedPrimitiveMixin, PathMixin, PolygonMixin, Primitive2P]
  | Triangle2D => [Primitive2DMixin, ClosedPrimitiveMixin, PathMixin, PolygonMixin, Primitive3P]
  | Polygon2D => [Primitive2DMixin, ClosedPrimitiveMixin, PathMixin, PrimitiveNP]
  | RegularPolygon => [Polygon2D]
  | Polyline2D => [Primitive2DMixin, PrimitiveNP]
  | BezierMixin2D => [Primitive2DMixin]
  | QuadraticBezier2D => [BezierMixin2D, Primitive3P]
  | CubicBezier2D => [BezierMixin2D, Primitive4P]
  | QuadraticUniformSpline2D => [Primitive2DMixin, Primitive3P]
  | CubicUniformSpline2D => [Primitive2DMixin, Primitive4P]
  | BSpline2D => [Primitive2DMixin, PrimitiveNP]

/-- The methods of the model. -/
inductive Method where
  | reverse | isReversible | iterFromSecondPoint | toPath | toPolygon | isClosed
deriving DecidableEq, Repr

/-- The methods among these that a class defines itself (Primitive.py:84-91, 236-245, 317-319, 361-375, 537-539, 590-591, 647-648, 686-688,
696-706, Rectangle.py:65-67, Triangle.py:102-104, Polyline.py:81-87). -/
def defines : Cls → List Method
  | Primitive => [.isClosed]
  | PointPrimitive => [.isReversible, .reverse]
  | ClosedPrimitiveMixin => [.isClosed]
  | ReversiblePrimitiveMixin => [.isReversible, .reverse]
  | Primitive3P => [.iterFromSecondPoint]
  | Primitive4P => [.iterFromSecondPoint]
  | PrimitiveNP => [.iterFromSecondPoint]
  | PolygonMixin => [.toPolygon]
  | PathMixin => [.toPath]
  | Rectangle2D | Triangle2D => [.isClosed]
  | Polyline2D => [.toPath]
  | _ => []

end Cls

open Cls (Method)

/-! ## Order of resolution of Python, as specified by the C3 linearisation of the language reference -/

/-- The first head which is in the tail of no list. -/
def candidate (lists : List (List Cls)) : List (List Cls) → Option Cls
  | [] => none
  | [] :: rest => candidate lists rest
  | (c :: _) :: rest => if lists.all fun l => !(l.tail.contains c) then some c else candidate lists rest

/-- The merge of the orders of the bases: at most `fuel` steps, `none` when there is no order. -/
def merge : Nat → List (List Cls) → Option (List Cls)
  | 0, _ => none
  | fuel + 1, lists =>
    let lists := lists.filter (!·.isEmpty)
    if lists.isEmpty then some []
    else do
      let c ← candidate lists lists
      let rest ← merge fuel (lists.map fun l => if l.head? = some c then l.tail else l)
      return c :: rest

/-- `cls.__mro__`: the depth of the hierarchy is less than 10 and its size less than 30. -/
def mroFuel : Nat → Cls → Option (List Cls)
  | 0, _ => none
  | fuel + 1, c => do
    let orders ← c.bases.mapM (mroFuel fuel)
    let rest ← merge 30 (orders ++ [c.bases])
    return c :: rest
@[inherit_doc mroFuel] def mro (c : Cls) : Option (List Cls) := mroFuel 10 c

/-- The class whose definition of the method is used by the instances of `c`; `none` when there is no such attribute. -/
def lookup (c : Cls) (m : Method) : Option Cls := (mro c).bind fun cs => cs.find? fun d => d.defines.contains m

/-! ## Methods -/

variable {K : Type _}

/-- An object: its class and its points. -/
structure Obj (K : Type _) where
  cls : Cls
  points : List (Vec K)
deriving DecidableEq

/-- `reverse()`: `return self` in `PointPrimitive` (Primitive.py:244-245), a new object with `reversed_points` in
`ReversiblePrimitiveMixin` (Primitive.py:374-375, 478-480, 532-535, 586-588, 643-645). -/
def reverse (o : Obj K) : Except PyErr (Obj K) :=
  match lookup o.cls .reverse with
  | some .PointPrimitive => .ok o
  | some .ReversiblePrimitiveMixin => .ok { o with points := o.points.reverse }
  | _ => .error .attributeError

/-- `is_reversible`: `False` in `PointPrimitive` (Primitive.py:236-240), `None` in `ReversiblePrimitiveMixin`
(Primitive.py:361-363). -/
def isReversible (o : Obj K) : Except PyErr (Option Bool) :=
  match lookup o.cls .isReversible with
  | some .PointPrimitive => .ok (some false)
  | some .ReversiblePrimitiveMixin => .ok none
  | _ => .error .attributeError

/-- `iter_from_second_point()`: `iter` with two arguments requires a callable object, and takes at most two arguments
(Primitive.py:537-539, 590-591); otherwise the points but the first one (Primitive.py:647-648). -/
def iterFromSecondPoint (o : Obj K) : Except PyErr (List (Vec K)) :=
  match lookup o.cls .iterFromSecondPoint with
  | some .Primitive3P => .error .typeError
  | some .Primitive4P => .error .typeError
  | some .PrimitiveNP => .ok o.points.tail
  | _ => .error .attributeError

/-- `is_closed` (Primitive.py:84-91, 317-319, Rectangle.py:64-66, Triangle.py:100-102). -/
def isClosed (o : Obj K) : Except PyErr Bool :=
  match lookup o.cls .isClosed with
  | some .Primitive => .ok false
  | some .ClosedPrimitiveMixin => .ok true
  | some .Rectangle2D => .ok true
  | some .Triangle2D => .ok true
  | _ => .error .attributeError

section Field

variable [Field K] [LinearOrder K]

/-- `for point in …: path.line_to(point, absolute=…)` (Primitive.py:701-702, Polyline.py:84-85). -/
def lines (absolute : Bool) : List (Vec K) → Path.Path K → Except PyErr (Path.Path K)
  | [], path => .ok path
  | p :: ps, path =>
    match path.lineTo p none absolute with
    | (.ok _, path) => lines absolute ps path
    | (.error e, _) => .error e

/-- `to_path()`: the one of `PathMixin` (Primitive.py:696-706) and the one of `Polyline2D` (Polyline.py:81-87).
`start_point` is the first point. -/
def toPath (o : Obj K) : Except PyErr (Path.Path K) :=
  match lookup o.cls .toPath with
  | some .PathMixin =>
    match o.points with
    | [] => .error .indexError
    | start :: _ => do
      let rest ← iterFromSecondPoint o
      let path ← lines true rest (Path.Path.new start)
      if ← isClosed o then
        match path.close with
        | (.ok _, path) => return path
        | (.error e, _) => .error e
      else return path
  | some .Polyline2D =>
    match o.points with
    | [] => .error .indexError
    | start :: _ => do
      let rest ← iterFromSecondPoint o
      lines false rest (Path.Path.new start)
  | _ => .error .attributeError

/-- `to_polygon()` (Primitive.py:686-688): `Polygon2D(self.points)` has one argument, whatever the number of points. -/
def toPolygon (o : Obj K) : Except PyErr (Polygon K) :=
  match lookup o.cls .toPolygon with
  | some .PolygonMixin =>
    let arguments := 1
    if arguments < 3 then .error .valueError else .ok { points := o.points }
  | _ => .error .attributeError

end Field

/-- `iter_on_nuplets(size)` (Primitive.py:670-678): the values of the generator until exhaustion, for a size which is not
negative. -/
def iterOnNuplets (points : List (Vec K)) (size : Nat) : Except PyErr (List (List (Vec K))) :=
  if size > points.length then .error .valueError
  else .ok ((List.range (points.length - size + 1)).map fun i => (points.drop i).take size)

end Patro.Primitive
