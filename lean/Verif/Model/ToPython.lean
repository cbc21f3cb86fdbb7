import Verif.Model.Text
/-!
# Model of `to_python` of `Patro/Pattern/SketchOperation.py`

The texts of the numbers (`str(value)`, `'{0.x}'.format(value)`) are given; names of points are texts; `isFloat` tells whether
`float(text)` succeeds.
-/

namespace Patro.ToPython

open Patro.Text (Text)

/-- The classes of operations (SketchOperation.py:403-800). -/
inductive Cls where
  | singlePoint | alongLinePoint | endLinePoint | lineIntersectPoint | normalPoint | pointOfContact | pointOfIntersection | line
  | simpleInteractiveSpline
deriving DecidableEq, Repr

/-- `self.__class__.__name__`. -/
def Cls.name : Cls → Text
  | .singlePoint => "SinglePoint".toList
  | .alongLinePoint => "AlongLinePoint".toList
  | .endLinePoint => "EndLinePoint".toList
  | .lineIntersectPoint => "LineIntersectPoint".toList
  | .normalPoint => "NormalPoint".toList
  | .pointOfContact => "PointOfContact".toList
  | .pointOfIntersection => "PointOfIntersection".toList
  | .line => "Line".toList
  | .simpleInteractiveSpline => "SimpleInteractiveSpline".toList

/-- `_init_args()` (SketchOperation.py:134-140): the parameters of the constructor between `sketch` and `id` (SketchOperation.py:411-415,
452-457, 487-492, 516-520, 571-576, 615-620, 671-675, 699-703, 738-744); the constructors have no local variable. -/
def Cls.initArgs : Cls → List Text
  | .singlePoint => ["name", "x", "y", "label_offset"].map String.toList
  | .alongLinePoint => ["name", "first_point", "second_point", "length", "label_offset", "line_style", "line_color"].map String.toList
  | .endLinePoint => ["name", "base_point", "angle", "length", "label_offset", "line_style", "line_color"].map String.toList
  | .lineIntersectPoint =>
    ["name", "point1_line1", "point2_line1", "point1_line2", "point2_line2", "label_offset"].map String.toList
  | .normalPoint =>
    ["name", "first_point", "second_point", "angle", "length", "label_offset", "line_style", "line_color"].map String.toList
  | .pointOfContact => ["name", "first_point", "second_point", "center", "radius", "label_offset"].map String.toList
  | .pointOfIntersection => ["name", "first_point", "second_point", "label_offset"].map String.toList
  | .line => ["first_point", "second_point", "line_style", "line_color"].map String.toList
  | .simpleInteractiveSpline =>
    ["first_point", "second_point", "angle1", "length1", "angle2", "length2", "line_style", "line_color"].map String.toList

/-- The value of an attribute, by the tests of SketchOperation.py:156-175. -/
inductive Arg where
  | none
  /-- An int or a float, given by its text. -/
  | num (text : Text)
  | str (t : Text)
  /-- A point, given by its name. -/
  | point (name : Text)
  /-- An `Expression`, given by its text. -/
  | expr (t : Text)
  /-- A vector, given by the texts of its coordinates. -/
  | vector (x y : Text)
  /-- Anything else: an operation which is not a point, a member of `StrokeStyle`, a colour… -/
  | other
deriving DecidableEq, Repr

/-- `quote(x)` (SketchOperation.py:50-51). -/
def quote (x : Text) : Text := "'".toList ++ x ++ "'".toList

/-- The text of a value (SketchOperation.py:156-175). -/
def Arg.text (isFloat : Text → Bool) : Arg → Text
  | .none => "None".toList
  | .num t => t
  | .str t => quote t
  | .point n => quote n
  | .expr t => if isFloat t then t else quote t
  | .vector x y => "Vector2D(".toList ++ x ++ ", ".toList ++ y ++ ")".toList
  | .other => []

/-- `', '.join(items)`. -/
def join : List Text → Text
  | [] => []
  | [w] => w
  | w :: ws => w ++ ", ".toList ++ join ws

/-- `to_python()` (SketchOperation.py:144-177) for an operation of the class `cls`, `value` giving its attributes. -/
def toPython (isFloat : Text → Bool) (cls : Cls) (value : Text → Arg) : Text :=
  let args := cls.initArgs
  let values := args.map fun arg => (value arg).text isFloat
  let kwargs := join ("sketch".toList :: (args.zip values).map fun kv => kv.1 ++ "=".toList ++ kv.2)
  cls.name ++ "(".toList ++ kwargs ++ ")".toList

end Patro.ToPython
