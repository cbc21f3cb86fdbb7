import Verif.Model.Xml
import Verif.Model.SvgPath
import Verif.Model.Transformation
import Verif.Model.Text
/-!
# Model of `TransformAttribute` and `PercentLengthAttribute` (Patro/FileFormat/Svg/SvgFormat.py)

`float` of Python is a parameter, `none` when it raises `ValueError`.
-/

namespace Patro.SvgTransform

open Patro.Xml (Text)
open Patro.Transformation (Aff)

noncomputable section

/-- `complete(values, size)` (SvgFormat.py:473-474). -/
def complete (values : List ℝ) (size : Nat) : List ℝ := values ++ List.replicate (size - values.length) 0

/-- `AffineTransformation2D([values[i] for i in (0, 2, 4, 1, 3, 5)] + [0, 0, 1])` (SvgFormat.py:479-480). -/
def matrixOf (values : List ℝ) : Except PyErr (Aff ℝ) := do
  let a ← Py.getItem values 0
  let c ← Py.getItem values 2
  let e ← Py.getItem values 4
  let b ← Py.getItem values 1
  let d ← Py.getItem values 3
  let f ← Py.getItem values 5
  return Aff.new !![a, c, e; b, d, f; 0, 0, 1]

/-- One turn of the loop of `to_python`, up to `if concat` (SvgFormat.py:476-499). -/
def toTransform (name : Text) (values : List ℝ) : Except PyErr (Aff ℝ) :=
  if name = "matrix".toList then matrixOf values
  else if name = "translate".toList then do
    let v ← SvgPath.vector (complete values 2)
    return Aff.translation v
  else if name = "scale".toList then
    match values with
    | [x, y] => .ok (Aff.scale x y)
    | _ => .error .typeError
  else if name = "rotate".toList then
    match complete values 3 with
    | angle :: vector => do
      let v ← SvgPath.vector vector
      return Aff.rotationAt v angle
    | [] => .error .valueError
  else if name = "skewX".toList ∨ name = "skewY".toList then do
    let _ ← Py.getItem values 0
    .error .notImplementedError
  else .error .notImplementedError

/-- `to_python(transforms)` with `concat=True` (SvgFormat.py:470-508). -/
def toPython (transforms : List (Text × List ℝ)) : Except PyErr (Aff ℝ) :=
  transforms.foldlM (init := Aff.identity) fun global t => do
    let transform ← toTransform t.1 t.2
    return transform.mul global

/-- `[float(x) for x in texts]`. -/
def floats (float : Text → Option ℝ) (texts : List Text) : Except PyErr (List ℝ) :=
  texts.mapM fun t => match float t with
    | some x => .ok x
    | none => .error .valueError

/-- One turn of the loop of `from_xml`, which reads `value` and not the item of the loop (SvgFormat.py:447-453). -/
def readOne (float : Text → Option ℝ) (value : Text) : Except PyErr (Text × List ℝ) :=
  match Text.find ['('] value 0, Text.find [')'] value 0 with
  | some pos0, some pos1 =>
    if pos1 + 1 ≠ value.length then .error .valueError
    else do
      let values ← floats float (Xml.split ',' ((value.drop (pos0 + 1)).dropLast))
      return (value.take pos0, values)
  | _, _ => .error .valueError

/-- `from_xml(value)` for a text (SvgFormat.py:440-457). -/
def fromXml (float : Text → Option ℝ) (value : Text) : Except PyErr (Aff ℝ) := do
  let transforms ← (SvgPath.splitSpaceList value).mapM fun _ => readOne float value
  toPython transforms

/-- `to_list()` (Transformation.py:142-143). -/
def toList (t : Aff ℝ) : List ℝ := [t.m 0 0, t.m 0 1, t.m 0 2, t.m 1 0, t.m 1 1, t.m 1 2, t.m 2 0, t.m 2 1, t.m 2 2]

/-- `to_xml(value)` (SvgFormat.py:462-466); `print` is `str`. -/
def toXml (print : ℝ → Text) (t : Aff ℝ) : Text := "matrix(".toList ++ Xml.join ' ' ((toList t).map print) ++ [')']

end

/-! ## Lengths -/

/-- The values of a length attribute (SvgFormat.py:239-268). A percentage holds its value over one hundred. -/
inductive Length (F : Type _) where
  | inherit
  | percent (value : F)
  | unit (value : F) (unit : Text)
  | number (value : F)
deriving DecidableEq

/-- `float(text)`. -/
def readFloat {F : Type _} (float : Text → Option F) (t : Text) : Except PyErr F :=
  match float t with
  | some x => .ok x
  | none => .error .valueError

/-- `PercentLengthAttribute.from_xml(value)` (SvgFormat.py:216-220, 276-283). `isalpha` is the one of ASCII. -/
def lengthFromXml {F : Type _} [Div F] [OfNat F 100] (float : Text → Option F) (value : Text) : Except PyErr (Length F) :=
  if value = "inherit".toList then .ok .inherit
  else match value.getLast? with
    | none => .error .indexError
    | some c =>
      if c = '%' then (readFloat float value.dropLast).map fun x => .percent (x / 100)
      else if c.isAlpha then
        if value.length < 2 then .error .indexError
        else (readFloat float (value.take (value.length - 2))).map fun x => .unit x ((value.drop (value.length - 2)).take 1)
      else (readFloat float value).map .number

/-- `to_xml(value)`, which is `str(value)` (Objectivity.py:98-100) since the method of the class is named `_to_xml`: the text of a unit
value is its unit (SvgFormat.py:266-267), and the one of a percentage is the default text of an object, with its address. -/
def lengthToXml {F : Type _} (print : F → Text) (address : Text) : Length F → Text
  | .inherit => "inherit".toList
  | .percent _ => "<Patro.FileFormat.Svg.SvgFormat.PercentValue object at ".toList ++ address ++ ['>']
  | .unit _ u => u
  | .number x => print x

end Patro.SvgTransform
