import Verif.Model.Transformation
import Mathlib.Data.Rat.Floor
/-!
# Model of the constructors of `Patro/GeometryEngine/Transformation.py` and of the type of a matrix

A numpy array is its shape and the list of its elements in the order of the rows. Numbers are rational; rounding is not modelled.
Lists whose elements are not numbers and arrays whose elements are not numbers are not modelled.
-/

namespace Patro.TransformationNew

open Transformation (TType)

/-- A numpy array: its shape and its elements, row after row. -/
structure Arr where
  shape : List Nat
  flat : List ℚ
deriving DecidableEq, Repr

/-- The classes `Transformation2D` (Transformation.py:227) and `AffineTransformation2D` (Transformation.py:364). -/
inductive Class where
  | linear | affine
deriving DecidableEq, Repr

/-- `__size__` (Transformation.py:230, 367). -/
def Class.size : Class → Nat
  | .linear => 2
  | .affine => 3

/-- `__dimension__`, and the property `dimension` (Transformation.py:229, 366, 115-117). -/
def Class.dimension : Class → Nat
  | .linear => 2
  | .affine => 2

/-- A transformation: its class and the attributes `_m` and `_type` (Transformation.py:107-111). -/
structure Obj where
  cls : Class
  m : Arr
  type : Option TType
deriving DecidableEq, Repr

/-- The first argument of a constructor (Transformation.py:87-105): a transformation, an array, a list or a tuple of numbers, or a number. -/
inductive Arg where
  | transformation (o : Obj)
  | ndarray (a : Arr)
  | sequence (values : List ℚ)
  | number (x : ℚ)
deriving DecidableEq, Repr

/-- `same_dimension(other)` (Transformation.py:146-147): the size is compared to the dimension. -/
def sameDimension (c : Class) (other : Obj) : Bool := c.size == other.cls.dimension

/-- The integer nearest to zero, which is what an array of integers keeps of a number. -/
def truncate (x : ℚ) : ℚ := if 0 ≤ x then (⌊x⌋ : ℤ) else (⌈x⌉ : ℤ)

/-- The array of a constructor (Transformation.py:87-105). The array of the last branch, `np.array((size, size))`, is the vector of two
integers `[size, size]`, whose two elements are then replaced. -/
def arrayOf (c : Class) : Arg → Except PyErr Arr
  | .transformation o => if sameDimension c o then .ok o.m else .error .valueError
  | .ndarray a => if a.shape = [c.size, c.size] then .ok a else .error .valueError
  | .sequence values => if values.length = c.size ^ 2 then .ok ⟨[c.size, c.size], values⟩ else .error .valueError
  | .number x => .ok ⟨[2], [truncate x, truncate x]⟩

/-- `_check_type()` (Transformation.py:280-281, 371-373): the method `_check_matrix_type` does not exist; for an affine transformation the
type is computed, and not returned; the slices of `matrix_part` (Transformation.py:355-356) need two axes, and the sequence of the elements of
the part, which is unpacked, needs to have four of them. -/
def checkType : Class → Arr → Except PyErr (Option TType)
  | .linear, _ => .error .attributeError
  | .affine, a => match a.shape with
    | [rows, cols] => if min rows 2 * min cols 2 = 4 then .ok none else .error .valueError
    | _ => .error .indexError

/-- `Transformation2D(obj, transformation_type)` and `AffineTransformation2D(obj, transformation_type)` (Transformation.py:85-111). The
array is copied. -/
def new (c : Class) (arg : Arg) (type : TType := .generic) : Except PyErr Obj := do
  let m ← arrayOf c arg
  if type = .generic then
    let t ← checkType c m
    return ⟨c, m, t⟩
  else return ⟨c, m, some type⟩

/-- `to_list()` (Transformation.py:141-142). -/
def Obj.toList (o : Obj) : List ℚ := o.m.flat

/-- `array[i,j]` for an array with two axes. -/
def Arr.get? (a : Arr) (i j : Nat) : Option ℚ :=
  match a.shape with
  | [rows, cols] => if i < rows ∧ j < cols then a.flat[i * cols + j]? else none
  | _ => none

/-- `check_matrix_type(matrix)` (Transformation.py:256-276). -/
def checkMatrixType : List ℚ → Except PyErr TType
  | [m00, m01, m10, m11] => .ok <|
    if m01 = 0 ∧ m10 = 0 then
      if m00 = 1 then
        if m11 = 1 then .identity
        else if m11 = -1 then .yParity
        else .generic
      else if m00 = -1 then
        if m11 = 1 then .xParity
        else if m11 = -1 then .parity
        else .generic
      else if m00 = m11 then .scale
      else .generic
    else .generic
  | _ => .error .valueError

end Patro.TransformationNew
