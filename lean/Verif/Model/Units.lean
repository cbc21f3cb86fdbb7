import Verif.Model.Py
import Mathlib.Algebra.Field.Basic
/-!
# Model of `Patro/GraphicEngine/GraphicScene/TypographyUnit.py` and of the conversions of `Patro/TextileTechnology/Yarn.py`

Numbers are elements of a field; rounding is not modelled.
-/

namespace Patro.Units

variable {K : Type} [Field K]

/-- `INCH_2_MM` (TypographyUnit.py:39). -/
def inch2mm : K := 254 / 10
/-- `POINT_2_INCH` (TypographyUnit.py:40). -/
def point2inch : K := 72
/-- `POINT_2_MM` (TypographyUnit.py:44). -/
def point2mm : K := inch2mm / point2inch
/-- `MM_2_INCH` (TypographyUnit.py:46), which is not used. -/
def mm2inch : K := 1 / inch2mm
/-- `INCH_2_POINT` (TypographyUnit.py:47). -/
def inch2point : K := 1 / point2inch
/-- `MM_2_POINT` (TypographyUnit.py:48). -/
def mm2point : K := 1 / point2mm

/-- A value with a unit: an object of `MmUnit`, `InchUnit` or `PointUnit`. -/
inductive Length (K : Type) where
  | mm (value : K)
  | inch (value : K)
  | point (value : K)
deriving DecidableEq

/-- `to_mm()` (TypographyUnit.py:64-65, 80-81, 93-94). -/
def Length.toMm : Length K → Length K
  | .mm v => .mm v
  | .inch v => .mm (v * inch2mm)
  | .point v => .mm (v * point2mm)

/-- `to_inch()` (TypographyUnit.py:67-68, 77-78, 96-97). -/
def Length.toInch : Length K → Length K
  | .mm v => .inch (v * mm2point)
  | .inch v => .inch v
  | .point v => .inch (v * point2inch)

/-- `to_point()` (TypographyUnit.py:70-71, 83-84, 90-91). -/
def Length.toPoint : Length K → Length K
  | .mm v => .point (v * mm2point)
  | .inch v => .point (v * inch2point)
  | .point v => .point v

/-! ## Yarn counts -/

/-- `tex2den(x)` (Yarn.py:29-30). -/
def tex2den (x : K) : K := x * 9
/-- `den2tex(x)` (Yarn.py:32-33). -/
def den2tex (x : K) : K := x * 10 / 9

section
variable [DecidableEq K]
/-- `tex2nm(x)` (Yarn.py:35-36). -/
def tex2nm (x : K) : Except PyErr K := if x = 0 then .error .zeroDivisionError else .ok (1000 / x)
end
/-- `nm2tex(x)` (Yarn.py:38-39). -/
def nm2tex (x : K) : K := 1000 * x

/-- `TwistType` (Yarn.py:43-51). -/
inductive TwistType where
  | S
  | Z
deriving DecidableEq

/-- What can be given as `twist_type`: nothing, a member of the enumeration, or an integer. -/
inductive TwistArg where
  | none
  | twist (t : TwistType)
  | int (i : Int)

/-- `TwistType(value)`: a member, or the member of this value; `auto()` counts from 1 (Yarn.py:50-51). -/
def castTwist : TwistArg → Except PyErr TwistType
  | .none => .error .valueError
  | .twist t => .ok t
  | .int i => if i = 1 then .ok .S else if i = 2 then .ok .Z else .error .valueError

/-- The attributes of `Yarn` which are used below. -/
structure Yarn (K : Type) where
  tex : K
  twistType : TwistType

/-- `Yarn(fiber, color, tex, twist_type=None)` (Yarn.py:61-69): the fibre and the colour are kept as they are. -/
def Yarn.new (tex : K) (twistType : TwistArg := .none) : Except PyErr (Yarn K) := do
  let t ← castTwist twistType
  return { tex, twistType := t }

/-- `denier` (Yarn.py:88-91). -/
def Yarn.denier (y : Yarn K) : K := tex2den y.tex

/-- `nm` (Yarn.py:93-96). -/
def Yarn.nm [DecidableEq K] (y : Yarn K) : Except PyErr K := tex2nm y.tex

end Patro.Units
