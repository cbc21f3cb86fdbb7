import Verif.Model.Py
import Verif.Model.MathFunctions
import Mathlib.Analysis.SpecialFunctions.Trigonometric.Basic
import Mathlib.Analysis.SpecialFunctions.Trigonometric.Arctan
import Mathlib.Analysis.SpecialFunctions.Trigonometric.Inverse
/-!
# Model of `Patro/GeometryEngine/Vector.py`

Coordinates are elements of a field, or real numbers when roots or trigonometric functions are used. The numpy array is
a pair; data types and aliasing of the arrays are in `VectorObject`, rounding is not modelled. Angles are in degrees as in the code.
-/

namespace Patro

open MathFunctions (trignometricClamp sign)

/-- `Vector2DBase` (Patro/GeometryEngine/Vector.py:77-137): the array `_v`. -/
@[ext] structure Vec (K : Type _) where
  x : K
  y : K
deriving DecidableEq, Repr

namespace Vec

section Ring

variable {K : Type _} [CommRing K]

/-- `__add__` (Vector.py:180-182). -/
instance : Add (Vec K) := ⟨fun a b => ⟨a.x + b.x, a.y + b.y⟩⟩
/-- `__sub__` (Vector.py:193-195). -/
instance : Sub (Vec K) := ⟨fun a b => ⟨a.x - b.x, a.y - b.y⟩⟩
/-- `__neg__` (Vector.py:212-214). -/
instance : Neg (Vec K) := ⟨fun a => ⟨-a.x, -a.y⟩⟩
/-- The null vector. -/
instance : Zero (Vec K) := ⟨⟨0, 0⟩⟩

/-- `vector * scale` (Vector.py:517-519, 601-603). -/
def smul (v : Vec K) (s : K) : Vec K := ⟨s * v.x, s * v.y⟩

@[simp] theorem add_x (a b : Vec K) : (a + b).x = a.x + b.x := rfl
@[simp] theorem add_y (a b : Vec K) : (a + b).y = a.y + b.y := rfl
@[simp] theorem sub_x (a b : Vec K) : (a - b).x = a.x - b.x := rfl
@[simp] theorem sub_y (a b : Vec K) : (a - b).y = a.y - b.y := rfl
@[simp] theorem neg_x (a : Vec K) : (-a).x = -a.x := rfl
@[simp] theorem neg_y (a : Vec K) : (-a).y = -a.y := rfl
@[simp] theorem zero_x : (0 : Vec K).x = 0 := rfl
@[simp] theorem zero_y : (0 : Vec K).y = 0 := rfl
@[simp] theorem smul_x (a : Vec K) (s : K) : (a.smul s).x = s * a.x := rfl
@[simp] theorem smul_y (a : Vec K) (s : K) : (a.smul s).y = s * a.y := rfl

/-- `magnitude_square` (Vector.py:261-264). -/
def magnitudeSquare (v : Vec K) : K := v.x * v.x + v.y * v.y

/-- `dot` (Vector.py:392-394). -/
def dot (v w : Vec K) : K := v.x * w.x + v.y * w.y

/-- `cross` (Vector.py:398-400): `np.cross` of two plane vectors. -/
def cross (v w : Vec K) : K := v.x * w.y - v.y * w.x

/-- `normal` (Vector.py:332-339). -/
def normal (v : Vec K) : Vec K := ⟨-v.y, v.x⟩

/-- `anti_normal` (Vector.py:343-350). -/
def antiNormal (v : Vec K) : Vec K := ⟨v.y, -v.x⟩

/-- `permute` (Vector.py:354-361). -/
def permute (v : Vec K) : Vec K := ⟨v.y, v.x⟩

/-- `parity` (Vector.py:365-373). -/
def parity (v : Vec K) : Vec K := ⟨-v.x, -v.y⟩

/-- `scale(scale_x, scale_y)` (Vector.py:549-553). -/
def scale (v : Vec K) (sx sy : K) : Vec K := ⟨v.x * sx, v.y * sy⟩

end Ring

section Field

variable {K : Type _} [Field K]

/-- `vector / scale` (Vector.py:536-538). numpy gives infinities or nan for a null `scale`; this is not modelled and
callers state that the scale is not null. -/
def sdiv (v : Vec K) (s : K) : Vec K := ⟨v.x / s, v.y / s⟩

/-- `divide(scale_x, scale_y)` (Vector.py:557-561), null scales as for `sdiv`. -/
def divide (v : Vec K) (sx sy : K) : Vec K := ⟨v.x / sx, v.y / sy⟩

@[simp] theorem sdiv_x (a : Vec K) (s : K) : (a.sdiv s).x = a.x / s := rfl
@[simp] theorem sdiv_y (a : Vec K) (s : K) : (a.sdiv s).y = a.y / s := rfl

/-- `Vector2D.middle(p0, p1)` (Vector.py:510-513). -/
def middle (p0 p1 : Vec K) : Vec K := (p0 + p1).smul (1 / 2)

variable [LinearOrder K]

/-- `round(x, 7) == 0` for a number: `x` lies within half a unit of the seventh decimal of 0 (the tie rounds to the even
digit 0). -/
def roundsToZero (x : K) : Bool := decide (|x| ≤ 5 / 10 ^ 8)

/-- `is_parallel` (Vector.py:412-420). -/
def isParallel (v w : Vec K) : Bool := roundsToZero (v.cross w)

/-- `is_orthogonal` (Vector.py:424-426). -/
def isOrthogonal (v w : Vec K) : Bool := roundsToZero (v.dot w)

end Field

noncomputable section Real

/-- `math.radians`. -/
def radians (a : ℝ) : ℝ := a * (Real.pi / 180)

/-- `math.degrees`. -/
def degrees (a : ℝ) : ℝ := a * (180 / Real.pi)

/-- `magnitude` (Vector.py:268-273). -/
def magnitude (v : Vec ℝ) : ℝ := Real.sqrt v.magnitudeSquare

/-- `rotate(angle, counter_clockwise)` (Vector.py:312-328). -/
def rotate (v : Vec ℝ) (angle : ℝ) (counterClockwise : Bool := true) : Vec ℝ :=
  let r := if counterClockwise then radians angle else -radians angle
  let c := Real.cos r
  let s := Real.sin r
  ⟨c * v.x - s * v.y, s * v.x + c * v.y⟩

open Classical in
/-- `orientation` (Vector.py:277-308). The test `bool(self)` always succeeds in Python 3 (`__nonzero__` is the Python 2
name and `__len__` is 2), so there is no error branch; `copysign(90, y)` for a zero `y` gives 90 (only the positive zero is
modelled). -/
def orientation (v : Vec ℝ) : ℝ :=
  if v.x = 0 then (if 0 ≤ v.y then 90 else -90)
  else if v.y = 0 then (if v.x ≥ 0 then 0 else 180)
  else
    let o := degrees (Real.arctan (v.y / v.x))
    if v.x < 0 then (if v.y > 0 then o + 180 else o - 180)
    else o

open Classical in
/-- Python's float division: `ZeroDivisionError` for a null divisor. -/
def pyDiv (a b : ℝ) : Except PyErr ℝ := if b = 0 then .error .zeroDivisionError else .ok (a / b)

/-- `cos_with(direction)` (Vector.py:430-433). -/
def cosWith (v direction : Vec ℝ) : Except PyErr ℝ :=
  (pyDiv (direction.dot v) (direction.magnitude * v.magnitude)).map trignometricClamp

/-- `projection_on(direction)` (Vector.py:437-439). -/
def projectionOn (v direction : Vec ℝ) : Except PyErr ℝ := pyDiv (direction.dot v) direction.magnitude

/-- `sin_with(direction)` (Vector.py:443-447). -/
def sinWith (v direction : Vec ℝ) : Except PyErr ℝ :=
  (pyDiv (direction.cross v) (direction.magnitude * v.magnitude)).map trignometricClamp

/-- `deviation_with(direction)` (Vector.py:451-453). -/
def deviationWith (v direction : Vec ℝ) : Except PyErr ℝ := pyDiv (direction.cross v) direction.magnitude

/-- `angle_with(direction)` (Vector.py:457-461). -/
def angleWith (v direction : Vec ℝ) : Except PyErr ℝ := do
  let c ← cosWith v direction
  let s ← sinWith v direction
  return sign s * degrees (Real.arccos c)

/-- `Vector2D.from_angle(angle)` (Vector.py:485-489). -/
def fromAngle (angle : ℝ) : Vec ℝ := ⟨Real.cos (radians angle), Real.sin (radians angle)⟩

/-- `Vector2D.from_polar(radius, angle)` (Vector.py:493-496). -/
def fromPolar (radius angle : ℝ) : Vec ℝ := (fromAngle angle).smul radius

/-- `Vector2D.from_ellipse(radius_x, radius_y, angle)` (Vector.py:500-506). -/
def fromEllipse (rx ry angle : ℝ) : Vec ℝ := ⟨rx * Real.cos (radians angle), ry * Real.sin (radians angle)⟩

/-- `to_normalised()` and `normalise()` (Vector.py:565-574). For the null vector numpy gives nan coordinates: `none`. -/
def toNormalised (v : Vec ℝ) : Option (Vec ℝ) :=
  open Classical in if v.magnitude = 0 then none else some (v.sdiv v.magnitude)

end Real

end Vec

end Patro
