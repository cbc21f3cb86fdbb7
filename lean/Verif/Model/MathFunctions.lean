import Mathlib.Analysis.Real.Sqrt
/-!
# Model of `Patro/Common/Math/Functions.py` and of the quadratic solver of `Root.py`

Floats are idealised: an arbitrary linearly ordered field, or ℝ when a square root is taken.
-/

namespace Patro.MathFunctions

section Ordered

variable {K : Type _} [Field K] [LinearOrder K]

/-- `trignometric_clamp(x)` (Patro/Common/Math/Functions.py:59-66). -/
def trignometricClamp (x : K) : K :=
  if x > 1 then 1
  else if x < -1 then -1
  else x

/-- `is_in_trignometric_range(x)` (Patro/Common/Math/Functions.py:70-71). -/
def isInTrignometricRange (x : K) : Bool := decide (-1 ≤ x) && decide (x ≤ 1)

/-- `middle(a, b)` (Patro/Common/Math/Functions.py:37-38). -/
def middle (a b : K) : K := (1 / 2) * (a + b)

/-- `cmp(a, b)` (Patro/Common/Math/Functions.py:42-43): difference of two booleans. -/
def cmp (a b : K) : Int := (if a > b then 1 else 0) - (if a < b then 1 else 0)

/-- `epsilon_float(a, b, epsilon)` (Patro/Common/Math/Functions.py:54-55). -/
def epsilonFloat (a b epsilon : K) : Bool := decide (|a - b| ≤ epsilon)

/-- `sign(x)` (Patro/Common/Math/Functions.py:47-50): `copysign(1.0, x)`. Signed zeros are not modelled, the
only zero is positive. -/
def sign (x : K) : K := if 0 ≤ x then 1 else -1

end Ordered

/-- What `quadratic_root` returns: `None`, a number or a pair. -/
inductive Roots (K : Type _) where
  | none
  | one (r : K)
  | two (r1 r2 : K)

/-- The numbers held by a result. -/
def Roots.toList {K : Type _} : Roots K → List K
  | .none => []
  | .one r => [r]
  | .two r1 r2 => [r1, r2]

open Classical in
/-- `quadratic_root(a, b, c)` (Patro/Common/Math/Root.py:46-68). -/
noncomputable def quadraticRoot (a b c : ℝ) : Roots ℝ :=
  if a = 0 ∧ b = 0 then .none
  else if a = 0 then .one (-c / b)
  else
    let D := b ^ 2 - 4 * a * c
    if D < 0 then .none
    else
      let b' := -b
      let s := 1 / (2 * a)
      if D > 0 then
        .two ((b' - Real.sqrt D) * s) ((b' + Real.sqrt D) * s)
      else
        .one (b' * s)

open Classical in
/-- The double root branch of `_cubic_root(a, b, c, d)` (Patro/Common/Math/Root.py:179-189): `D == 0`. The
other branch (solution by radicals) is not modelled: `none` at the outer level. -/
noncomputable def cubicRootDegenerate (a b c d : ℝ) : Option (Roots ℝ) :=
  let D := 18 * a * b * c * d - 4 * b ^ 3 * d + b ^ 2 * c ^ 2 - 4 * a * c ^ 3 - 27 * a ^ 2 * d ^ 2
  let D0 := b ^ 2 - 3 * a * c
  if D = 0 then
    if D0 = 0 then some (.one (-b / (3 * a)))
    else some (.two ((9 * a * d - b * c) / (2 * D0)) ((4 * a * b * c - 9 * a ^ 2 * d - b ^ 3) / (a * D0)))
  else none

end Patro.MathFunctions
