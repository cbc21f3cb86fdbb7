import Verif.Model.Py
import Verif.Model.MathFunctions
import Mathlib.Analysis.SpecialFunctions.Trigonometric.Inverse
/-!
# Model of the polynomial roots of `Patro/Common/Math/Root.py` that use sympy, and of `cubic_root_normalised`

`sympy.real_roots` is external: it is the parameter `realRoots`, applied to the coefficients, highest degree first.
-/

namespace Patro.Roots

open MathFunctions (Roots quadraticRoot sign)

noncomputable section

/-- `real_roots(expression, x)` (Root.py:84-85) on the polynomial with these coefficients. -/
abbrev RealRoots := List ℝ → Except PyErr (List ℝ)

/-- `cubic_root_sympy(a, b, c, d)` (Root.py:89-92). -/
def cubicRootSympy (realRoots : RealRoots) (a b c d : ℝ) : Except PyErr (List ℝ) := realRoots [a, b, c, d]

/-- What `cubic_root` returns: the result of `quadratic_root` or a list. -/
inductive CubicRoots where
  | quadratic (r : Roots ℝ)
  | list (l : List ℝ)

/-- The numbers held by a result. -/
def CubicRoots.toList : CubicRoots → List ℝ
  | .quadratic r => r.toList
  | .list l => l

open Classical in
/-- `cubic_root(a, b, c, d)` (Root.py:72-77). -/
def cubicRoot (realRoots : RealRoots) (a b c d : ℝ) : Except PyErr CubicRoots :=
  if a = 0 then .ok (.quadratic (quadraticRoot b c d)) else (cubicRootSympy realRoots a b c d).map .list

/-- `fifth_root_sympy(a, b, c, d, e, f)` (Root.py:110-113). -/
def fifthRootSympy (realRoots : RealRoots) (a b c d e f : ℝ) : Except PyErr (List ℝ) := realRoots [a, b, c, d, e, f]

/-- `fifth_root_normalised(a, b, c, d, e)` (Root.py:117-120). -/
def fifthRootNormalised (realRoots : RealRoots) (a b c d e : ℝ) : Except PyErr (List ℝ) := realRoots [1, a, b, c, d, e]

open Classical in
/-- `fifth_root(*args)` (Root.py:124-130): without argument `args[0]` raises `IndexError`; another number of arguments than six is refused
(`TypeError`) by the functions it calls. -/
def fifthRoot (realRoots : RealRoots) (args : List ℝ) : Except PyErr (List ℝ) :=
  match args with
  | [] => .error .indexError
  | a :: rest =>
    if a = 0 then
      match rest with
      | [b, c, d, e, f] => fifthRootSympy realRoots a b c d e f
      | _ => .error .typeError
    else
      match rest.map (fun x => x / a) with
      | [b, c, d, e, f] => fifthRootNormalised realRoots b c d e f
      | _ => .error .typeError

/-- `math.sqrt`. -/
def pySqrt (x : ℝ) : Except PyErr ℝ := open Classical in if x < 0 then .error .valueError else .ok (Real.sqrt x)

open Classical in
/-- `cubic_root_normalised(a, b, c)` (Root.py:134-159), the second function with this name, which replaces the first one. `x**1/3` is the third
of `x`. Both square roots are taken before the cases are distinguished. -/
def cubicRootNormalised (a b c : ℝ) : Except PyErr (List ℝ) := do
  let q := (a ^ 2 - 3 * b) / 9
  let q3 := q ^ 3
  let rootQ ← pySqrt q
  let m2sqrtQ := -2 * rootQ
  let r := (2 * a ^ 3 - 9 * a * b + 27 * c) / 54
  let r2 := r ^ 2
  let root ← pySqrt (r2 - q3)
  let d := -sign r * ((|r| + root) ^ 1 / 3)
  let e := if d = 0 then 0 else q / d
  if r2 < q3 then do
    let rootQ3 ← pySqrt q3
    let t := Real.arccos (r / rootQ3)
    return [m2sqrtQ * Real.cos (t / 3) - a / 3, m2sqrtQ * Real.cos ((t + 2 * Real.pi) / 3) - a / 3,
      m2sqrtQ * Real.cos ((t - 2 * Real.pi) / 3) - a / 3]
  else return [d + e - a / 3]

end

end Patro.Roots
