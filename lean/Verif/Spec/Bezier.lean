import Verif.Model.Bezier
import Verif.Spec.Line
import Mathlib.Analysis.Calculus.Deriv.Basic
import Mathlib.MeasureTheory.Integral.IntervalIntegral.Basic
/-! # Specification for Bezier curves: Bernstein polynomials, derivatives and integrals -/

namespace Patro.Bezier

section Field

variable {K : Type _} [Field K]

/-- The point of the quadratic curve with the given control points, by Bernstein polynomials. -/
def bernstein2 (p0 p1 p2 : Vec K) (t : K) : Vec K :=
  ⟨(1 - t) ^ 2 * p0.x + 2 * (1 - t) * t * p1.x + t ^ 2 * p2.x, (1 - t) ^ 2 * p0.y + 2 * (1 - t) * t * p1.y + t ^ 2 * p2.y⟩

/-- The point of the cubic curve with the given control points, by Bernstein polynomials. -/
def bernstein3 (p0 p1 p2 p3 : Vec K) (t : K) : Vec K :=
  ⟨(1 - t) ^ 3 * p0.x + 3 * (1 - t) ^ 2 * t * p1.x + 3 * (1 - t) * t ^ 2 * p2.x + t ^ 3 * p3.x,
    (1 - t) ^ 3 * p0.y + 3 * (1 - t) ^ 2 * t * p1.y + 3 * (1 - t) * t ^ 2 * p2.y + t ^ 3 * p3.y⟩

/-- `q` is a convex combination of the points of the list. -/
def InHull [LE K] (ps : List (Vec K)) (q : Vec K) : Prop :=
  ∃ ws : List K, ws.length = ps.length ∧ (∀ w ∈ ws, 0 ≤ w) ∧ ws.sum = 1 ∧
    q = ⟨(List.zipWith (fun w p => w * p.x) ws ps).sum, (List.zipWith (fun w p => w * p.y) ws ps).sum⟩

end Field

/-- The velocity of a curve: `v` is its derivative at `t`. -/
def HasVelocity (f : ℝ → Vec ℝ) (v : Vec ℝ) (t : ℝ) : Prop :=
  HasDerivAt (fun t => (f t).x) v.x t ∧ HasDerivAt (fun t => (f t).y) v.y t

/-- The length of a curve between the parameters `a` and `b`: the integral of its speed. -/
noncomputable def arcLength (f : ℝ → Vec ℝ) (a b : ℝ) : ℝ :=
  ∫ t in a..b, Real.sqrt (deriv (fun t => (f t).x) t ^ 2 + deriv (fun t => (f t).y) t ^ 2)

/-- The signed area swept by the radius from `o` to the point of a curve between the parameters `a` and `b`. -/
noncomputable def sweptArea (o : Vec ℝ) (f : ℝ → Vec ℝ) (a b : ℝ) : ℝ :=
  ∫ t in a..b, (((f t).x - o.x) * deriv (fun t => (f t).y) t - ((f t).y - o.y) * deriv (fun t => (f t).x) t) / 2

/-- The curve `g` on `[0, 1]` is the curve `f` from the parameter `a` to the parameter `b`. -/
def IsPart {K : Type _} [Field K] (f g : K → Vec K) (a b : K) : Prop := ∀ s, g s = f (a + s * (b - a))

/-- The curves `gs`, one after the other, are the curve `f` from the parameter `a` to the parameter `b`. -/
def Covers (f : ℝ → Vec ℝ) : List (ℝ → Vec ℝ) → ℝ → ℝ → Prop
  | [], a, b => a = b
  | g :: gs, a, b => ∃ m, a < m ∧ m ≤ b ∧ IsPart f g a m ∧ Covers f gs m b

/-- `realRoots` gives the real roots of the polynomials that are not null, given by their coefficients from the highest degree. -/
def RootsOf (realRoots : List ℝ → Except PyErr (List ℝ)) : Prop :=
  ∀ cs : List ℝ, (∃ c ∈ cs, c ≠ 0) → ∃ l, realRoots cs = .ok l ∧ ∀ x, x ∈ l ↔ cs.foldl (fun acc c => acc * x + c) 0 = 0

end Patro.Bezier
