import Verif.Model.Roots
/-! # Specification of the roots of polynomials -/

namespace Patro.Roots

/-- The value at `x` of the polynomial with these coefficients, highest degree first. -/
def value (coefficients : List ℝ) (x : ℝ) : ℝ := coefficients.foldl (fun v c => v * x + c) 0

/-- The assumption on `sympy.real_roots`: for a polynomial that is not constant it gives its real roots and nothing else. -/
def Exact (realRoots : RealRoots) : Prop :=
  ∀ coefficients : List ℝ, (∃ c ∈ coefficients.dropLast, c ≠ 0) →
    ∃ l, realRoots coefficients = .ok l ∧ ∀ x, x ∈ l ↔ value coefficients x = 0

end Patro.Roots
