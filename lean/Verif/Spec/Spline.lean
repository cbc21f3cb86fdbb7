import Verif.Model.Spline
import Mathlib.Algebra.BigOperators.Group.Finset.Basic
/-! # Specification for B-splines: the Cox–de Boor basis and the curve as a weighted sum of control points -/

namespace Patro.Spline

variable {K : Type _} [Field K] [LinearOrder K]

/-- The knot of index `i` of a knot vector; beyond the last one, the last one. -/
def knotAt (knots : List K) (i : Nat) : K := knots.getD i (knots.getLastD 0)

/-- The B-spline basis functions of a sequence of knots, by the recursion of Cox and de Boor. -/
def N (u : Nat → K) : Nat → Nat → K → K
  | 0, i, t => if u i ≤ t ∧ t < u (i + 1) then 1 else 0
  | k + 1, i, t =>
    (if u (i + k + 1) = u i then 0 else (t - u i) / (u (i + k + 1) - u i) * N u k i t) +
    (if u (i + k + 2) = u (i + 1) then 0 else (u (i + k + 2) - t) / (u (i + k + 2) - u (i + 1)) * N u k (i + 1) t)

/-- The sum of the coefficients weighted by the basis functions. -/
def weighted (u : Nat → K) (p : Nat) (c : List K) (t : K) : K := ∑ i ∈ Finset.range c.length, c.getD i 0 * N u p i t

/-- The B-spline curve of the given knots, degree and control points. -/
def curve (knots : List K) (p : Nat) (points : List (Vec K)) (t : K) : Vec K :=
  ⟨weighted (knotAt knots) p (points.map Vec.x) t, weighted (knotAt knots) p (points.map Vec.y) t⟩

/-- A well formed spline: non-decreasing knots, one more than the number of points and the degree, and at least `degree + 1` points. -/
structure WellFormed (s : BSpline K) : Prop where
  sorted : s.knots.Pairwise (· ≤ ·)
  length : s.knots.length = s.points.length + s.degree + 1
  points : s.degree + 1 ≤ s.points.length

/-- A spline made by the constructor without knots. -/
def IsUniform (s : BSpline K) : Prop := s.uniform = true ∧ BSpline.new s.points s.degree s.closed = .ok s

/-- A well formed spline made by the constructor, with or without knots. -/
def Valid (s : BSpline K) : Prop := WellFormed s ∧ (s.uniform = true → IsUniform s)

/-- A parameter at which the curve of a spline with given knots is defined: from the knot of index `degree` to the one of index the
number of points, excluded. -/
def InRange (s : BSpline K) (t : K) : Prop := knotAt s.knots s.degree ≤ t ∧ t < knotAt s.knots s.points.length

end Patro.Spline
