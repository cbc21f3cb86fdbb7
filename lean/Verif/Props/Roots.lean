import Verif.Spec.Roots
import Verif.Props.MathFunctions
import Mathlib.Algebra.Polynomial.Roots
/-! # Properties of the roots of polynomials: C195 -/

namespace Patro.Roots

open MathFunctions (Roots quadraticRoot sign)

/-- C195. `fifth_root` gives the real roots of every polynomial of degree 1 to 5, and nothing else, if sympy gives those of its argument. -/
theorem fifthRoot_exact (realRoots : RealRoots) (hr : Exact realRoots) (a b c d e f : ℝ) (h : ¬ (a = 0 ∧ b = 0 ∧ c = 0 ∧ d = 0 ∧ e = 0)) :
    ∃ l, fifthRoot realRoots [a, b, c, d, e, f] = .ok l ∧
      ∀ x, x ∈ l ↔ a * x ^ 5 + b * x ^ 4 + c * x ^ 3 + d * x ^ 2 + e * x + f = 0 := by
  unfold fifthRoot
  by_cases ha : a = 0
  · simp only [ha, if_true]
    obtain ⟨l, h1, h2⟩ := hr [0, b, c, d, e, f] (by
      by_contra hc
      push Not at hc
      simp at hc
      exact h ⟨ha, hc.1, hc.2.1, hc.2.2.1, hc.2.2.2⟩)
    refine ⟨l, h1, fun x => ?_⟩
    rw [h2, ← sub_eq_zero (a := value _ x), ← sub_eq_zero (a := 0 * x ^ 5 + _ + _ + _ + _ + _)]
    simp only [value, List.foldl]
    ring_nf
  · simp only [if_neg ha, List.map_cons, List.map_nil]
    obtain ⟨l, h1, h2⟩ := hr [1, b / a, c / a, d / a, e / a, f / a] ⟨1, by simp, one_ne_zero⟩
    refine ⟨l, h1, fun x => ?_⟩
    rw [h2]
    have : a * x ^ 5 + b * x ^ 4 + c * x ^ 3 + d * x ^ 2 + e * x + f = a * value [1, b / a, c / a, d / a, e / a, f / a] x := by
      simp only [value, List.foldl]
      field_simp
      ring
    rw [this, mul_eq_zero, or_iff_right ha]

/-- C195. Another number of coefficients is refused. -/
theorem fifthRoot_arguments (realRoots : RealRoots) (args : List ℝ) (h : args.length ≠ 6) :
    ∃ e, fifthRoot realRoots args = .error e := by
  unfold fifthRoot
  cases args with
  | nil => exact ⟨_, rfl⟩
  | cons a rest =>
    simp only
    split_ifs
    · split
      · exact absurd rfl h
      · exact ⟨_, rfl⟩
    · split
      · rename_i h'
        have := congrArg List.length h'
        simp at this
        exact absurd (by simp [this]) h
      · exact ⟨_, rfl⟩

/-- C195. `cubic_root` gives the real roots of every polynomial of degree 1 to 3, and nothing else. -/
theorem cubicRoot_exact (realRoots : RealRoots) (hr : Exact realRoots) (a b c d : ℝ) (h : ¬ (a = 0 ∧ b = 0 ∧ c = 0)) :
    ∃ r, cubicRoot realRoots a b c d = .ok r ∧ ∀ x, x ∈ r.toList ↔ a * x ^ 3 + b * x ^ 2 + c * x + d = 0 := by
  unfold cubicRoot
  by_cases ha : a = 0
  · refine ⟨_, if_pos ha, fun x => ?_⟩
    rw [CubicRoots.toList, MathFunctions.quadraticRoot_exact b c d (fun hc => h ⟨ha, hc⟩) x, ha]
    ring_nf
  · obtain ⟨l, h1, h2⟩ := hr [a, b, c, d] ⟨a, by simp, ha⟩
    refine ⟨.list l, ?_, fun x => ?_⟩
    · rw [if_neg ha, cubicRootSympy, h1]; rfl
    · rw [CubicRoots.toList, h2, ← sub_eq_zero (a := value _ x), ← sub_eq_zero (a := a * x ^ 3 + _ + _ + _)]
      simp only [value, List.foldl]
      ring_nf

/-- C195. The only polynomial whose roots are not those of the result is a constant: `None` is returned for the null one too. -/
theorem cubicRoot_constant (realRoots : RealRoots) (d : ℝ) : ∃ r, cubicRoot realRoots 0 0 0 d = .ok r ∧ r.toList = [] := by
  refine ⟨_, if_pos rfl, ?_⟩
  rw [CubicRoots.toList, quadraticRoot, if_pos ⟨rfl, rfl⟩]
  rfl

/-- C195 fails for `cubic_root_normalised`: it raises `ValueError` for every cubic with three different real roots, and for every cubic whose
derivative never vanishes. -/
theorem cubicRootNormalised_raises_wrong (a b c : ℝ) :
    (∀ x1 x2 x3 : ℝ, x1 ≠ x2 → x2 ≠ x3 → x1 ≠ x3 → (∀ x, x ^ 3 + a * x ^ 2 + b * x + c = (x - x1) * (x - x2) * (x - x3)) →
      cubicRootNormalised a b c = .error .valueError) ∧
    ((∀ x : ℝ, 3 * x ^ 2 + 2 * a * x + b ≠ 0) → cubicRootNormalised a b c = .error .valueError) := by
  constructor
  · intro x1 x2 x3 h12 h23 h13 h
    have e0 := h 0
    have e1 := h 1
    have e2 := h (-1)
    have ha : a = -(x1 + x2 + x3) := by linarith
    have hb : b = x1 * x2 + x2 * x3 + x1 * x3 := by linarith
    have hc : c = -(x1 * x2 * x3) := by linarith
    have hlt : ((2 * a ^ 3 - 9 * a * b + 27 * c) / 54) ^ 2 - ((a ^ 2 - 3 * b) / 9) ^ 3 < 0 := by
      have e : ((2 * a ^ 3 - 9 * a * b + 27 * c) / 54) ^ 2 - ((a ^ 2 - 3 * b) / 9) ^ 3 =
          -(((x1 - x2) * (x2 - x3) * (x1 - x3)) ^ 2 / 108) := by
        rw [ha, hb, hc]; ring
      rw [e]
      have : (x1 - x2) * (x2 - x3) * (x1 - x3) ≠ 0 :=
        mul_ne_zero (mul_ne_zero (sub_ne_zero.2 h12) (sub_ne_zero.2 h23)) (sub_ne_zero.2 h13)
      have : 0 < ((x1 - x2) * (x2 - x3) * (x1 - x3)) ^ 2 := by positivity
      linarith
    unfold cubicRootNormalised
    by_cases hq : (a ^ 2 - 3 * b) / 9 < 0
    · simp only [pySqrt, if_pos hq, bind, Except.bind]
    · simp only [pySqrt, if_neg hq, if_pos hlt, bind, Except.bind]
  · intro h
    have hq : (a ^ 2 - 3 * b) / 9 < 0 := by
      by_contra hc
      have hD : 0 ≤ a ^ 2 - 3 * b := by linarith [not_lt.1 hc]
      have hs := Real.sq_sqrt hD
      apply h ((-a + Real.sqrt (a ^ 2 - 3 * b)) / 3)
      linear_combination hs / 3
    unfold cubicRootNormalised
    simp only [pySqrt, if_pos hq, bind, Except.bind]

/-- C195 fails for `cubic_root_normalised`: for the cubics (x + k)³ = m it gives m / 3 - k, which is the root only when m is 0 or
a root of 27. -/
theorem cubicRootNormalised_cube_wrong (k m : ℝ) :
    cubicRootNormalised (3 * k) (3 * k ^ 2) (k ^ 3 - m) = .ok [m / 3 - k] ∧
    (∀ x, x ^ 3 + 3 * k * x ^ 2 + 3 * k ^ 2 * x + (k ^ 3 - m) = (x + k) ^ 3 - m) ∧
    ((m / 3 - k + k) ^ 3 - m = 0 ↔ m = 0 ∨ m ^ 2 = 27) := by
  refine ⟨?_, fun x => by ring, ?_⟩
  · have hq : ((3 * k) ^ 2 - 3 * (3 * k ^ 2)) / 9 = 0 := by ring
    have hr : (2 * (3 * k) ^ 3 - 9 * (3 * k) * (3 * k ^ 2) + 27 * (k ^ 3 - m)) / 54 = -m / 2 := by ring
    unfold cubicRootNormalised
    simp only [hq, hr]
    have h0 : ¬ (-m / 2) ^ 2 - 0 ^ 3 < 0 := by
      have := sq_nonneg (-m / 2)
      linarith
    have hroot : Real.sqrt ((-m / 2) ^ 2 - 0 ^ 3) = |m| / 2 := by
      rw [show (-m / 2) ^ 2 - 0 ^ 3 = (m / 2) ^ 2 by ring, Real.sqrt_sq_eq_abs, abs_div, abs_two]
    have hlt : ¬ (-m / 2) ^ 2 < 0 ^ 3 := by
      have := sq_nonneg (-m / 2)
      linarith
    simp only [pySqrt, if_neg (lt_irrefl (0 : ℝ)), if_neg h0, if_neg hlt, bind, Except.bind, pure, Except.pure, hroot, zero_div, ite_self]
    have hs : -sign (-m / 2) * ((|-m / 2| + |m| / 2) ^ 1 / 3) = m / 3 := by
      rw [abs_div, abs_neg, abs_two]
      unfold sign
      split_ifs with h
      · rw [abs_of_nonpos (by linarith)]; ring
      · rw [abs_of_nonneg (by linarith)]; ring
    rw [hs]
    congr 2
    ring
  · have : (m / 3 - k + k) ^ 3 - m = m * (m ^ 2 - 27) / 27 := by ring
    rw [this, div_eq_zero_iff, mul_eq_zero, sub_eq_zero]
    norm_num

/-- The cubic (x - 1)(x - 2)(x - 3) raises; x³ = 8 has the root 2, the result is 8/3. -/
example : cubicRootNormalised (-6) 11 (-6) = .error .valueError ∧ cubicRootNormalised 0 0 (-8) = .ok [8 / 3] := by
  constructor
  · exact (cubicRootNormalised_raises_wrong _ _ _).1 1 2 3 (by norm_num) (by norm_num) (by norm_num) fun x => by ring
  · have := (cubicRootNormalised_cube_wrong 0 8).1
    norm_num at this
    exact this

open Polynomial in
theorem finite_roots (coefficients : List ℝ) (h : ∃ c ∈ coefficients.dropLast, c ≠ 0) : ∃ l : List ℝ, ∀ x, x ∈ l ↔ value coefficients x = 0 := by
  classical
  have null : ∀ (l : List ℝ) (p : ℝ[X]), l.foldl (fun v c => v * X + C c) p = 0 → p = 0 ∧ ∀ c ∈ l, c = 0 := by
    intro l
    induction l with
    | nil => intro p h; exact ⟨h, by simp⟩
    | cons c l ih =>
      intro p h
      obtain ⟨h1, h2⟩ := ih _ h
      have hc : c = 0 := by
        have := congrArg (fun q => q.coeff 0) h1
        simpa using this
      have hp : p = 0 := by
        simp only [hc, C_0, add_zero] at h1
        exact (mul_eq_zero.1 h1).resolve_right X_ne_zero
      refine ⟨hp, ?_⟩
      simp only [List.mem_cons, forall_eq_or_imp]
      exact ⟨hc, h2⟩
  have ev : ∀ (l : List ℝ) (p : ℝ[X]) (x : ℝ), (l.foldl (fun v c => v * X + C c) p).eval x = l.foldl (fun v c => v * x + c) (p.eval x) := by
    intro l
    induction l with
    | nil => intro p x; rfl
    | cons c l ih => intro p x; simp only [List.foldl_cons, ih]; simp
  have hne : coefficients.foldl (fun v c => v * X + C c) (0 : ℝ[X]) ≠ 0 := by
    intro h0
    obtain ⟨c, hc, hc0⟩ := h
    exact hc0 ((null _ _ h0).2 c (List.mem_of_mem_dropLast hc))
  refine ⟨(coefficients.foldl (fun v c => v * X + C c) (0 : ℝ[X])).roots.toList, fun x => ?_⟩
  rw [Multiset.mem_toList, mem_roots hne, IsRoot, ev]
  simp [value]

/-- The assumption on sympy can be met. -/
example : ∃ realRoots, Exact realRoots := by
  classical
  refine ⟨fun l => if h : ∃ c ∈ l.dropLast, c ≠ 0 then .ok (Classical.choose (finite_roots l h)) else .error .valueError, fun l h => ?_⟩
  exact ⟨_, dif_pos h, Classical.choose_spec (finite_roots l h)⟩

end Patro.Roots
