import Verif.Props.Spline
import Verif.Model.UniformSpline
import Mathlib.Tactic.IntervalCases
/-! # C253: cubic uniform splines are B-splines -/

namespace Patro.Spline

variable {K : Type} [Field K] [LinearOrder K] [IsStrictOrderedRing K] [FloorRing K]

omit [FloorRing K] in
theorem integer_basis (t : K) (h0 : 0 ≤ t) (h1 : t < 1) (u : Nat → K) (hu : ∀ i, i ≤ 7 → u i = i) :
    N u 3 0 (3 + t) = (1 - t) ^ 3 / 6 ∧ N u 3 1 (3 + t) = (3 * t ^ 3 - 6 * t ^ 2 + 4) / 6 ∧
    N u 3 2 (3 + t) = (-3 * t ^ 3 + 3 * t ^ 2 + 3 * t + 1) / 6 ∧ N u 3 3 (3 + t) = t ^ 3 / 6 := by
  have e0 : u 0 = 0 := by simpa using hu 0 (by omega)
  have e1 : u 1 = 1 := by simpa using hu 1 (by omega)
  have e2 : u 2 = 2 := by simpa using hu 2 (by omega)
  have e3 : u 3 = 3 := by simpa using hu 3 (by omega)
  have e4 : u 4 = 4 := by simpa using hu 4 (by omega)
  have e5 : u 5 = 5 := by simpa using hu 5 (by omega)
  have e6 : u 6 = 6 := by simpa using hu 6 (by omega)
  have e7 : u 7 = 7 := by simpa using hu 7 (by omega)
  have n0 : N u 0 0 (3 + t) = 0 := by rw [N, if_neg]; rintro ⟨-, h⟩; rw [e1] at h; linarith
  have n1 : N u 0 1 (3 + t) = 0 := by rw [N, if_neg]; rintro ⟨-, h⟩; rw [e2] at h; linarith
  have n2 : N u 0 2 (3 + t) = 0 := by rw [N, if_neg]; rintro ⟨-, h⟩; rw [e3] at h; linarith
  have n3 : N u 0 3 (3 + t) = 1 := by rw [N, if_pos]; rw [e3, e4]; constructor <;> linarith
  have n4 : N u 0 4 (3 + t) = 0 := by rw [N, if_neg]; rintro ⟨h, -⟩; rw [e4] at h; linarith
  have n5 : N u 0 5 (3 + t) = 0 := by rw [N, if_neg]; rintro ⟨h, -⟩; rw [e5] at h; linarith
  have n6 : N u 0 6 (3 + t) = 0 := by rw [N, if_neg]; rintro ⟨h, -⟩; rw [e6] at h; linarith
  have m0 : N u 1 0 (3 + t) = 0 := by rw [N]; simp [n0, n1]
  have m1 : N u 1 1 (3 + t) = 0 := by rw [N]; simp [n1, n2]
  have m2 : N u 1 2 (3 + t) = 1 - t := by rw [N]; norm_num [n2, n3, e3, e4]; ring
  have m3 : N u 1 3 (3 + t) = t := by rw [N]; norm_num [n3, n4, e3, e4]
  have m4 : N u 1 4 (3 + t) = 0 := by rw [N]; simp [n4, n5]
  have m5 : N u 1 5 (3 + t) = 0 := by rw [N]; simp [n5, n6]
  have q0 : N u 2 0 (3 + t) = 0 := by rw [N]; simp [m0, m1]
  have q1 : N u 2 1 (3 + t) = (1 - t) ^ 2 / 2 := by rw [N]; norm_num [m1, m2, e2, e4]; ring
  have q2 : N u 2 2 (3 + t) = (1 + 2 * t - 2 * t ^ 2) / 2 := by rw [N]; norm_num [m2, m3, e2, e3, e4, e5]; ring
  have q3 : N u 2 3 (3 + t) = t ^ 2 / 2 := by rw [N]; norm_num [m3, m4, e3, e5]; ring
  have q4 : N u 2 4 (3 + t) = 0 := by rw [N]; simp [m4, m5]
  refine ⟨?_, ?_, ?_, ?_⟩
  · rw [N]; norm_num [q0, q1, e1, e4]; ring
  · rw [N]; norm_num [q1, q2, e1, e2, e4, e5]; ring
  · rw [N]; norm_num [q2, q3, e2, e3, e5, e6]; ring
  · rw [N]; norm_num [q3, q4, e3, e6]; ring

/-- C253, what holds: a cubic uniform spline is the piece from 3 to 4 of the B-spline of degree 3 with the same control points and the knots 0, 1, …, 7. -/
theorem cubicSpline_bspline (p0 p1 p2 p3 : Vec K) (t : K) (h0 : 0 ≤ t) (h1 : t < 1) :
    ∃ s, BSpline.new [p0, p1, p2, p3] 3 false (some [0, 1, 2, 3, 4, 5, 6, 7]) = .ok s ∧
      s.pointAt (3 + t) = .ok ((⟨p0, p1, p2, p3⟩ : Bezier.CubicSpline K).pointAt t) := by
  refine ⟨⟨[p0, p1, p2, p3], 3, false, [0, 1, 2, 3, 4, 5, 6, 7], false⟩, ?_, ?_⟩
  · rw [BSpline.new, if_pos]; norm_num
  · have hu : ∀ i, i ≤ 7 → knotAt ([0, 1, 2, 3, 4, 5, 6, 7] : List K) i = i := by
      intro i hi
      interval_cases i <;> simp [knotAt]
    rw [pointAt_curve _ ⟨⟨by norm_num, rfl, by simp⟩, fun h => absurd h (by simp)⟩ _ ?_]
    · obtain ⟨b0, b1, b2, b3⟩ := integer_basis t h0 h1 _ hu
      congr 1
      ext <;> simp [curve, weighted, Finset.sum_range_succ, b0, b1, b2, b3, Bezier.CubicSpline.pointAt, Vec.sdiv, Vec.smul] <;> ring
    · constructor <;> dsimp only
      · rw [hu 3 (by omega)]; push_cast; linarith
      · rw [show [p0, p1, p2, p3].length = 4 from rfl, hu 4 (by omega)]; push_cast; linarith

example : (⟨[⟨0, 0⟩, ⟨1, 2⟩, ⟨3, 2⟩, ⟨4, 0⟩], 3, false, [0, 1, 2, 3, 4, 5, 6, 7], false⟩ : BSpline Rat).pointAt (7 / 2) = .ok ⟨2, 23 / 12⟩ := by
  decide +kernel

end Patro.Spline
