import Verif.Model.UniformSpline
import Mathlib.Analysis.Calculus.Deriv.Pow
import Mathlib.Analysis.Calculus.Deriv.Mul
import Mathlib.Analysis.Calculus.Deriv.Add
import Mathlib.Tactic.Linarith
import Mathlib.Tactic.Positivity
/-! # C253: the segments of uniform splines join smoothly and stay among their control points -/

namespace Patro.Bezier

/-- C253, what holds: between 0 and 1 a cubic uniform spline is in every half plane that contains its four control points: it is in their convex hull. -/
theorem cubicSpline_hull {K : Type} [Field K] [LinearOrder K] [IsStrictOrderedRing K] (s : CubicSpline K) (t : K) (h0 : 0 ≤ t) (h1 : t ≤ 1) (a b c : K)
    (h : ∀ p ∈ [s.p0, s.p1, s.p2, s.p3], a * p.x + b * p.y ≤ c) : a * (s.pointAt t).x + b * (s.pointAt t).y ≤ c := by
  have hu : 0 ≤ 1 - t := sub_nonneg.2 h1
  have w0 : 0 ≤ (1 - t) ^ 3 / 6 := by positivity
  have w3 : 0 ≤ t ^ 3 / 6 := by positivity
  have w1 : 0 ≤ (3 * t ^ 3 - 6 * t ^ 2 + 4) / 6 := by
    have : 3 * t ^ 3 - 6 * t ^ 2 + 4 = 3 * t * (1 - t) ^ 2 + (1 - t) * 3 + 1 := by ring
    rw [this]; positivity
  have w2 : 0 ≤ (-3 * t ^ 3 + 3 * t ^ 2 + 3 * t + 1) / 6 := by
    have : -3 * t ^ 3 + 3 * t ^ 2 + 3 * t + 1 = 3 * t ^ 2 * (1 - t) + 3 * t + 1 := by ring
    rw [this]; positivity
  have e0 := mul_le_mul_of_nonneg_left (h s.p0 (by simp)) w0
  have e1 := mul_le_mul_of_nonneg_left (h s.p1 (by simp)) w1
  have e2 := mul_le_mul_of_nonneg_left (h s.p2 (by simp)) w2
  have e3 := mul_le_mul_of_nonneg_left (h s.p3 (by simp)) w3
  have : a * (s.pointAt t).x + b * (s.pointAt t).y =
      (1 - t) ^ 3 / 6 * (a * s.p0.x + b * s.p0.y) + (3 * t ^ 3 - 6 * t ^ 2 + 4) / 6 * (a * s.p1.x + b * s.p1.y) +
      (-3 * t ^ 3 + 3 * t ^ 2 + 3 * t + 1) / 6 * (a * s.p2.x + b * s.p2.y) + t ^ 3 / 6 * (a * s.p3.x + b * s.p3.y) := by
    simp [CubicSpline.pointAt, Vec.sdiv, Vec.smul]; ring
  rw [this]
  linarith

/-- C253, what holds: an affine transformation of the control points of a cubic uniform spline gives the image of the curve, at every parameter. -/
theorem cubicSpline_affine {K : Type} [Field K] [CharZero K] (s : CubicSpline K) (g : Vec K → Vec K) (a b c d e f : K)
    (hg : ∀ p, g p = ⟨a * p.x + b * p.y + e, c * p.x + d * p.y + f⟩) (t : K) :
    (⟨g s.p0, g s.p1, g s.p2, g s.p3⟩ : CubicSpline K).pointAt t = g (s.pointAt t) := by
  simp only [hg]
  ext <;> simp [CubicSpline.pointAt, Vec.sdiv, Vec.smul] <;> ring

theorem cubic_derivatives (a b c d : ℝ) :
    deriv (fun t : ℝ => a + b * t + c * t ^ 2 + d * t ^ 3) = (fun t => b + 2 * c * t + 3 * d * t ^ 2) ∧
    deriv (deriv fun t : ℝ => a + b * t + c * t ^ 2 + d * t ^ 3) = (fun t => 2 * c + 6 * d * t) := by
  have h1 : deriv (fun t : ℝ => a + b * t + c * t ^ 2 + d * t ^ 3) = fun t => b + 2 * c * t + 3 * d * t ^ 2 := by
    funext t
    have := ((((hasDerivAt_const t a).add ((hasDerivAt_id t).const_mul b)).add ((hasDerivAt_pow 2 t).const_mul c)).add
      ((hasDerivAt_pow 3 t).const_mul d)).deriv
    refine Eq.trans ?_ (this.trans ?_)
    · rfl
    · norm_num; ring
  refine ⟨h1, ?_⟩
  rw [h1]
  funext t
  have := (((hasDerivAt_const t b).add ((hasDerivAt_id t).const_mul (2 * c))).add ((hasDerivAt_pow 2 t).const_mul (3 * d))).deriv
  refine Eq.trans ?_ (this.trans ?_)
  · rfl
  · norm_num; ring

theorem cubicSpline_x (s : CubicSpline ℝ) : (fun t => (s.pointAt t).x) = fun t =>
    (s.p0.x / 6 + s.p1.x * 2 / 3 + s.p2.x / 6) + (-s.p0.x / 2 + s.p2.x / 2) * t + (s.p0.x / 2 - s.p1.x + s.p2.x / 2) * t ^ 2 +
      (-s.p0.x / 6 + s.p1.x / 2 - s.p2.x / 2 + s.p3.x / 6) * t ^ 3 := by
  funext t; simp [CubicSpline.pointAt, Vec.sdiv, Vec.smul]; ring

theorem cubicSpline_y (s : CubicSpline ℝ) : (fun t => (s.pointAt t).y) = fun t =>
    (s.p0.y / 6 + s.p1.y * 2 / 3 + s.p2.y / 6) + (-s.p0.y / 2 + s.p2.y / 2) * t + (s.p0.y / 2 - s.p1.y + s.p2.y / 2) * t ^ 2 +
      (-s.p0.y / 6 + s.p1.y / 2 - s.p2.y / 2 + s.p3.y / 6) * t ^ 3 := by
  funext t; simp [CubicSpline.pointAt, Vec.sdiv, Vec.smul]; ring

/-- C253, what holds: two cubic uniform splines that share three control points follow each other with the same point, the same velocity and the same
acceleration. Missing: the quadratic ones, `quadSpline_wrong`. -/
theorem cubicSpline_join_partial (p0 p1 p2 p3 p4 : Vec ℝ) :
    let s : CubicSpline ℝ := ⟨p0, p1, p2, p3⟩
    let r : CubicSpline ℝ := ⟨p1, p2, p3, p4⟩
    s.pointAt 1 = r.pointAt 0 ∧
    (∀ c ∈ [Vec.x, Vec.y], deriv (fun t => c (s.pointAt t)) 1 = deriv (fun t => c (r.pointAt t)) 0 ∧
      deriv (deriv fun t => c (s.pointAt t)) 1 = deriv (deriv fun t => c (r.pointAt t)) 0) := by
  intro s r
  refine ⟨by ext <;> simp [s, r, CubicSpline.pointAt, Vec.sdiv, Vec.smul] <;> ring, ?_⟩
  intro c hc
  simp only [List.mem_cons, List.not_mem_nil, or_false] at hc
  rcases hc with rfl | rfl
  · rw [cubicSpline_x, cubicSpline_x, (cubic_derivatives _ _ _ _).2, (cubic_derivatives _ _ _ _).2, (cubic_derivatives _ _ _ _).1,
      (cubic_derivatives _ _ _ _).1]
    constructor <;> simp only [s, r] <;> ring
  · rw [cubicSpline_y, cubicSpline_y, (cubic_derivatives _ _ _ _).2, (cubic_derivatives _ _ _ _).2, (cubic_derivatives _ _ _ _).1,
      (cubic_derivatives _ _ _ _).1]
    constructor <;> simp only [s, r] <;> ring

/-- The quadratic uniform B-spline of three control points. -/
def quadUniform {K : Type} [Field K] (p0 p1 p2 : Vec K) (t : K) : Vec K :=
  ⟨(1 - t) ^ 2 / 2 * p0.x + (1 / 2 + t - t ^ 2) * p1.x + t ^ 2 / 2 * p2.x, (1 - t) ^ 2 / 2 * p0.y + (1 / 2 + t - t ^ 2) * p1.y + t ^ 2 / 2 * p2.y⟩

/-- C253, exactly: the control points of the Bezier curve that a quadratic uniform spline is converted to. -/
theorem quadSpline_toBezier {K : Type} [Field K] (s : QuadSpline K) : s.toBezier =
    ⟨⟨-s.p0.x - 2 * s.p1.x - s.p2.x, -s.p0.y - 2 * s.p1.y - s.p2.y⟩, ⟨6 * s.p0.x - 3 * s.p1.x - s.p2.x, 6 * s.p0.y - 3 * s.p1.y - s.p2.y⟩,
      ⟨-6 * s.p0.x + 4 * s.p1.x - 2 * s.p2.x, -6 * s.p0.y + 4 * s.p1.y - 2 * s.p2.y⟩⟩ := by
  simp [QuadSpline.toBezier, pointArray3, quadSplineBasis, quadInverseBasis, Matrix.mul_apply, Fin.sum_univ_succ]
  refine ⟨⟨?_, ?_⟩, ⟨?_, ?_⟩, ?_, ?_⟩ <;> ring

/-- C253 is false of every quadratic uniform spline: it has no point at any parameter, and the Bezier curve it is converted to is the quadratic uniform
B-spline of its control points only when these are all at the origin. -/
theorem quadSpline_wrong {K : Type} [Field K] [LinearOrder K] [IsStrictOrderedRing K] (s : QuadSpline K) :
    (∀ t, s.pointAt t = .error .attributeError) ∧
    ((∀ t, s.toBezier.pointAt t = quadUniform s.p0 s.p1 s.p2 t) ↔ s.p0 = ⟨0, 0⟩ ∧ s.p1 = ⟨0, 0⟩ ∧ s.p2 = ⟨0, 0⟩) := by
  refine ⟨fun _ => rfl, fun h => ?_, fun ⟨h0, h1, h2⟩ t => ?_⟩
  · have e0 := h 0
    have e1 := h 1
    have e2 := h (-1)
    rw [quadSpline_toBezier] at e0 e1 e2
    simp only [Quad.pointAt, quadUniform, Vec.ext_iff, Vec.add_x, Vec.add_y, Vec.smul] at e0 e1 e2
    obtain ⟨x0, y0⟩ := e0
    obtain ⟨x1, y1⟩ := e1
    obtain ⟨x2, y2⟩ := e2
    refine ⟨Vec.ext ?_ ?_, Vec.ext ?_ ?_, Vec.ext ?_ ?_⟩ <;> dsimp only <;> linarith
  · rw [quadSpline_toBezier, h0, h1, h2]
    ext <;> simp [Quad.pointAt, quadUniform, Vec.smul]

example : ((⟨⟨0, 0⟩, ⟨1, 2⟩, ⟨3, 2⟩, ⟨4, 0⟩⟩ : CubicSpline ℚ).pointAt (1 / 2)) = ⟨2, 23 / 12⟩ ∧
    ∀ p ∈ [(⟨0, 0⟩ : Vec ℚ), ⟨1, 2⟩, ⟨3, 2⟩, ⟨4, 0⟩], 0 * p.x + 1 * p.y ≤ 2 := by decide +kernel
example : ((⟨⟨0, 0⟩, ⟨1, 2⟩, ⟨3, 2⟩⟩ : QuadSpline ℚ).toBezier).p0 = ⟨-5, -6⟩ ∧ quadUniform (⟨0, 0⟩ : Vec ℚ) ⟨1, 2⟩ ⟨3, 2⟩ 0 = ⟨1 / 2, 1⟩ := by
  decide +kernel

end Patro.Bezier
