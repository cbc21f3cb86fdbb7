import Verif.Props.Bezier
import Mathlib.Analysis.SpecialFunctions.Integrals.Basic
import Mathlib.MeasureTheory.Integral.IntervalIntegral.FundThmCalculus
import Mathlib.Algebra.Polynomial.Roots
/-! # C48, C100–C103: Bezier curves in the real plane -/

namespace Patro.Bezier

open Classical

/-! ## C48 -/

theorem fat_weight (t : ℝ) (h1 : t ≤ 1) : 3 * (1 - t) ^ 2 * t ≤ 4 / 9 := by
  nlinarith [mul_nonneg (sq_nonneg (1 / 3 - t)) (by linarith : (0 : ℝ) ≤ 4 / 3 - t)]

theorem fat_bound (d1 d2 t : ℝ) (h0 : 0 ≤ t) (h1 : t ≤ 1) :
    3 * (1 - t) ^ 2 * t * d1 + 3 * (1 - t) * t ^ 2 * d2 ≤ (if d1 * d2 > 0 then 3 / 4 else 4 / 9) * max (max 0 d1) d2 := by
  have hM0 : 0 ≤ max (max 0 d1) d2 := le_trans (le_max_left _ _) (le_max_left _ _)
  have hM1 : d1 ≤ max (max 0 d1) d2 := le_trans (le_max_right _ _) (le_max_left _ _)
  have hM2 : d2 ≤ max (max 0 d1) d2 := le_max_right _ _
  generalize max (max 0 d1) d2 = M at *
  have hu : 0 ≤ 1 - t := by linarith
  have w1 : 0 ≤ 3 * (1 - t) ^ 2 * t := by positivity
  have w2 : 0 ≤ 3 * (1 - t) * t ^ 2 := by positivity
  have hw1 := fat_weight t h1
  have hw2 := fat_weight (1 - t) (by linarith)
  split
  · have hsum : 3 * (1 - t) ^ 2 * t + 3 * (1 - t) * t ^ 2 ≤ 3 / 4 := by nlinarith [sq_nonneg (t - 1 / 2)]
    have := mul_le_mul_of_nonneg_left hM1 w1
    have := mul_le_mul_of_nonneg_left hM2 w2
    have := mul_le_mul_of_nonneg_right hsum hM0
    linarith
  · rename_i hs
    rcases le_total 0 d1 with hd | hd
    · rcases le_total 0 d2 with hd2 | hd2
      · have : d1 * d2 = 0 := le_antisymm (not_lt.1 hs) (mul_nonneg hd hd2)
        rcases mul_eq_zero.1 this with rfl | rfl
        · nlinarith [mul_le_mul_of_nonneg_left hM2 w2, mul_le_mul_of_nonneg_right hw2 hM0]
        · nlinarith [mul_le_mul_of_nonneg_left hM1 w1, mul_le_mul_of_nonneg_right hw1 hM0]
      · nlinarith [mul_le_mul_of_nonneg_left hM1 w1, mul_le_mul_of_nonneg_right hw1 hM0, mul_nonneg w2 (neg_nonneg.2 hd2)]
    · rcases le_total 0 d2 with hd2 | hd2
      · nlinarith [mul_le_mul_of_nonneg_left hM2 w2, mul_le_mul_of_nonneg_right hw2 hM0, mul_nonneg w1 (neg_nonneg.2 hd)]
      · nlinarith [mul_nonneg w2 (neg_nonneg.2 hd2), mul_nonneg w1 (neg_nonneg.2 hd)]

/-- C48. When the end points differ, the fat line is the line through them, with a distance at most 0 and a distance at least 0
between which all the signed distances of the points of the curve lie. When the end points are equal, it raises `ZeroDivisionError`. -/
theorem fatLine_spec (c : Cubic ℝ) :
    (c.p0 ≠ c.p3 → ∃ lo hi, c.fatLine = .ok (⟨c.p0, c.p3 - c.p0⟩, lo, hi) ∧ lo ≤ 0 ∧ 0 ≤ hi ∧
      ∀ t, 0 ≤ t → t ≤ 1 → ∃ d, (⟨c.p0, c.p3 - c.p0⟩ : Line ℝ).distanceToLine (c.pointAt t) = .ok d ∧ lo ≤ d ∧ d ≤ hi) ∧
    (c.p0 = c.p3 → c.fatLine = .error .zeroDivisionError) := by
  constructor
  · intro hne
    have hv : c.p3 - c.p0 ≠ 0 := by
      intro h
      apply hne
      have hx := congrArg Vec.x h
      have hy := congrArg Vec.y h
      simp only [Vec.sub_x, Vec.sub_y, Vec.zero_x, Vec.zero_y] at hx hy
      exact Vec.ext (by linarith) (by linarith)
    have hm := (Vec.magnitude_pos _ hv).ne'
    have hd : ∀ q, (⟨c.p0, c.p3 - c.p0⟩ : Line ℝ).distanceToLine q =
        .ok ((c.p3 - c.p0).cross (q - c.p0) / (c.p3 - c.p0).magnitude) := fun q => Vec.pyDiv_ok _ _ hm
    have hlin : ∀ t, (c.p3 - c.p0).cross (c.pointAt t - c.p0) / (c.p3 - c.p0).magnitude =
        3 * (1 - t) ^ 2 * t * ((c.p3 - c.p0).cross (c.p1 - c.p0) / (c.p3 - c.p0).magnitude) +
        3 * (1 - t) * t ^ 2 * ((c.p3 - c.p0).cross (c.p2 - c.p0) / (c.p3 - c.p0).magnitude) := by
      intro t
      field_simp
      rw [cubic_bernstein]
      simp only [Vec.cross, bernstein3, Vec.sub_x, Vec.sub_y]
      ring
    generalize hd1 : (c.p3 - c.p0).cross (c.p1 - c.p0) / (c.p3 - c.p0).magnitude = d1 at hlin
    generalize hd2 : (c.p3 - c.p0).cross (c.p2 - c.p0) / (c.p3 - c.p0).magnitude = d2 at hlin
    have hf : (0 : ℝ) ≤ if d1 * d2 > 0 then 3 / 4 else 4 / 9 := by split <;> norm_num
    refine ⟨(if d1 * d2 > 0 then 3 / 4 else 4 / 9) * min (min 0 d1) d2, (if d1 * d2 > 0 then 3 / 4 else 4 / 9) * max (max 0 d1) d2,
      ?_, ?_, ?_, fun t h0 h1 => ⟨_, hd _, ?_, ?_⟩⟩
    · unfold Cubic.fatLine Line.fromTwoPoints
      dsimp only [bind, Except.bind]
      rw [hd c.p1, hd c.p2, hd1, hd2]
      rfl
    · exact mul_nonpos_of_nonneg_of_nonpos hf (le_trans (min_le_left _ _) (min_le_left _ _))
    · exact mul_nonneg hf (le_trans (le_max_left _ _) (le_max_left _ _))
    · rw [hlin]
      have h := fat_bound (-d1) (-d2) t h0 h1
      have e : max (max 0 (-d1)) (-d2) = -min (min 0 d1) d2 := by
        rw [← neg_zero, max_neg_neg, max_neg_neg, neg_zero]
      rw [e, neg_mul_neg] at h
      linarith
    · rw [hlin]
      exact fat_bound d1 d2 t h0 h1
  · intro h
    unfold Cubic.fatLine Line.fromTwoPoints Line.distanceToLine Vec.deviationWith Vec.pyDiv
    have : (c.p3 - c.p0).magnitude = 0 := by
      rw [Vec.magnitude_eq_zero, h]
      ext <;> simp
    simp [this, bind, Except.bind]

example : (⟨⟨0, 0⟩, ⟨1, 1⟩, ⟨2, -1⟩, ⟨3, 0⟩⟩ : Cubic ℝ).p0 ≠ (⟨⟨0, 0⟩, ⟨1, 1⟩, ⟨2, -1⟩, ⟨3, 0⟩⟩ : Cubic ℝ).p3 := by simp

/-- C48 fails for quadratic curves: `fat_line` always raises. -/
theorem quad_fatLine_wrong (c : Quad ℝ) : c.fatLine = .error .attributeError := rfl

/-! ## C103: tangents -/

/-- The coordinates of a cubic curve as polynomials. -/
theorem cubic_poly (c : Cubic ℝ) (t : ℝ) :
    (c.pointAt t).x = c.p0.x + 3 * (c.p1.x - c.p0.x) * t + 3 * (c.p2.x - 2 * c.p1.x + c.p0.x) * t ^ 2 +
      (c.p3.x - 3 * c.p2.x + 3 * c.p1.x - c.p0.x) * t ^ 3 ∧
    (c.pointAt t).y = c.p0.y + 3 * (c.p1.y - c.p0.y) * t + 3 * (c.p2.y - 2 * c.p1.y + c.p0.y) * t ^ 2 +
      (c.p3.y - 3 * c.p2.y + 3 * c.p1.y - c.p0.y) * t ^ 3 := by
  constructor <;> simp [Cubic.pointAt] <;> ring

theorem poly5_deriv (a b c d e f t : ℝ) :
    HasDerivAt (fun t => a + b * t + c * t ^ 2 + d * t ^ 3 + e * t ^ 4 + f * t ^ 5)
      (b + 2 * c * t + 3 * d * t ^ 2 + 4 * e * t ^ 3 + 5 * f * t ^ 4) t := by
  have h1 := (hasDerivAt_id t).const_mul b
  have h2 := (hasDerivAt_pow 2 t).const_mul c
  have h3 := (hasDerivAt_pow 3 t).const_mul d
  have h4 := (hasDerivAt_pow 4 t).const_mul e
  have h5 := (hasDerivAt_pow 5 t).const_mul f
  have := (((((hasDerivAt_const t a).add h1).add h2).add h3).add h4).add h5
  refine HasDerivAt.congr_deriv (f := fun t => a + b * t + c * t ^ 2 + d * t ^ 3 + e * t ^ 4 + f * t ^ 5) this ?_
  simp; ring

theorem poly3_deriv (a b c d t : ℝ) :
    HasDerivAt (fun t => a + b * t + c * t ^ 2 + d * t ^ 3) (b + 2 * c * t + 3 * d * t ^ 2) t := by
  have := poly5_deriv a b c d 0 0 t
  simpa using this

/-- C103. The tangent of a cubic curve is a third of its velocity, for every parameter; the tangent of a quadratic curve is half of it. -/
theorem tangent_velocity (c : Cubic ℝ) (q : Quad ℝ) (t : ℝ) :
    HasVelocity c.pointAt ((c.tangentAt t).smul 3) t ∧ HasVelocity q.pointAt ((q.tangentAt t).smul 2) t := by
  refine ⟨⟨?_, ?_⟩, ?_, ?_⟩
  · simp only [fun t => (cubic_poly c t).1]
    convert poly3_deriv _ _ _ _ t using 1
    simp [Cubic.tangentAt]; ring
  · simp only [fun t => (cubic_poly c t).2]
    convert poly3_deriv _ _ _ _ t using 1
    simp [Cubic.tangentAt]; ring
  · have e : (fun t => (q.pointAt t).x) = fun t => q.p0.x + 2 * (q.p1.x - q.p0.x) * t + (q.p2.x - 2 * q.p1.x + q.p0.x) * t ^ 2 +
        0 * t ^ 3 := by
      funext t; simp [Quad.pointAt]; ring
    rw [e]
    convert poly3_deriv _ _ _ _ t using 1
    simp [Quad.tangentAt]; ring
  · have e : (fun t => (q.pointAt t).y) = fun t => q.p0.y + 2 * (q.p1.y - q.p0.y) * t + (q.p2.y - 2 * q.p1.y + q.p0.y) * t ^ 2 +
        0 * t ^ 3 := by
      funext t; simp [Quad.pointAt]; ring
    rw [e]
    convert poly3_deriv _ _ _ _ t using 1
    simp [Quad.tangentAt]; ring

theorem cubic_deriv (c : Cubic ℝ) (t : ℝ) :
    deriv (fun t => (c.pointAt t).x) t = 3 * (c.tangentAt t).x ∧ deriv (fun t => (c.pointAt t).y) t = 3 * (c.tangentAt t).y := by
  obtain ⟨⟨h1, h2⟩, -⟩ := tangent_velocity c ⟨c.p0, c.p1, c.p2⟩ t
  exact ⟨h1.deriv, h2.deriv⟩

theorem quad_deriv (q : Quad ℝ) (t : ℝ) :
    deriv (fun t => (q.pointAt t).x) t = 2 * (q.tangentAt t).x ∧ deriv (fun t => (q.pointAt t).y) t = 2 * (q.tangentAt t).y := by
  obtain ⟨-, h1, h2⟩ := tangent_velocity ⟨q.p0, q.p1, q.p2, q.p2⟩ q t
  exact ⟨h1.deriv, h2.deriv⟩

/-! ## C101: area -/

/-- C101, relative to the origin: `area` is the signed area swept by the radius from the origin to the curve. -/
theorem area_origin (c : Cubic ℝ) : c.area = sweptArea ⟨0, 0⟩ c.pointAt 0 1 := by
  unfold sweptArea
  simp only [cubic_deriv]
  have hF := fun (t : ℝ) (_ : t ∈ Set.uIcc (0 : ℝ) 1) => (poly5_deriv 0
      ((c.p0.x * (3 * (c.p1.y - c.p0.y)) - c.p0.y * (3 * (c.p1.x - c.p0.x))) / 2)
      ((c.p0.x * (3 * (c.p2.y - 2 * c.p1.y + c.p0.y)) - c.p0.y * (3 * (c.p2.x - 2 * c.p1.x + c.p0.x))) / 2)
      ((c.p0.x * (c.p3.y - 3 * c.p2.y + 3 * c.p1.y - c.p0.y) - c.p0.y * (c.p3.x - 3 * c.p2.x + 3 * c.p1.x - c.p0.x)) / 2 +
        (3 * (c.p1.x - c.p0.x) * (3 * (c.p2.y - 2 * c.p1.y + c.p0.y)) -
          3 * (c.p1.y - c.p0.y) * (3 * (c.p2.x - 2 * c.p1.x + c.p0.x))) / 6)
      ((3 * (c.p1.x - c.p0.x) * (c.p3.y - 3 * c.p2.y + 3 * c.p1.y - c.p0.y) -
        3 * (c.p1.y - c.p0.y) * (c.p3.x - 3 * c.p2.x + 3 * c.p1.x - c.p0.x)) / 4)
      ((3 * (c.p2.x - 2 * c.p1.x + c.p0.x) * (c.p3.y - 3 * c.p2.y + 3 * c.p1.y - c.p0.y) -
        3 * (c.p2.y - 2 * c.p1.y + c.p0.y) * (c.p3.x - 3 * c.p2.x + 3 * c.p1.x - c.p0.x)) / 10) t).congr_deriv
      (show _ = ((((c.pointAt t).x - 0) * (3 * (c.tangentAt t).y) - ((c.pointAt t).y - 0) * (3 * (c.tangentAt t).x)) / 2) by
        rw [(cubic_poly c t).1, (cubic_poly c t).2]
        simp [Cubic.tangentAt]
        ring)
  rw [intervalIntegral.integral_eq_sub_of_hasDerivAt hF]
  · unfold Cubic.area
    ring
  · apply Continuous.intervalIntegrable
    simp only [fun t => (cubic_poly c t).1, fun t => (cubic_poly c t).2, Cubic.tangentAt]
    simp only [Vec.add_x, Vec.add_y, Vec.smul_x, Vec.smul_y, Vec.sub_x, Vec.sub_y]
    fun_prop

theorem translate_pointAt (c : Cubic ℝ) (o : Vec ℝ) (t : ℝ) :
    (⟨c.p0 - o, c.p1 - o, c.p2 - o, c.p3 - o⟩ : Cubic ℝ).pointAt t = c.pointAt t - o := by
  ext <;> simp [Cubic.pointAt] <;> ring

/-- C101. The signed area between the curve and its chord is the area swept from the start point; `area` differs from it by half of the cross
product of the end points: it is the area delimited by the curve and the chord exactly when the line of the chord goes through the
origin (or the end points are equal). -/
theorem area_chord_iff (c : Cubic ℝ) :
    c.area = sweptArea c.p0 c.pointAt 0 1 + c.p0.cross c.p3 / 2 ∧
    (c.area = sweptArea c.p0 c.pointAt 0 1 ↔ c.p0.cross c.p3 = 0) := by
  have h : sweptArea c.p0 c.pointAt 0 1 = (⟨c.p0 - c.p0, c.p1 - c.p0, c.p2 - c.p0, c.p3 - c.p0⟩ : Cubic ℝ).area := by
    rw [area_origin]
    unfold sweptArea
    simp only [translate_pointAt, Vec.sub_x, Vec.sub_y, deriv_sub_const, sub_zero]
  have e : c.area = sweptArea c.p0 c.pointAt 0 1 + c.p0.cross c.p3 / 2 := by
    rw [h]
    simp only [Cubic.area, Vec.cross, Vec.sub_x, Vec.sub_y]
    ring
  refine ⟨e, ?_⟩
  constructor
  · intro h'; linarith
  · intro h'; rw [e, h']; ring

/-- C101, curves whose chord goes through the origin. Missing: the other curves, for which it is false (`area_wrong`). -/
theorem area_partial (c : Cubic ℝ) (h : c.p0.cross c.p3 = 0) : c.area = sweptArea c.p0 c.pointAt 0 1 := (area_chord_iff c).2.2 h

example : (⟨⟨0, 0⟩, ⟨1, 1⟩, ⟨2, -1⟩, ⟨3, 0⟩⟩ : Cubic ℝ).p0.cross ⟨3, 0⟩ = 0 := by simp [Vec.cross]

/-- C101 fails: the straight curve from `(1, 0)` to `(0, 1)` delimits no area with its chord, and its `area` is `1/2`. -/
theorem area_wrong : let c : Cubic ℝ := ⟨⟨1, 0⟩, ⟨2 / 3, 1 / 3⟩, ⟨1 / 3, 2 / 3⟩, ⟨0, 1⟩⟩
    c.area = 1 / 2 ∧ sweptArea c.p0 c.pointAt 0 1 = 0 ∧
    ∀ t, (⟨c.p0, c.p3 - c.p0⟩ : Line ℝ).Contains (c.pointAt t) := by
  intro c
  have ha : c.area = 1 / 2 := by norm_num [c, Cubic.area]
  refine ⟨ha, ?_, fun t => ⟨t, ?_⟩⟩
  · have := (area_chord_iff c).1
    rw [ha] at this
    norm_num [c, Vec.cross] at this ⊢
    linarith
  · ext <;> simp [c, Cubic.pointAt] <;> ring

/-! ## C102: flatness -/

/-- C102. A curve that is flat enough stays within the flatness of the uniform motion along its chord, so that it is at most that
far from the chord. -/
theorem flat_spec (c : Cubic ℝ) (f : ℝ) (hf : 0 ≤ f) (h : c.isFlatEnough f = true) (t : ℝ) (h0 : 0 ≤ t) (h1 : t ≤ 1) :
    distance (c.pointAt t) ⟨(1 - t) * c.p0.x + t * c.p3.x, (1 - t) * c.p0.y + t * c.p3.y⟩ ≤ f := by
  unfold Cubic.isFlatEnough at h
  simp only [decide_eq_true_eq] at h
  have hx1 := le_max_left ((c.p1.smul 3 - c.p0.smul 2 - c.p3).x ^ 2) ((c.p2.smul 3 - c.p3.smul 2 - c.p0).x ^ 2)
  have hx2 := le_max_right ((c.p1.smul 3 - c.p0.smul 2 - c.p3).x ^ 2) ((c.p2.smul 3 - c.p3.smul 2 - c.p0).x ^ 2)
  have hy1 := le_max_left ((c.p1.smul 3 - c.p0.smul 2 - c.p3).y ^ 2) ((c.p2.smul 3 - c.p3.smul 2 - c.p0).y ^ 2)
  have hy2 := le_max_right ((c.p1.smul 3 - c.p0.smul 2 - c.p3).y ^ 2) ((c.p2.smul 3 - c.p3.smul 2 - c.p0).y ^ 2)
  have ex : (c.pointAt t).x - ((1 - t) * c.p0.x + t * c.p3.x) =
      (t * (1 - t)) * ((1 - t) * (c.p1.smul 3 - c.p0.smul 2 - c.p3).x + t * (c.p2.smul 3 - c.p3.smul 2 - c.p0).x) := by
    simp [Cubic.pointAt]; ring
  have ey : (c.pointAt t).y - ((1 - t) * c.p0.y + t * c.p3.y) =
      (t * (1 - t)) * ((1 - t) * (c.p1.smul 3 - c.p0.smul 2 - c.p3).y + t * (c.p2.smul 3 - c.p3.smul 2 - c.p0).y) := by
    simp [Cubic.pointAt]; ring
  unfold distance
  simp only
  rw [ex, ey]
  generalize (c.p1.smul 3 - c.p0.smul 2 - c.p3).x = ux at *
  generalize (c.p1.smul 3 - c.p0.smul 2 - c.p3).y = uy at *
  generalize (c.p2.smul 3 - c.p3.smul 2 - c.p0).x = vx at *
  generalize (c.p2.smul 3 - c.p3.smul 2 - c.p0).y = vy at *
  generalize max (ux ^ 2) (vx ^ 2) = X at *
  generalize max (uy ^ 2) (vy ^ 2) = Y at *
  have hu : 0 ≤ 1 - t := by linarith
  have conv : ∀ a b M : ℝ, a ^ 2 ≤ M → b ^ 2 ≤ M → ((1 - t) * a + t * b) ^ 2 ≤ M := by
    intro a b M ha hb
    nlinarith [mul_nonneg hu h0, mul_nonneg (mul_nonneg hu h0) (sq_nonneg (a - b)), mul_le_mul_of_nonneg_left ha hu,
      mul_le_mul_of_nonneg_left hb h0]
  have cx := conv ux vx X hx1 hx2
  have cy := conv uy vy Y hy1 hy2
  generalize (1 - t) * ux + t * vx = a at *
  generalize (1 - t) * uy + t * vy = b at *
  rw [Real.sqrt_le_left hf]
  have hw : 0 ≤ t * (1 - t) := mul_nonneg h0 hu
  have hw2 : t * (1 - t) ≤ 1 / 4 := by nlinarith [sq_nonneg (t - 1 / 2)]
  have hw3 : (t * (1 - t)) ^ 2 ≤ 1 / 16 := by nlinarith
  have : a ^ 2 + b ^ 2 ≤ 16 * f ^ 2 := by linarith
  nlinarith [sq_nonneg a, sq_nonneg b, mul_le_mul_of_nonneg_right hw3 (add_nonneg (sq_nonneg a) (sq_nonneg b))]

/-- C102. A curve is flat enough as soon as its two control points are near the points at one third and two thirds of its chord: within
`16/17` of the flatness. -/
theorem flat_complete (c : Cubic ℝ) (f : ℝ)
    (h1 : distance c.p1 ⟨(2 * c.p0.x + c.p3.x) / 3, (2 * c.p0.y + c.p3.y) / 3⟩ ≤ 16 / 17 * f)
    (h2 : distance c.p2 ⟨(c.p0.x + 2 * c.p3.x) / 3, (c.p0.y + 2 * c.p3.y) / 3⟩ ≤ 16 / 17 * f) : c.isFlatEnough f = true := by
  unfold Cubic.isFlatEnough
  simp only [decide_eq_true_eq]
  unfold distance at h1 h2
  simp only at h1 h2
  have hf : 0 ≤ 16 / 17 * f := (Real.sqrt_nonneg _).trans h1
  rw [Real.sqrt_le_left hf] at h1 h2
  have ux : (c.p1.smul 3 - c.p0.smul 2 - c.p3).x = 3 * (c.p1.x - (2 * c.p0.x + c.p3.x) / 3) := by simp; ring
  have uy : (c.p1.smul 3 - c.p0.smul 2 - c.p3).y = 3 * (c.p1.y - (2 * c.p0.y + c.p3.y) / 3) := by simp; ring
  have vx : (c.p2.smul 3 - c.p3.smul 2 - c.p0).x = 3 * (c.p2.x - (c.p0.x + 2 * c.p3.x) / 3) := by simp; ring
  have vy : (c.p2.smul 3 - c.p3.smul 2 - c.p0).y = 3 * (c.p2.y - (c.p0.y + 2 * c.p3.y) / 3) := by simp; ring
  rw [ux, uy, vx, vy]
  generalize c.p1.x - (2 * c.p0.x + c.p3.x) / 3 = a at *
  generalize c.p1.y - (2 * c.p0.y + c.p3.y) / 3 = b at *
  generalize c.p2.x - (c.p0.x + 2 * c.p3.x) / 3 = p at *
  generalize c.p2.y - (c.p0.y + 2 * c.p3.y) / 3 = q at *
  have m1 : max ((3 * a) ^ 2) ((3 * p) ^ 2) ≤ 9 * (a ^ 2 + p ^ 2) := max_le (by nlinarith [sq_nonneg p]) (by nlinarith [sq_nonneg a])
  have m2 : max ((3 * b) ^ 2) ((3 * q) ^ 2) ≤ 9 * (b ^ 2 + q ^ 2) := max_le (by nlinarith [sq_nonneg q]) (by nlinarith [sq_nonneg b])
  nlinarith [sq_nonneg f]

/-- C102. A curve that is not flat enough for any flatness is not a uniform motion on its chord: with a null flatness, the test
holds exactly for these. -/
theorem flat_zero_iff (c : Cubic ℝ) : c.isFlatEnough 0 = true ↔
    ∀ t, c.pointAt t = ⟨(1 - t) * c.p0.x + t * c.p3.x, (1 - t) * c.p0.y + t * c.p3.y⟩ := by
  constructor
  · intro h t
    unfold Cubic.isFlatEnough at h
    simp only [decide_eq_true_eq] at h
    have hx1 := le_max_left ((c.p1.smul 3 - c.p0.smul 2 - c.p3).x ^ 2) ((c.p2.smul 3 - c.p3.smul 2 - c.p0).x ^ 2)
    have hx2 := le_max_right ((c.p1.smul 3 - c.p0.smul 2 - c.p3).x ^ 2) ((c.p2.smul 3 - c.p3.smul 2 - c.p0).x ^ 2)
    have hy1 := le_max_left ((c.p1.smul 3 - c.p0.smul 2 - c.p3).y ^ 2) ((c.p2.smul 3 - c.p3.smul 2 - c.p0).y ^ 2)
    have hy2 := le_max_right ((c.p1.smul 3 - c.p0.smul 2 - c.p3).y ^ 2) ((c.p2.smul 3 - c.p3.smul 2 - c.p0).y ^ 2)
    generalize max ((c.p1.smul 3 - c.p0.smul 2 - c.p3).x ^ 2) ((c.p2.smul 3 - c.p3.smul 2 - c.p0).x ^ 2) = X at *
    generalize max ((c.p1.smul 3 - c.p0.smul 2 - c.p3).y ^ 2) ((c.p2.smul 3 - c.p3.smul 2 - c.p0).y ^ 2) = Y at *
    have z : ∀ a M : ℝ, a ^ 2 ≤ M → M ≤ 0 → a = 0 := fun a M h1 h2 => by
      have : a ^ 2 = 0 := le_antisymm (h1.trans h2) (sq_nonneg a)
      simpa using this
    have hX : X ≤ 0 := by nlinarith [sq_nonneg (c.p1.smul 3 - c.p0.smul 2 - c.p3).y]
    have hY : Y ≤ 0 := by nlinarith [sq_nonneg (c.p1.smul 3 - c.p0.smul 2 - c.p3).x]
    have a1 := z _ _ hx1 hX
    have a2 := z _ _ hx2 hX
    have a3 := z _ _ hy1 hY
    have a4 := z _ _ hy2 hY
    simp only [Vec.sub_x, Vec.sub_y, Vec.smul_x, Vec.smul_y] at a1 a2 a3 a4
    ext <;> simp [Cubic.pointAt]
    · linear_combination t * (1 - t) ^ 2 * a1 + t ^ 2 * (1 - t) * a2
    · linear_combination t * (1 - t) ^ 2 * a3 + t ^ 2 * (1 - t) * a4
  · intro h
    have h1 := h (1 / 2)
    have h2 := h (1 / 3)
    rw [Vec.ext_iff] at h1 h2
    simp only [fun t => (cubic_poly c t).1, fun t => (cubic_poly c t).2] at h1 h2
    have x1 : (c.p1.smul 3 - c.p0.smul 2 - c.p3).x = 0 := by simp; linarith [h1.1, h2.1]
    have x2 : (c.p2.smul 3 - c.p3.smul 2 - c.p0).x = 0 := by simp; linarith [h1.1, h2.1]
    have y1 : (c.p1.smul 3 - c.p0.smul 2 - c.p3).y = 0 := by simp; linarith [h1.2, h2.2]
    have y2 : (c.p2.smul 3 - c.p3.smul 2 - c.p0).y = 0 := by simp; linarith [h1.2, h2.2]
    unfold Cubic.isFlatEnough
    simp only [x1, x2, y1, y2]
    simp

example : (⟨⟨0, 0⟩, ⟨1, 1⟩, ⟨2, -1⟩, ⟨3, 0⟩⟩ : Cubic ℚ).isFlatEnough 1 = true ∧
    (⟨⟨0, 0⟩, ⟨1, 1⟩, ⟨2, -1⟩, ⟨3, 0⟩⟩ : Cubic ℚ).isFlatEnough (1 / 2) = false := by decide +kernel

/-! ## C100: closest point -/

/-- The equation solved by `closest_point`: the difference with the point is orthogonal to the velocity. -/
theorem closest_equation (k : Cubic ℝ) (p : Vec ℝ) (t : ℝ) :
    let (a, b, c, d, e, f) := k.closestCoefficients p
    a * t ^ 5 + b * t ^ 4 + c * t ^ 3 + d * t ^ 2 + e * t + f = (p - k.pointAt t).dot ((k.tangentAt t).smul 3) := by
  simp only [Cubic.closestCoefficients, Vec.magnitudeSquare, Vec.dot, Cubic.pointAt, Cubic.tangentAt, Vec.add_x, Vec.add_y, Vec.sub_x, Vec.sub_y,
    Vec.smul_x, Vec.smul_y]
  ring

/-- The curve is not reduced to a point. -/
def Cubic.NotPoint (k : Cubic ℝ) : Prop := ∃ t, k.pointAt t ≠ k.p0

theorem coefficients_ne (k : Cubic ℝ) (hk : k.NotPoint) (p : Vec ℝ) :
    let (a, b, c, d, e, f) := k.closestCoefficients p
    ¬ (a = 0 ∧ b = 0 ∧ c = 0 ∧ d = 0 ∧ e = 0 ∧ f = 0) := by
  rintro ⟨ha, -, hc, -, he, -⟩
  obtain ⟨t, ht⟩ := hk
  apply ht
  have z : ∀ v : Vec ℝ, v.magnitudeSquare = 0 → v = 0 := by
    intro v hv
    unfold Vec.magnitudeSquare at hv
    have hx : v.x = 0 := by nlinarith [mul_self_nonneg v.x, mul_self_nonneg v.y]
    have hy : v.y = 0 := by nlinarith [mul_self_nonneg v.x, mul_self_nonneg v.y]
    exact Vec.ext hx hy
  have hn := z _ (by linarith : (k.p3 - k.p2.smul 3 + k.p1.smul 3 - k.p0).magnitudeSquare = 0)
  rw [hn] at hc
  have hr := z ((k.p2 - k.p1.smul 2 + k.p0).smul 3) (by simp [Vec.dot] at hc; exact hc)
  rw [hr] at he
  have hs := z ((k.p1 - k.p0).smul 3) (by simp [Vec.dot] at he; exact he)
  unfold Cubic.pointAt
  rw [hn, hr, hs]
  ext <;> simp

theorem fifthRoot_spec (rr : List ℝ → Except PyErr (List ℝ)) (hr : RootsOf rr) (a b c d e f : ℝ)
    (h : ¬ (a = 0 ∧ b = 0 ∧ c = 0 ∧ d = 0 ∧ e = 0 ∧ f = 0)) :
    ∃ l, fifthRoot rr a b c d e f = .ok l ∧ ∀ x, x ∈ l ↔ a * x ^ 5 + b * x ^ 4 + c * x ^ 3 + d * x ^ 2 + e * x + f = 0 := by
  unfold fifthRoot
  split
  · rename_i ha
    obtain ⟨l, hl, hm⟩ := hr [a, b, c, d, e, f] (by
      by_contra hc
      apply h
      push Not at hc
      exact ⟨hc a (by simp), hc b (by simp), hc c (by simp), hc d (by simp), hc e (by simp), hc f (by simp)⟩)
    refine ⟨l, hl, fun x => ?_⟩
    rw [hm x]
    simp only [List.foldl]
    have : ((((((0 * x + a) * x + b) * x + c) * x + d) * x + e) * x + f) =
      a * x ^ 5 + b * x ^ 4 + c * x ^ 3 + d * x ^ 2 + e * x + f := by ring
    rw [this]
  · rename_i ha
    obtain ⟨l, hl, hm⟩ := hr [1, b / a, c / a, d / a, e / a, f / a] ⟨1, by simp, one_ne_zero⟩
    refine ⟨l, hl, fun x => ?_⟩
    rw [hm x]
    simp only [List.foldl]
    have : ((((((0 * x + 1) * x + b / a) * x + c / a) * x + d / a) * x + e / a) * x + f / a) =
      (a * x ^ 5 + b * x ^ 4 + c * x ^ 3 + d * x ^ 2 + e * x + f) / a := by field_simp; ring
    rw [this, div_eq_zero_iff]
    simp [ha]

/-- The parameters kept by `closest_point`. -/
theorem closestPoint_cases (rr : List ℝ → Except PyErr (List ℝ)) (hr : RootsOf rr) (k : Cubic ℝ) (hk : k.NotPoint) (p : Vec ℝ) :
    ∃ l : List ℝ, (∀ t, t ∈ l ↔ (0 ≤ t ∧ t ≤ 1) ∧ (p - k.pointAt t).dot ((k.tangentAt t).smul 3) = 0) ∧
      k.closestPoint rr p = .ok (match l with
        | [t] => some (k.pointAt t)
        | [t0, t1] => if t0 = 0 then some (k.pointAt t1) else none
        | _ => none) := by
  obtain ⟨l, hl, hm⟩ := fifthRoot_spec rr hr (k.closestCoefficients p).1 (k.closestCoefficients p).2.1
    (k.closestCoefficients p).2.2.1 (k.closestCoefficients p).2.2.2.1 (k.closestCoefficients p).2.2.2.2.1
    (k.closestCoefficients p).2.2.2.2.2 (coefficients_ne k hk p)
  refine ⟨l.filter fun root => decide (0 ≤ root ∧ root ≤ 1), fun t => ?_, ?_⟩
  · rw [List.mem_filter, hm t, ← closest_equation k p t]
    simp only [decide_eq_true_eq]
    exact and_comm
  · unfold Cubic.closestPoint
    dsimp only [bind, Except.bind]
    rw [hl]
    dsimp only
    generalize l.filter (fun root => decide (0 ≤ root ∧ root ≤ 1)) = fl
    rcases fl with _ | ⟨t, _ | ⟨t1, _ | ⟨t2, r⟩⟩⟩
    · rfl
    · rfl
    · dsimp only [pure, Except.pure]; split <;> rfl
    · rfl

/-- C100, the equation: a point returned by `closest_point` is a point of the curve where the difference with the given point is
orthogonal to the velocity of the curve. Missing: it may be the farthest point (`closest_wrong`). -/
theorem closest_critical_partial (rr : List ℝ → Except PyErr (List ℝ)) (hr : RootsOf rr) (k : Cubic ℝ) (hk : k.NotPoint)
    (p q : Vec ℝ) (h : k.closestPoint rr p = .ok (some q)) :
    ∃ t v, 0 ≤ t ∧ t ≤ 1 ∧ q = k.pointAt t ∧ HasVelocity k.pointAt v t ∧ (p - q).dot v = 0 := by
  obtain ⟨l, hl, e⟩ := closestPoint_cases rr hr k hk p
  rw [e] at h
  injection h with h
  obtain ⟨t, ht, rfl⟩ : ∃ t, t ∈ l ∧ q = k.pointAt t := by
    split at h
    · rename_i t; injection h with h; exact ⟨t, by simp, h.symm⟩
    · rename_i t0 t1
      split at h
      · injection h with h; exact ⟨t1, by simp, h.symm⟩
      · cases h
    · cases h
  obtain ⟨⟨h0, h1⟩, he⟩ := (hl t).1 ht
  exact ⟨t, _, h0, h1, rfl, (tangent_velocity k ⟨k.p0, k.p1, k.p2⟩ t).1, he⟩

/-- A parameter inside the range where the distance is least is critical. -/
theorem interior_critical (k : Cubic ℝ) (p : Vec ℝ) (t : ℝ) (h0 : 0 < t) (h1 : t < 1)
    (hmin : ∀ s, 0 ≤ s → s ≤ 1 → distance p (k.pointAt t) ≤ distance p (k.pointAt s)) :
    (p - k.pointAt t).dot ((k.tangentAt t).smul 3) = 0 := by
  have hsq : ∀ s, 0 ≤ s → s ≤ 1 → (p.x - (k.pointAt t).x) ^ 2 + (p.y - (k.pointAt t).y) ^ 2 ≤
      (p.x - (k.pointAt s).x) ^ 2 + (p.y - (k.pointAt s).y) ^ 2 := by
    intro s a b
    have := hmin s a b
    unfold distance at this
    exact (Real.sqrt_le_sqrt_iff (by positivity)).1 this
  have hloc : IsLocalMin (fun s => (p.x - (k.pointAt s).x) ^ 2 + (p.y - (k.pointAt s).y) ^ 2) t := by
    filter_upwards [Ioo_mem_nhds h0 h1] with s hs
    exact hsq s hs.1.le hs.2.le
  obtain ⟨⟨dx, dy⟩, -⟩ := tangent_velocity k ⟨k.p0, k.p1, k.p2⟩ t
  have hd := ((dx.const_sub p.x).pow 2).add ((dy.const_sub p.y).pow 2)
  have := hloc.hasDerivAt_eq_zero hd
  simp only [Vec.dot, Vec.sub_x, Vec.sub_y]
  simp at this
  simp
  linarith

/-- C100, nearest point inside: when the nearest point of the curve is reached at a parameter strictly between 0 and 1, `closest_point`
returns that point or `None`. Missing: a nearest point at an end of the curve, where the answer may be wrong (`closest_wrong`). -/
theorem closest_interior_partial (rr : List ℝ → Except PyErr (List ℝ)) (hr : RootsOf rr) (k : Cubic ℝ) (hk : k.NotPoint)
    (p : Vec ℝ) (t : ℝ) (h0 : 0 < t) (h1 : t < 1)
    (hmin : ∀ s, 0 ≤ s → s ≤ 1 → distance p (k.pointAt t) ≤ distance p (k.pointAt s)) :
    (k.closestPoint rr p = .ok (some (k.pointAt t)) ∧ k.distanceToPoint rr p = .ok (some (distance p (k.pointAt t)))) ∨
    (k.closestPoint rr p = .ok none ∧ k.distanceToPoint rr p = .ok none) := by
  obtain ⟨l, hl, e⟩ := closestPoint_cases rr hr k hk p
  have hc := (hl t).2 ⟨⟨h0.le, h1.le⟩, interior_critical k p t h0 h1 hmin⟩
  have key : k.closestPoint rr p = .ok (some (k.pointAt t)) ∨ k.closestPoint rr p = .ok none := by
    rw [e]
    split
    · simp only [List.mem_singleton] at hc; subst hc; exact .inl rfl
    · split
      · rename_i hz
        simp only [List.mem_cons, List.not_mem_nil, or_false] at hc
        rcases hc with hc | hc
        · exact absurd (hc.trans hz) h0.ne'
        · subst hc; exact .inl rfl
      · exact .inr rfl
    · exact .inr rfl
  rcases key with key | key
  · left
    refine ⟨key, ?_⟩
    unfold Cubic.distanceToPoint
    rw [key]
    dsimp only [bind, Except.bind, pure, Except.pure]
    rw [distance_eq]
  · right
    refine ⟨key, ?_⟩
    unfold Cubic.distanceToPoint
    rw [key]
    rfl

/-- The polynomial with the given coefficients, from the highest degree. -/
noncomputable def hornerPoly (cs : List ℝ) (acc : Polynomial ℝ) : Polynomial ℝ :=
  cs.foldl (fun acc c => acc * .X + .C c) acc

theorem hornerPoly_eval (cs : List ℝ) (acc : Polynomial ℝ) (x : ℝ) :
    (hornerPoly cs acc).eval x = cs.foldl (fun a c => a * x + c) (acc.eval x) := by
  induction cs generalizing acc with
  | nil => rfl
  | cons c cs ih =>
    simp only [hornerPoly, List.foldl_cons] at ih ⊢
    rw [ih]
    simp

theorem hornerPoly_zero (cs : List ℝ) (acc : Polynomial ℝ) (h : hornerPoly cs acc = 0) : acc = 0 ∧ ∀ c ∈ cs, c = 0 := by
  induction cs generalizing acc with
  | nil => exact ⟨h, by simp⟩
  | cons c cs ih =>
    obtain ⟨h1, h2⟩ := ih _ h
    have hc : c = 0 := by
      have := congrArg (Polynomial.coeff · 0) h1
      simpa using this
    subst hc
    simp at h1
    exact ⟨h1, by simpa using h2⟩

/-- Exact root finding exists, with each root once. -/
theorem rootsOf_exists : ∃ rr, RootsOf rr ∧ ∀ cs l, rr cs = .ok l → l.Nodup := by
  refine ⟨fun cs => .ok (hornerPoly cs 0).roots.toFinset.toList, fun cs hcs => ⟨_, rfl, fun x => ?_⟩, ?_⟩
  · have hne : hornerPoly cs 0 ≠ 0 := by
      intro h
      obtain ⟨c, hc, h0⟩ := hcs
      exact h0 ((hornerPoly_zero cs 0 h).2 c hc)
    rw [Finset.mem_toList, Multiset.mem_toFinset, Polynomial.mem_roots hne, Polynomial.IsRoot, hornerPoly_eval]
    simp
  · rintro cs l h
    injection h with h
    rw [← h]
    exact Finset.nodup_toList _

/-- The arc of parabola from `(-1, 0)` to `(1, 0)` with apex `(0, 1)`. -/
noncomputable def parabola : Cubic ℝ := ⟨⟨-1, 0⟩, ⟨-1 / 3, 4 / 3⟩, ⟨1 / 3, 4 / 3⟩, ⟨1, 0⟩⟩

theorem parabola_notPoint : parabola.NotPoint := ⟨1, by
  rw [(end_points ⟨⟨0, 0⟩, ⟨0, 0⟩, ⟨0, 0⟩⟩ parabola).2.2.2]
  simp only [parabola, ne_eq, Vec.mk.injEq]
  norm_num⟩

/-- C100 fails: for the arc of parabola from `(-1, 0)` to `(1, 0)` with apex `(0, 1)` and the point `(0, -1)`, `closest_point` gives the
apex, at distance 2, which is the farthest point of the curve; the end points are at distance `√2`. -/
theorem closest_wrong (rr : List ℝ → Except PyErr (List ℝ)) (hr : RootsOf rr) (hnd : ∀ cs l, rr cs = .ok l → l.Nodup) :
    parabola.closestPoint rr ⟨0, -1⟩ = .ok (some ⟨0, 1⟩) ∧
    (∀ t, 0 ≤ t → t ≤ 1 → distance ⟨0, -1⟩ (parabola.pointAt t) ≤ distance ⟨0, -1⟩ ⟨0, 1⟩) ∧
    distance ⟨0, -1⟩ parabola.p0 < distance ⟨0, -1⟩ ⟨0, 1⟩ := by
  have hp : ∀ t, parabola.pointAt t = ⟨2 * t - 1, 1 - (2 * t - 1) ^ 2⟩ := by
    intro t
    ext <;> simp [parabola, Cubic.pointAt] <;> ring
  have hcrit : ∀ t, ((⟨0, -1⟩ : Vec ℝ) - parabola.pointAt t).dot ((parabola.tangentAt t).smul 3) =
      (2 * t - 1) * (6 - 4 * (2 * t - 1) ^ 2) := by
    intro t
    rw [hp]
    simp [parabola, Cubic.tangentAt, Vec.dot]
    ring
  refine ⟨?_, fun t h0 h1 => ?_, ?_⟩
  · obtain ⟨l, hl, hm⟩ := fifthRoot_spec rr hr (parabola.closestCoefficients ⟨0, -1⟩).1 (parabola.closestCoefficients ⟨0, -1⟩).2.1
      (parabola.closestCoefficients ⟨0, -1⟩).2.2.1 (parabola.closestCoefficients ⟨0, -1⟩).2.2.2.1
      (parabola.closestCoefficients ⟨0, -1⟩).2.2.2.2.1 (parabola.closestCoefficients ⟨0, -1⟩).2.2.2.2.2
      (coefficients_ne parabola parabola_notPoint ⟨0, -1⟩)
    have hf : l.filter (fun root => decide (0 ≤ root ∧ root ≤ 1)) = [1 / 2] := by
      have hnd' : l.Nodup := by
        unfold fifthRoot at hl
        split at hl <;> exact hnd _ _ hl
      have hmem : ∀ t, t ∈ l.filter (fun root => decide (0 ≤ root ∧ root ≤ 1)) ↔ t = 1 / 2 := by
        intro t
        have h5 := closest_equation parabola ⟨0, -1⟩ t
        rw [hcrit] at h5
        have h5 : (parabola.closestCoefficients ⟨0, -1⟩).1 * t ^ 5 + (parabola.closestCoefficients ⟨0, -1⟩).2.1 * t ^ 4 +
            (parabola.closestCoefficients ⟨0, -1⟩).2.2.1 * t ^ 3 + (parabola.closestCoefficients ⟨0, -1⟩).2.2.2.1 * t ^ 2 +
            (parabola.closestCoefficients ⟨0, -1⟩).2.2.2.2.1 * t + (parabola.closestCoefficients ⟨0, -1⟩).2.2.2.2.2 = _ := h5
        rw [List.mem_filter, hm t, h5]
        simp only [decide_eq_true_eq]
        constructor
        · rintro ⟨h, h0, h1⟩
          rcases mul_eq_zero.1 h with h | h
          · linarith
          · nlinarith [mul_nonneg h0 (by linarith : (0 : ℝ) ≤ 1 - t)]
        · rintro rfl; norm_num
      have hnd2 := hnd'.filter (fun root => decide (0 ≤ root ∧ root ≤ 1))
      generalize l.filter (fun root => decide (0 ≤ root ∧ root ≤ 1)) = fl at hmem hnd2
      rcases fl with _ | ⟨a, _ | ⟨b, r⟩⟩
      · exact absurd ((hmem (1 / 2)).2 rfl) (by simp)
      · rw [(hmem a).1 (by simp)]
      · have h1 := (hmem a).1 (by simp)
        have h2 := (hmem b).1 (by simp)
        simp [h1, h2] at hnd2
    unfold Cubic.closestPoint
    dsimp only [bind, Except.bind]
    rw [hl]
    dsimp only
    rw [hf]
    dsimp only [pure, Except.pure]
    rw [hp]
    norm_num
  · rw [hp]
    unfold distance
    apply Real.sqrt_le_sqrt
    simp only
    nlinarith [mul_nonneg h0 (by linarith : (0 : ℝ) ≤ 1 - t), mul_nonneg (mul_nonneg h0 (by linarith : (0 : ℝ) ≤ 1 - t)) (mul_nonneg h0 (by linarith : (0 : ℝ) ≤ 1 - t)), sq_nonneg (2 * t - 1)]
  · unfold distance
    apply Real.sqrt_lt_sqrt <;> norm_num [parabola]

/-- C100 fails for quadratic curves: `closest_point` never returns a point. -/
theorem quad_closest_wrong (rr : List ℝ → Except PyErr (List ℝ)) (k : Quad ℝ) (p q : Vec ℝ) :
    k.closestPoint rr p ≠ .ok (some q) := by
  have key : ∀ l : List ℝ, (match l.filter fun root => decide (0 ≤ root ∧ root ≤ 1) with
      | [] => (pure none : Except PyErr (Option (Vec ℝ)))
      | [_] => .error .typeError
      | _ => pure none) ≠ .ok (some q) := by
    intro l
    generalize l.filter (fun root => decide (0 ≤ root ∧ root ≤ 1)) = fl
    rcases fl with _ | ⟨a, _ | ⟨b, r⟩⟩ <;> intro h <;> cases h
  unfold Quad.closestPoint
  dsimp only [bind, Except.bind]
  split
  · split
    · exact key _
    · intro h; cases h
  · split
    · intro h; cases h
    · exact key _

/-- C100 fails for quadratic curves: what is returned instead, for a curve which is not a straight one run at constant speed. The
parameters where the difference with the given point is orthogonal to the velocity are listed; the exception is raised when the list has one entry, and
`None` is returned otherwise. -/
theorem quad_closest_outcome (rr : List ℝ → Except PyErr (List ℝ)) (hr : RootsOf rr) (k : Quad ℝ) (p : Vec ℝ) (hk : k.p2 - k.p1 ≠ k.p1 - k.p0) :
    ∃ l : List ℝ, (∀ t, t ∈ l ↔ (0 ≤ t ∧ t ≤ 1) ∧ (k.pointAt t - p).dot (k.tangentAt t) = 0) ∧
      k.closestPoint rr p = if l.length = 1 then .error .typeError else .ok none := by
  have hB : (k.p2 - k.p1 - (k.p1 - k.p0)).magnitudeSquare ≠ 0 := by
    intro h
    apply hk
    have hx := mul_self_nonneg (k.p2 - k.p1 - (k.p1 - k.p0)).x
    have hy := mul_self_nonneg (k.p2 - k.p1 - (k.p1 - k.p0)).y
    unfold Vec.magnitudeSquare at h
    have h1 : (k.p2 - k.p1 - (k.p1 - k.p0)).x = 0 := by nlinarith
    have h2 : (k.p2 - k.p1 - (k.p1 - k.p0)).y = 0 := by nlinarith
    exact Vec.ext (sub_eq_zero.1 h1) (sub_eq_zero.1 h2)
  obtain ⟨l, hl, hm⟩ := hr [(k.p2 - k.p1 - (k.p1 - k.p0)).magnitudeSquare, 3 * (k.p1 - k.p0).dot (k.p2 - k.p1 - (k.p1 - k.p0)),
    2 * (k.p1 - k.p0).magnitudeSquare + (k.p0 - p).dot (k.p2 - k.p1 - (k.p1 - k.p0)), (k.p0 - p).dot (k.p1 - k.p0)]
    ⟨_, List.mem_cons_self, hB⟩
  refine ⟨l.filter fun root => decide (0 ≤ root ∧ root ≤ 1), fun t => ?_, ?_⟩
  · rw [List.mem_filter, hm t]
    simp only [decide_eq_true_eq, List.foldl]
    rw [and_comm]
    refine and_congr_right fun _ => ?_
    have e : (k.pointAt t - p).dot (k.tangentAt t) =
        (((0 * t + (k.p2 - k.p1 - (k.p1 - k.p0)).magnitudeSquare) * t + 3 * (k.p1 - k.p0).dot (k.p2 - k.p1 - (k.p1 - k.p0))) * t +
          (2 * (k.p1 - k.p0).magnitudeSquare + (k.p0 - p).dot (k.p2 - k.p1 - (k.p1 - k.p0)))) * t + (k.p0 - p).dot (k.p1 - k.p0) := by
      simp only [Quad.pointAt, Quad.tangentAt, Vec.dot, Vec.magnitudeSquare, Vec.sub_x, Vec.sub_y, Vec.add_x, Vec.add_y, Vec.smul_x, Vec.smul_y]
      ring
    rw [e]
  · unfold Quad.closestPoint
    dsimp only [bind, Except.bind]
    rw [if_neg hB, hl]
    dsimp only
    generalize l.filter (fun root => decide (0 ≤ root ∧ root ≤ 1)) = fl
    rcases fl with _ | ⟨t, _ | ⟨t1, r⟩⟩
    · rfl
    · rfl
    · rfl

end Patro.Bezier
