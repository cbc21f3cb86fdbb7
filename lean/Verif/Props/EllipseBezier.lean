import Verif.Props.Ellipse
import Mathlib.Topology.Order.IntermediateValue
import Mathlib.Analysis.SpecialFunctions.Trigonometric.Bounds
/-! # C140: Bézier curves of an ellipse -/

namespace Patro.Conic

open Classical Bezier

/-- The frame coordinates of a point of a cubic are the cubic polynomials of the frame coordinates of its points. -/
theorem cubic_along (c : Cubic ℝ) (center : Vec ℝ) (angle t : ℝ) :
    along center angle (c.pointAt t) = along center angle c.p0 * (1 - t) ^ 3 + along center angle c.p1 * (3 * t * (1 - t) ^ 2) +
      along center angle c.p2 * (3 * t ^ 2 * (1 - t)) + along center angle c.p3 * t ^ 3 := by
  unfold along Cubic.pointAt
  simp
  ring

theorem cubic_across (c : Cubic ℝ) (center : Vec ℝ) (angle t : ℝ) :
    across center angle (c.pointAt t) = across center angle c.p0 * (1 - t) ^ 3 + across center angle c.p1 * (3 * t * (1 - t) ^ 2) +
      across center angle c.p2 * (3 * t ^ 2 * (1 - t)) + across center angle c.p3 * t ^ 3 := by
  unfold across Cubic.pointAt
  simp
  ring

/-- The offsets are rotated with the ellipse. -/
theorem offset_rotate (e : Ellipse) (v : Vec ℝ) : (if e.angle ≠ 0 then v.rotate e.angle else v) = v.rotate e.angle := by
  by_cases h : e.angle = 0
  · simp [h, rotate_zero]
  · simp [h]

theorem along_add_rotate (e : Ellipse) (p v : Vec ℝ) (k : ℝ) :
    along e.center e.angle (p + (v.rotate e.angle).smul k) = along e.center e.angle p + k * v.x ∧
    across e.center e.angle (p + (v.rotate e.angle).smul k) = across e.center e.angle p + k * v.y := by
  have hs := Real.sin_sq_add_cos_sq (e.angle * Real.pi / 180)
  unfold along across
  simp [Vec.rotate, radians_eq]
  constructor
  · linear_combination k * v.x * hs
  · linear_combination k * v.y * hs

/-- The middle and the half of the angle of a piece, and the coordinates of the points of the piece in the frame where the
ellipse is the unit circle and the piece is symmetric. -/
theorem bezierArc_coordinates (e : Ellipse) (hx : e.radiusX ≠ 0) (hy : e.radiusY ≠ 0) (a1 a2 t : ℝ) :
    let m := (Vec.radians a1 + Vec.radians a2) / 2
    let h := (Vec.radians a2 - Vec.radians a1) / 2
    let k := 8 / 3 * Real.sin (h / 2) ^ 2 / Real.sin h
    let u := t * (1 - t)
    let x := Real.cos h + 3 * u * k * Real.sin h
    let y := (2 * t - 1) * (Real.sin h + 2 * u * Real.sin h - 3 * u * k * Real.cos h)
    along e.center e.angle ((e.bezierArc a1 a2).pointAt t) = e.radiusX * (Real.cos m * x - Real.sin m * y) ∧
    across e.center e.angle ((e.bezierArc a1 a2).pointAt t) = e.radiusY * (Real.sin m * x + Real.cos m * y) := by
  intro m h k u x y
  have e1 : Vec.radians a1 = m - h := by simp only [m, h]; ring
  have e2 : Vec.radians a2 = m + h := by simp only [m, h]; ring
  have q1 := ((ellipse_points e hx hy).1 a1).2
  have q2 := ((ellipse_points e hx hy).1 a2).2
  rw [← radians_eq] at q1 q2
  have b1 := along_add_rotate e (e.pointAtAngle a1) ⟨-e.radiusX * Real.sin (Vec.radians a1), e.radiusY * Real.cos (Vec.radians a1)⟩ k
  have b2 := along_add_rotate e (e.pointAtAngle a2) ⟨e.radiusX * Real.sin (Vec.radians a2), -e.radiusY * Real.cos (Vec.radians a2)⟩ k
  have hc : e.bezierArc a1 a2 = ⟨e.pointAtAngle a1,
      e.pointAtAngle a1 + ((⟨-e.radiusX * Real.sin (Vec.radians a1), e.radiusY * Real.cos (Vec.radians a1)⟩ : Vec ℝ).rotate e.angle).smul k,
      e.pointAtAngle a2 + ((⟨e.radiusX * Real.sin (Vec.radians a2), -e.radiusY * Real.cos (Vec.radians a2)⟩ : Vec ℝ).rotate e.angle).smul k,
      e.pointAtAngle a2⟩ := by
    unfold Ellipse.bezierArc
    simp only [offset_rotate]
    rfl
  rw [cubic_along, cubic_across, hc]
  simp only
  rw [b1.1, b1.2, b2.1, b2.2, q1.1, q1.2, q2.1, q2.2]
  simp only
  rw [e1, e2, Real.cos_sub, Real.sin_sub, Real.cos_add, Real.sin_add]
  simp only [x, y, u]
  constructor <;> ring

/-- For the control points `to_bezier` chooses, the value of the equation of the ellipse on a piece. -/
theorem bezierArc_value (e : Ellipse) (hx : e.radiusX ≠ 0) (hy : e.radiusY ≠ 0) (a1 a2 t : ℝ)
    (h0 : 0 < (Vec.radians a2 - Vec.radians a1) / 2) (h1 : (Vec.radians a2 - Vec.radians a1) / 2 < Real.pi) :
    let c := Real.cos ((Vec.radians a2 - Vec.radians a1) / 2)
    let u := t * (1 - t)
    ellipseValue e.center e.radiusX e.radiusY e.angle ((e.bezierArc a1 a2).pointAt t) =
      1 + 4 * (1 - c) ^ 3 / (1 + c) * (u ^ 2 * (1 - 4 * u)) := by
  intro c u
  obtain ⟨p1, p2⟩ := bezierArc_coordinates e hx hy a1 a2 t
  unfold ellipseValue
  rw [p1, p2, mul_div_cancel_left₀ _ hx, mul_div_cancel_left₀ _ hy]
  have hm := Real.sin_sq_add_cos_sq ((Vec.radians a1 + Vec.radians a2) / 2)
  generalize Real.cos ((Vec.radians a1 + Vec.radians a2) / 2) = cm at *
  generalize Real.sin ((Vec.radians a1 + Vec.radians a2) / 2) = sm at *
  have hhalf : Real.sin ((Vec.radians a2 - Vec.radians a1) / 2 / 2) ^ 2 = (1 - c) / 2 := by
    have : c = Real.cos (2 * ((Vec.radians a2 - Vec.radians a1) / 2 / 2)) := by
      simp only [c]; congr 1; ring
    rw [this, Real.cos_two_mul, Real.sin_sq]; ring
  rw [hhalf]
  have hsin := Real.sin_pos_of_pos_of_lt_pi h0 h1
  have hcs := Real.sin_sq_add_cos_sq ((Vec.radians a2 - Vec.radians a1) / 2)
  change Real.sin _ ^ 2 + c ^ 2 = 1 at hcs
  change _ = _ at p1
  generalize Real.sin ((Vec.radians a2 - Vec.radians a1) / 2) = s at *
  have hcdef : Real.cos ((Vec.radians a2 - Vec.radians a1) / 2) = c := rfl
  rw [hcdef]
  clear p1 p2 hhalf
  generalize c = c at *
  have hc1 : 1 + c ≠ 0 := by
    intro h
    have : c = -1 := by linarith
    rw [this] at hcs
    nlinarith
  have hk : 8 / 3 * ((1 - c) / 2) / s = 4 * (1 - c) / (3 * s) := by ring
  rw [hk]
  have hx' : c + 3 * (t * (1 - t)) * (4 * (1 - c) / (3 * s)) * s = 1 - (1 - c) * (1 - 4 * u) := by
    simp only [u]; field_simp; ring
  have hy' : (2 * t - 1) * (s + 2 * (t * (1 - t)) * s - 3 * (t * (1 - t)) * (4 * (1 - c) / (3 * s)) * c) =
      (2 * t - 1) * ((1 - c) * ((1 + c) + 2 * u * (1 - c))) / s := by
    simp only [u]; field_simp
    linear_combination (2 * t - 1) * (1 + 2 * t - 2 * t ^ 2) * hcs
  rw [hx', hy']
  have hv : (2 * t - 1) ^ 2 = 1 - 4 * u := by simp only [u]; ring
  have hss : s ^ 2 = (1 - c) * (1 + c) := by linear_combination hcs
  have hd : 1 - c ≠ 0 := by
    intro h
    rw [h, zero_mul] at hss
    nlinarith
  have hyy : ((2 * t - 1) * ((1 - c) * ((1 + c) + 2 * u * (1 - c))) / s) ^ 2 =
      (1 - 4 * u) * ((1 - c) * ((1 + c) + 2 * u * (1 - c)) ^ 2) / (1 + c) := by
    rw [div_pow, mul_pow, hv, hss]; field_simp
  have hsum : ∀ a b : ℝ, (cm * a - sm * b) ^ 2 + (sm * a + cm * b) ^ 2 = a ^ 2 + b ^ 2 := by
    intro a b; linear_combination (a ^ 2 + b ^ 2) * hm
  rw [hsum, hyy]
  field_simp
  ring

theorem u_bounds (t : ℝ) (h0 : 0 ≤ t) (h1 : t ≤ 1) :
    0 ≤ (t * (1 - t)) ^ 2 * (1 - 4 * (t * (1 - t))) ∧ (t * (1 - t)) ^ 2 * (1 - 4 * (t * (1 - t))) ≤ 1 / 108 := by
  have hu : 0 ≤ t * (1 - t) := mul_nonneg h0 (by linarith)
  have hv : 0 ≤ 1 - 4 * (t * (1 - t)) := by nlinarith [sq_nonneg (2 * t - 1)]
  generalize t * (1 - t) = u at *
  refine ⟨by positivity, ?_⟩
  nlinarith [mul_nonneg (sq_nonneg (6 * u - 1)) (by linarith : (0 : ℝ) ≤ 12 * u + 1)]

/-- The cosine of half the greatest angle of a piece. -/
theorem cos_half_bound (h : ℝ) (h0 : 0 ≤ h) (h1 : h ≤ 45.0005 * Real.pi / 180) : 0.707 ≤ Real.cos h := by
  have hpi := Real.pi_pos
  have hpi4 := Real.pi_lt_d2
  have hc : Real.cos (45.0005 * Real.pi / 180) ≤ Real.cos h :=
    Real.cos_le_cos_of_nonneg_of_le_pi h0 (by nlinarith) h1
  refine le_trans ?_ hc
  have e : 45.0005 * Real.pi / 180 = Real.pi / 4 + 0.0005 * Real.pi / 180 := by ring
  rw [e, Real.cos_add, Real.cos_pi_div_four, Real.sin_pi_div_four]
  set ε := 0.0005 * Real.pi / 180 with hε
  have he0 : 0 ≤ ε := by positivity
  have he1 : ε ≤ 0.00001 := by rw [hε]; linarith
  have h3 := Real.one_sub_sq_div_two_le_cos (x := ε)
  have h4 := Real.sin_le he0
  have h2 : (1.4142 : ℝ) ≤ Real.sqrt 2 := Real.le_sqrt_of_sq_le (by norm_num)
  have h5 : 0.99998 ≤ Real.cos ε - Real.sin ε := by nlinarith
  nlinarith

/-- The step of the pieces. -/
theorem step_bounds (span : ℝ) (hs : 0 < span) :
    let n := Ellipse.numberOfSegments span
    0 < n ∧ 0 < span / n ∧ span / n ≤ 90.001 := by
  intro n
  have hq : 0 < |span / (90001 / 1000)| := by positivity
  have hn : 0 < n := Nat.ceil_pos.2 hq
  have hn' : (0 : ℝ) < n := by exact_mod_cast hn
  refine ⟨hn, by positivity, ?_⟩
  rw [div_le_iff₀ hn']
  have h2 : |span / (90001 / 1000)| ≤ n := Nat.le_ceil _
  rw [abs_of_pos (by positivity), div_le_iff₀ (by norm_num)] at h2
  linarith

theorem half_bounds (a step : ℝ) (h0 : 0 < step) (h1 : step ≤ 90.001) :
    0 < (Vec.radians (a + step) - Vec.radians a) / 2 ∧
    (Vec.radians (a + step) - Vec.radians a) / 2 ≤ 45.0005 * Real.pi / 180 ∧
    (Vec.radians (a + step) - Vec.radians a) / 2 < Real.pi / 2 := by
  have hpi := Real.pi_pos
  have e : (Vec.radians (a + step) - Vec.radians a) / 2 = step * Real.pi / 360 := by unfold Vec.radians; ring
  rw [e]
  refine ⟨by positivity, by nlinarith, by nlinarith⟩

/-- A piece stays within the tolerance. -/
theorem piece_close (e : Ellipse) (hx : e.radiusX ≠ 0) (hy : e.radiusY ≠ 0) (a step t : ℝ) (hs0 : 0 < step)
    (hs1 : step ≤ 90.001) (h0 : 0 ≤ t) (h1 : t ≤ 1) :
    1 ≤ ellipseValue e.center e.radiusX e.radiusY e.angle ((e.bezierArc a (a + step)).pointAt t) ∧
    ellipseValue e.center e.radiusX e.radiusY e.angle ((e.bezierArc a (a + step)).pointAt t) ≤ 1 + 1 / 1800 := by
  have hpi := Real.pi_pos
  obtain ⟨b0, b1, b2⟩ := half_bounds a step hs0 hs1
  rw [bezierArc_value e hx hy a (a + step) t b0 (by linarith)]
  have hc := cos_half_bound _ b0.le b1
  have hc1 := Real.cos_le_one ((Vec.radians (a + step) - Vec.radians a) / 2)
  generalize Real.cos ((Vec.radians (a + step) - Vec.radians a) / 2) = c at *
  obtain ⟨u0, u1⟩ := u_bounds t h0 h1
  generalize (t * (1 - t)) ^ 2 * (1 - 4 * (t * (1 - t))) = w at *
  have hk0 : 0 ≤ 4 * (1 - c) ^ 3 / (1 + c) := by
    have : 0 ≤ 1 - c := by linarith
    positivity
  have hk1 : 4 * (1 - c) ^ 3 / (1 + c) ≤ 0.06 := by
    rw [div_le_iff₀ (by linarith)]
    have h3 : (1 - c) ^ 3 ≤ 0.293 ^ 3 := pow_le_pow_left₀ (by linarith) (by linarith) 3
    norm_num at h3 hc ⊢
    linarith
  generalize 4 * (1 - c) ^ 3 / (1 + c) = K at *
  constructor
  · nlinarith [mul_nonneg hk0 u0]
  · have : K * w ≤ 0.06 * (1 / 108) := mul_le_mul hk1 u1 u0 (by norm_num)
    norm_num at this ⊢
    linarith

set_option maxHeartbeats 1000000 in
/-- A piece goes through every direction of its sector. -/
theorem piece_sweeps (e : Ellipse) (hx : e.radiusX ≠ 0) (hy : e.radiusY ≠ 0) (a step θ : ℝ) (hs0 : 0 < step)
    (hs1 : step ≤ 90.001) (h0 : a ≤ θ) (h1 : θ ≤ a + step) :
    ∃ t ρ, 0 ≤ t ∧ t ≤ 1 ∧ 1 ≤ ρ ∧ ρ ≤ 1 + 1 / 3600 ∧
      along e.center e.angle ((e.bezierArc a (a + step)).pointAt t) = ρ * along e.center e.angle (e.pointAtAngle θ) ∧
      across e.center e.angle ((e.bezierArc a (a + step)).pointAt t) = ρ * across e.center e.angle (e.pointAtAngle θ) := by
  have hpi := Real.pi_pos
  obtain ⟨b0, b1, b2⟩ := half_bounds a step hs0 hs1
  have hcoord := bezierArc_coordinates e hx hy a (a + step)
  have hclose := fun t => piece_close e hx hy a step t hs0 hs1
  set m := (Vec.radians a + Vec.radians (a + step)) / 2 with hm
  set h := (Vec.radians (a + step) - Vec.radians a) / 2 with hh
  set k := 8 / 3 * Real.sin (h / 2) ^ 2 / Real.sin h with hk
  set φ := Vec.radians θ - m with hφ
  have hφ0 : -h ≤ φ := by
    rw [hφ, hm, hh]; unfold Vec.radians
    nlinarith
  have hφ1 : φ ≤ h := by
    rw [hφ, hm, hh]; unfold Vec.radians
    nlinarith
  have hcφ : 0 < Real.cos φ := Real.cos_pos_of_mem_Ioo ⟨by linarith, by linarith⟩
  have hch : 0 < Real.cos h := Real.cos_pos_of_mem_Ioo ⟨by linarith, by linarith⟩
  have hsh : 0 < Real.sin h := Real.sin_pos_of_pos_of_lt_pi b0 (by linarith)
  have hk0 : 0 ≤ k := by rw [hk]; positivity
  -- the curve crosses the direction
  let x : ℝ → ℝ := fun t => Real.cos h + 3 * (t * (1 - t)) * k * Real.sin h
  let y : ℝ → ℝ := fun t => (2 * t - 1) * (Real.sin h + 2 * (t * (1 - t)) * Real.sin h - 3 * (t * (1 - t)) * k * Real.cos h)
  have hcont : ContinuousOn (fun t => y t * Real.cos φ - x t * Real.sin φ) (Set.Icc 0 1) := by
    apply Continuous.continuousOn
    simp only [x, y]
    fun_prop
  have hf0 : y 0 * Real.cos φ - x 0 * Real.sin φ ≤ 0 := by
    have : y 0 * Real.cos φ - x 0 * Real.sin φ = -Real.sin (h + φ) := by
      rw [Real.sin_add h φ]; simp only [x, y]; ring
    rw [this]
    have := Real.sin_nonneg_of_nonneg_of_le_pi (show 0 ≤ h + φ by linarith) (by linarith)
    linarith
  have hf1 : 0 ≤ y 1 * Real.cos φ - x 1 * Real.sin φ := by
    have : y 1 * Real.cos φ - x 1 * Real.sin φ = Real.sin (h - φ) := by
      rw [Real.sin_sub h φ]; simp only [x, y]; ring
    rw [this]
    exact Real.sin_nonneg_of_nonneg_of_le_pi (by linarith) (by linarith)
  obtain ⟨t, ⟨ht0, ht1⟩, ht⟩ := intermediate_value_Icc (zero_le_one (α := ℝ)) hcont ⟨hf0, hf1⟩
  simp only at ht
  have hxt : 0 < x t := by
    simp only [x]
    have : 0 ≤ 3 * (t * (1 - t)) * k * Real.sin h := by
      have : 0 ≤ t * (1 - t) := mul_nonneg ht0 (by linarith)
      positivity
    linarith
  obtain ⟨c1, c2⟩ := hcoord t
  change along _ _ _ = e.radiusX * (Real.cos m * x t - Real.sin m * y t) at c1
  change across _ _ _ = e.radiusY * (Real.sin m * x t + Real.cos m * y t) at c2
  obtain ⟨v0, v1⟩ := hclose t ht0 ht1
  have hmv := Real.sin_sq_add_cos_sq m
  have hval : ellipseValue e.center e.radiusX e.radiusY e.angle ((e.bezierArc a (a + step)).pointAt t) = x t ^ 2 + y t ^ 2 := by
    unfold ellipseValue
    rw [c1, c2, mul_div_cancel_left₀ _ hx, mul_div_cancel_left₀ _ hy]
    linear_combination (x t ^ 2 + y t ^ 2) * hmv
  rw [hval] at v0 v1
  have hφsq := Real.sin_sq_add_cos_sq φ
  set ρ := x t / Real.cos φ with hρ
  have hρ0 : 0 < ρ := by positivity
  have ex : x t = ρ * Real.cos φ := by rw [hρ]; field_simp
  have ey : y t = ρ * Real.sin φ := by
    rw [hρ, div_mul_eq_mul_div, eq_div_iff hcφ.ne']; linarith
  have hρ2 : ρ ^ 2 = x t ^ 2 + y t ^ 2 := by rw [ex, ey]; linear_combination -ρ ^ 2 * hφsq
  obtain ⟨-, q1, q2⟩ := (ellipse_points e hx hy).1 θ
  rw [← radians_eq] at q1 q2
  have hθ : Vec.radians θ = m + φ := by rw [hφ]; ring
  refine ⟨t, ρ, ht0, ht1, by nlinarith, by nlinarith, ?_, ?_⟩
  · rw [c1, q1, ex, ey, hθ, Real.cos_add]; ring
  · rw [c2, q2, ex, ey, hθ, Real.sin_add]; ring

/-- The sector that `to_bezier` converts. -/
theorem toBezier_eq (e : Ellipse) (hs : 0 < e.bezierSpan.2) :
    e.toBezier = .ok ((List.range (Ellipse.numberOfSegments e.bezierSpan.2)).map fun (i : Nat) =>
      e.bezierArc (e.bezierSpan.1 + i * (e.bezierSpan.2 / Ellipse.numberOfSegments e.bezierSpan.2))
        (e.bezierSpan.1 + i * (e.bezierSpan.2 / Ellipse.numberOfSegments e.bezierSpan.2) +
          e.bezierSpan.2 / Ellipse.numberOfSegments e.bezierSpan.2)) := by
  unfold Ellipse.toBezier
  simp only
  rw [if_neg (step_bounds _ hs).1.ne']

/-- `to_bezier` from `start` over `span` degrees. -/
theorem toBezier_spec (e : Ellipse) (hx : e.radiusX ≠ 0) (hy : e.radiusY ≠ 0) (start span : ℝ) (he : e.bezierSpan = (start, span))
    (hs : 0 < span) :
    ∃ curves, e.toBezier = .ok curves ∧
      (curves.head?.map (·.p0) = some (e.pointAtAngle start)) ∧ (curves.getLast?.map (·.p3) = some (e.pointAtAngle (start + span))) ∧
      (∀ i a b, curves[i]? = some a → curves[i + 1]? = some b → a.p3 = b.p0 ∧ a.p3 - a.p2 = b.p1 - b.p0) ∧
      (∀ c ∈ curves, ∀ t, 0 ≤ t → t ≤ 1 →
        1 ≤ ellipseValue e.center e.radiusX e.radiusY e.angle (c.pointAt t) ∧
        ellipseValue e.center e.radiusX e.radiusY e.angle (c.pointAt t) ≤ 1 + 1 / 1800) ∧
      (∀ c ∈ curves, c.p0 ∈ e.points ∧ c.p3 ∈ e.points ∧ c.pointAt (1 / 2) ∈ e.points) ∧
      (∀ θ, start ≤ θ → θ ≤ start + span → ∃ c ∈ curves, ∃ t ρ, 0 ≤ t ∧ t ≤ 1 ∧ 1 ≤ ρ ∧ ρ ≤ 1 + 1 / 3600 ∧
        along e.center e.angle (c.pointAt t) = ρ * along e.center e.angle (e.pointAtAngle θ) ∧
        across e.center e.angle (c.pointAt t) = ρ * across e.center e.angle (e.pointAtAngle θ)) := by
  have h2 := toBezier_eq e (by rw [he]; exact hs)
  rw [he] at h2
  simp only at h2
  obtain ⟨hn, hst0, hst1⟩ := step_bounds span hs
  set n := Ellipse.numberOfSegments span with hnd
  have hn' : (n : ℝ) ≠ 0 := by exact_mod_cast hn.ne'
  set step := span / n with hstep
  have hns : n * step = span := by rw [hstep]; field_simp
  refine ⟨_, h2, ?_, ?_, ?_, ?_, ?_, ?_⟩
  · obtain ⟨k, hk⟩ : ∃ k, n = k + 1 := ⟨n - 1, by omega⟩
    rw [hk, List.range_succ_eq_map]
    simp [Ellipse.bezierArc]
  · obtain ⟨k, hk⟩ : ∃ k, n = k + 1 := ⟨n - 1, by omega⟩
    rw [hk, List.range_succ]
    simp only [List.map_append, List.map_cons, List.map_nil, List.getLast?_append, List.getLast?_singleton, Option.some_or,
      Option.map_some, Ellipse.bezierArc, Option.some.injEq]
    congr 1
    have : (n : ℝ) = k + 1 := by rw [hk]; push_cast; ring
    rw [← hns, this]; ring
  · intro i a b ha hb
    rw [List.getElem?_map] at ha hb
    have hi : i + 1 < n := by
      by_contra hc
      rw [List.getElem?_eq_none (by rw [List.length_range]; omega)] at hb
      cases hb
    rw [List.getElem?_range (by omega)] at ha hb
    simp only [Option.map_some, Option.some.injEq] at ha hb
    subst ha hb
    have hang : start + ((i + 1 : ℕ) : ℝ) * step = start + i * step + step := by push_cast; ring
    rw [hang]
    have hd1 : (Vec.radians (start + i * step + step) - Vec.radians (start + i * step)) / 2 = Vec.radians step / 2 := by
      unfold Vec.radians; ring
    have hd2 : (Vec.radians (start + i * step + step + step) - Vec.radians (start + i * step + step)) / 2 = Vec.radians step / 2 := by
      unfold Vec.radians; ring
    unfold Ellipse.bezierArc
    simp only [offset_rotate, hd1, hd2]
    refine ⟨trivial, ?_⟩
    ext <;> simp [Vec.rotate] <;> ring
  · intro c hc t h0 h1
    simp only [List.mem_map, List.mem_range] at hc
    obtain ⟨i, -, rfl⟩ := hc
    exact piece_close e hx hy _ step t hst0 hst1 h0 h1
  · intro c hc
    simp only [List.mem_map, List.mem_range] at hc
    obtain ⟨i, -, rfl⟩ := hc
    refine ⟨((ellipse_points e hx hy).1 _).1, ((ellipse_points e hx hy).1 _).1, ?_⟩
    obtain ⟨b0, b1, b2⟩ := half_bounds (start + i * step) step hst0 hst1
    have hpi := Real.pi_pos
    show ellipseValue _ _ _ _ _ = 1
    rw [bezierArc_value e hx hy _ _ _ b0 (by linarith)]
    norm_num
  · intro θ hθ0 hθ1
    -- the piece that contains the angle
    have hex : ∃ i : Nat, i < n ∧ start + i * step ≤ θ ∧ θ ≤ start + i * step + step := by
      by_cases hlast : θ = start + span
      · refine ⟨n - 1, by omega, ?_⟩
        have hc : ((n - 1 : ℕ) : ℝ) = n - 1 := by rw [Nat.cast_sub (by omega)]; simp
        rw [hc, hlast, ← hns]
        constructor <;> nlinarith
      · have hlt : θ < start + span := lt_of_le_of_ne hθ1 hlast
        have hq0 : 0 ≤ (θ - start) / step := div_nonneg (by linarith) hst0.le
        refine ⟨⌊(θ - start) / step⌋₊, ?_, ?_, ?_⟩
        · rw [Nat.floor_lt hq0, div_lt_iff₀ hst0, hns]; linarith
        · have := Nat.floor_le hq0
          rw [le_div_iff₀ hst0] at this
          linarith
        · have := (Nat.lt_floor_add_one ((θ - start) / step)).le
          rw [div_le_iff₀ hst0] at this
          linarith
    obtain ⟨i, hi, hi0, hi1⟩ := hex
    obtain ⟨t, ρ, h⟩ := piece_sweeps e hx hy (start + i * step) step θ hst0 hst1 hi0 hi1
    exact ⟨_, List.mem_map.2 ⟨i, List.mem_range.2 hi, rfl⟩, t, ρ, h⟩

/-! ## C140 -/

/-- C140. The Bézier curves of a closed ellipse, or of an arc that turns counter-clockwise: they start and stop at the ends of
the arc, each one starts where the one before stops with the same tangent vector, their ends and middles are on the ellipse,
each of their points is on the ellipse or outside by less than one part in 3600, and they run along the whole arc. -/
theorem to_bezier_partial (e : Ellipse) (hx : e.radiusX ≠ 0) (hy : e.radiusY ≠ 0) (start stop : ℝ) (hlt : start < stop)
    (hdom : e.domain = some ⟨start, stop⟩ ∨ (e.domain = none ∧ start = 0 ∧ stop = 360)) :
    ∃ curves, e.toBezier = .ok curves ∧
      (curves.head?.map (·.p0) = some (e.pointAtAngle start)) ∧ (curves.getLast?.map (·.p3) = some (e.pointAtAngle stop)) ∧
      (∀ i a b, curves[i]? = some a → curves[i + 1]? = some b → a.p3 = b.p0 ∧ a.p3 - a.p2 = b.p1 - b.p0) ∧
      (∀ c ∈ curves, ∀ t, 0 ≤ t → t ≤ 1 →
        1 ≤ ellipseValue e.center e.radiusX e.radiusY e.angle (c.pointAt t) ∧
        ellipseValue e.center e.radiusX e.radiusY e.angle (c.pointAt t) ≤ (1 + 1 / 3600) ^ 2) ∧
      (∀ c ∈ curves, c.p0 ∈ e.points ∧ c.p3 ∈ e.points ∧ c.pointAt (1 / 2) ∈ e.points) ∧
      (∀ θ, start ≤ θ → θ ≤ stop → ∃ c ∈ curves, ∃ t ρ, 0 ≤ t ∧ t ≤ 1 ∧ 1 ≤ ρ ∧ ρ ≤ 1 + 1 / 3600 ∧
        along e.center e.angle (c.pointAt t) = ρ * along e.center e.angle (e.pointAtAngle θ) ∧
        across e.center e.angle (c.pointAt t) = ρ * across e.center e.angle (e.pointAtAngle θ)) := by
  have he : e.bezierSpan = (start, stop - start) := by
    unfold Ellipse.bezierSpan
    rcases hdom with h | ⟨h, h1, h2⟩
    · rw [h]; simp only [Domain.span]; rw [abs_of_pos (by linarith)]
    · rw [h, h1, h2]; norm_num
  obtain ⟨curves, g1, g2, g3, g4, g5, g6, g7⟩ := toBezier_spec e hx hy start (stop - start) he (by linarith)
  rw [show start + (stop - start) = stop by ring] at g3 g7
  refine ⟨curves, g1, g2, g3, g4, fun c hc t h0 h1 => ?_, g6, g7⟩
  obtain ⟨a, b⟩ := g5 c hc t h0 h1
  exact ⟨a, b.trans (by norm_num)⟩

example : (Ellipse.new ⟨1, 2⟩ 20 10 60 (some ⟨30, 160⟩)).radiusX ≠ 0 ∧ (Ellipse.new ⟨1, 2⟩ 20 10 60 (some ⟨30, 160⟩)).radiusY ≠ 0 ∧
    (Ellipse.new ⟨1, 2⟩ 20 10 60 (some ⟨30, 160⟩)).domain = some ⟨30, 160⟩ ∧ (30 : ℝ) < 160 := by
  norm_num [Ellipse.new]

/-- C140. A closed ellipse gives four curves: the quarters are split with a tolerance of a thousandth of a degree. -/
theorem to_bezier_quarters (e : Ellipse) (hd : e.domain = none) : ∃ curves, e.toBezier = .ok curves ∧ curves.length = 4 := by
  have he : e.bezierSpan = (0, 360) := by unfold Ellipse.bezierSpan; rw [hd]
  have hn : Ellipse.numberOfSegments (360 : ℝ) = 4 := by
    unfold Ellipse.numberOfSegments
    rw [Nat.ceil_eq_iff (by norm_num)]
    rw [abs_of_pos (by norm_num)]
    norm_num
  refine ⟨_, toBezier_eq e (by rw [he]; norm_num), ?_⟩
  rw [List.length_map, List.length_range, he]
  exact hn

/-- C140. But an arc that turns clockwise is converted in the other direction: the curves stop at the mirror image of the stop
angle. -/
theorem to_bezier_clockwise (e : Ellipse) (hx : e.radiusX ≠ 0) (hy : e.radiusY ≠ 0) (start stop : ℝ) (hlt : stop < start)
    (hdom : e.domain = some ⟨start, stop⟩) :
    ∃ curves, e.toBezier = .ok curves ∧ (curves.head?.map (·.p0) = some (e.pointAtAngle start)) ∧
      (curves.getLast?.map (·.p3) = some (e.pointAtAngle (2 * start - stop))) := by
  have he : e.bezierSpan = (start, start - stop) := by
    unfold Ellipse.bezierSpan
    rw [hdom]; simp only [Domain.span]; rw [abs_of_neg (by linarith)]; congr 1; ring
  obtain ⟨curves, g1, g2, g3, -⟩ := toBezier_spec e hx hy start (start - stop) he (by linarith)
  rw [show start + (start - stop) = 2 * start - stop by ring] at g3
  exact ⟨curves, g1, g2, g3⟩

/-- C140 fails for the clockwise arcs: the curves do not stop where the arc does, whatever the ellipse and the bounds which are not a multiple of
half a turn apart. -/
theorem to_bezier_wrong (e : Ellipse) (hx : e.radiusX ≠ 0) (hy : e.radiusY ≠ 0) (start stop : ℝ) (hlt : stop < start)
    (hdom : e.domain = some ⟨start, stop⟩) (hne : ∀ n : ℤ, start - stop ≠ 180 * n) :
    ∃ curves, e.toBezier = .ok curves ∧ curves.getLast?.map (·.p3) ≠ e.startStopPoint false := by
  obtain ⟨curves, g1, -, g3⟩ := to_bezier_clockwise e hx hy start stop hlt hdom
  refine ⟨curves, g1, ?_⟩
  rw [g3]
  have hs : e.startStopPoint false = some (e.pointAtAngle stop) := by
    unfold Ellipse.startStopPoint
    rw [hdom]
    simp
  rw [hs]
  intro h
  injection h with h
  rw [Ellipse.pointAtAngle_frame, Ellipse.pointAtAngle_frame] at h
  have h2 := congrArg e.pointInFrame h
  rw [(frame_roundtrip e _).2, (frame_roundtrip e _).2, Vec.ext_iff] at h2
  obtain ⟨h3, h4⟩ := h2
  simp only [Vec.fromEllipse, Vec.radians] at h3 h4
  have h5 := mul_left_cancel₀ hx h3
  have h6 := mul_left_cancel₀ hy h4
  have hc : Real.cos ((2 * start - stop) * (Real.pi / 180) - stop * (Real.pi / 180)) = 1 := by
    rw [Real.cos_sub, h5, h6]
    have := Real.sin_sq_add_cos_sq (stop * (Real.pi / 180))
    linarith
  obtain ⟨n, hn⟩ := (Real.cos_eq_one_iff _).1 hc
  apply hne n
  apply mul_right_cancel₀ Real.pi_ne_zero
  linarith

/-- The arc from 90° to 0° of the ellipse with radii 2 and 1 stops at (2, 0), but its curves stop at (−2, 0). -/
example :
    let e := Ellipse.new ⟨0, 0⟩ 2 1 0 (some ⟨90, 0⟩)
    e.startStopPoint false = some ⟨2, 0⟩ ∧
    ∃ curves, e.toBezier = .ok curves ∧ (curves.getLast?.map (·.p3) = some ⟨-2, 0⟩) := by
  intro e
  have h180 : Vec.radians 180 = Real.pi := by unfold Vec.radians; ring
  constructor
  · simp only [e, Ellipse.startStopPoint, Ellipse.new, Ellipse.pointAtAngle, Vec.fromEllipse, Vec.radians]
    simp
    ext <;> simp
  · obtain ⟨curves, g1, -, g3⟩ := to_bezier_clockwise e (by norm_num [e, Ellipse.new]) (by norm_num [e, Ellipse.new]) 90 0
      (by norm_num) rfl
    refine ⟨curves, g1, ?_⟩
    rw [g3, show (2 : ℝ) * 90 - 0 = 180 by norm_num]
    simp only [e, Ellipse.new, Ellipse.pointAtAngle, Vec.fromEllipse, h180]
    simp
    ext <;> simp

/-- C140. An arc with equal bounds raises `ZeroDivisionError`. -/
theorem to_bezier_null (e : Ellipse) (a : ℝ) (hdom : e.domain = some ⟨a, a⟩) : e.toBezier = .error .zeroDivisionError := by
  have he : e.bezierSpan = (a, 0) := by
    unfold Ellipse.bezierSpan; rw [hdom]; simp [Domain.span]
  unfold Ellipse.toBezier
  rw [he]
  simp [Ellipse.numberOfSegments]

end Patro.Conic
