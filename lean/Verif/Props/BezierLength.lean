import Verif.Props.BezierReal
import Mathlib.Analysis.SpecialFunctions.Log.Deriv
import Mathlib.Analysis.SpecialFunctions.Sqrt
/-! # C97, C98, C104, C105: lengths of Bezier curves -/

namespace Patro.Bezier

open Classical

/-! ## C97 -/

/-- The speed of a quadratic curve. -/
theorem quad_speed (q : Quad ℝ) (t : ℝ) :
    Real.sqrt (deriv (fun t => (q.pointAt t).x) t ^ 2 + deriv (fun t => (q.pointAt t).y) t ^ 2) =
    Real.sqrt (4 * (q.p0 - q.p1.smul 2 + q.p2).dot (q.p0 - q.p1.smul 2 + q.p2) * t ^ 2 +
      8 * (q.p1 - q.p0).dot (q.p0 - q.p1.smul 2 + q.p2) * t + 4 * (q.p1 - q.p0).dot (q.p1 - q.p0)) := by
  congr 1
  rw [(quad_deriv q t).1, (quad_deriv q t).2]
  simp [Quad.tangentAt, Vec.dot]
  ring

/-- The arguments of `math.sqrt` in `length` are never negative, so that `math.sqrt` does not raise there. -/
theorem length_args (A0 A1 : Vec ℝ) : 0 ≤ 4 * A0.dot A0 ∧ 0 ≤ 4 * A1.dot A1 + 8 * A0.dot A1 + 4 * A0.dot A0 ∧
    0 ≤ 4 * A1.dot A1 * (4 * A1.dot A1 + 8 * A0.dot A1 + 4 * A0.dot A0) ∧ 0 ≤ 4 * A1.dot A1 * (4 * A0.dot A0) := by
  have hcc : ∀ v : Vec ℝ, 0 ≤ v.dot v := by intro v; simp only [Vec.dot]; nlinarith [sq_nonneg v.x, sq_nonneg v.y]
  have h1 := hcc A0
  have h2 := hcc A1
  have h3 : 0 ≤ 4 * A1.dot A1 + 8 * A0.dot A1 + 4 * A0.dot A0 := by
    have : 4 * A1.dot A1 + 8 * A0.dot A1 + 4 * A0.dot A0 = 4 * (A0 + A1).dot (A0 + A1) := by
      simp [Vec.dot]; ring
    rw [this]; exact mul_nonneg (by norm_num) (hcc _)
  exact ⟨by linarith, h3, mul_nonneg (by linarith) h3, mul_nonneg (by linarith) (by linarith)⟩

/-- The integral of the root of a quadratic polynomial without real root. -/
theorem integral_sqrt_quadratic (a b c : ℝ) (hc : 0 < c) (hq : 0 < 4 * a * c - b * b) :
    ∫ t in (0 : ℝ)..1, Real.sqrt (c * t ^ 2 + b * t + a) =
      0.25 / c * ((2 * c + b) * Real.sqrt (c + b + a) - b * Real.sqrt a) +
      (4 * a * c - b * b) / (8 * (c * Real.sqrt c)) *
        (Real.log (2 * Real.sqrt (c * (c + b + a)) + (2 * c + b)) - Real.log (2 * Real.sqrt (c * a) + b)) := by
  have hQ : ∀ t, 0 < c * t ^ 2 + b * t + a := by
    intro t
    have : 0 < 4 * c * (c * t ^ 2 + b * t + a) := by nlinarith [sq_nonneg (2 * c * t + b)]
    by_contra h
    push Not at h
    nlinarith
  have harg : ∀ t, 0 < 2 * Real.sqrt (c * (c * t ^ 2 + b * t + a)) + (2 * c * t + b) := by
    intro t
    have h1 : |2 * c * t + b| < 2 * Real.sqrt (c * (c * t ^ 2 + b * t + a)) := by
      apply abs_lt_of_sq_lt_sq _ (by positivity)
      rw [mul_pow, Real.sq_sqrt (mul_pos hc (hQ t)).le]
      nlinarith
    have := neg_abs_le (2 * c * t + b)
    linarith
  have hF : ∀ t ∈ Set.uIcc (0 : ℝ) 1, HasDerivAt (fun t => (2 * c * t + b) / (4 * c) * Real.sqrt (c * t ^ 2 + b * t + a) +
      (4 * a * c - b * b) / (8 * (c * Real.sqrt c)) * Real.log (2 * Real.sqrt (c * (c * t ^ 2 + b * t + a)) + (2 * c * t + b)))
      (Real.sqrt (c * t ^ 2 + b * t + a)) t := by
    intro t _
    have hp : HasDerivAt (fun t => c * t ^ 2 + b * t + a) (2 * c * t + b) t := by
      refine HasDerivAt.congr_deriv (f := fun t => c * t ^ 2 + b * t + a)
        ((((hasDerivAt_pow 2 t).const_mul c).add ((hasDerivAt_id t).const_mul b)).add_const a) ?_
      simp; ring
    have hs := hp.sqrt (hQ t).ne'
    have hl : HasDerivAt (fun t => (2 * c * t + b) / (4 * c)) (1 / 2) t := by
      refine HasDerivAt.congr_deriv (f := fun t => (2 * c * t + b) / (4 * c))
        (((((hasDerivAt_id t).const_mul (2 * c)).add_const b)).div_const (4 * c)) ?_
      field_simp; norm_num
    have hcp := (hp.const_mul c).sqrt (mul_pos hc (hQ t)).ne'
    have hlin : HasDerivAt (fun t => 2 * c * t + b) (2 * c) t := by
      refine HasDerivAt.congr_deriv (f := fun t => 2 * c * t + b) (((hasDerivAt_id t).const_mul (2 * c)).add_const b) ?_
      simp
    have hlog := ((hcp.const_mul 2).add hlin).log (harg t).ne'
    have := (hl.mul hs).add (hlog.const_mul ((4 * a * c - b * b) / (8 * (c * Real.sqrt c))))
    refine HasDerivAt.congr_deriv this ?_
    have ha := harg t
    have hQt := hQ t
    simp only [Pi.add_apply]
    have hsc : Real.sqrt (c * (c * t ^ 2 + b * t + a)) = Real.sqrt c * Real.sqrt (c * t ^ 2 + b * t + a) := Real.sqrt_mul hc.le _
    rw [hsc] at ha ⊢
    have e1 : Real.sqrt c ^ 2 = c := Real.sq_sqrt hc.le
    have e2 : Real.sqrt (c * t ^ 2 + b * t + a) ^ 2 = c * t ^ 2 + b * t + a := Real.sq_sqrt hQt.le
    have p1 : 0 < Real.sqrt c := Real.sqrt_pos.2 hc
    have p2 : 0 < Real.sqrt (c * t ^ 2 + b * t + a) := Real.sqrt_pos.2 hQt
    generalize Real.sqrt (c * t ^ 2 + b * t + a) = S at *
    generalize Real.sqrt c = R at *
    have hfrac : (2 * (c * (2 * c * t + b) / (2 * (R * S))) + 2 * c) / (2 * (R * S) + (2 * c * t + b)) = R / S := by
      rw [div_eq_div_iff ha.ne' p2.ne']
      field_simp
      rw [← e1]; ring
    rw [hfrac]
    have h4 : 4 * c * (c * t ^ 2 + b * t + a) = (2 * c * t + b) ^ 2 + (4 * a * c - b * b) := by ring
    rw [← e2] at h4
    field_simp
    rw [← e2] at *
    nlinarith [h4]
  have := intervalIntegral.integral_eq_sub_of_hasDerivAt hF
    (Continuous.intervalIntegrable (by fun_prop) 0 1)
  rw [this]
  have n1 : c * 1 ^ 2 + b * 1 + a = c + b + a := by ring
  have n0 : c * 0 ^ 2 + b * 0 + a = a := by ring
  rw [n1, n0]
  have m1 : 2 * c * 1 + b = 2 * c + b := by ring
  have m0 : 2 * c * 0 + b = b := by ring
  rw [m1, m0]
  field_simp
  ring

/-- The integral of the root of a quadratic polynomial with a double root that is not positive. -/
theorem integral_sqrt_square (a b c : ℝ) (hc : 0 < c) (hb : 0 ≤ b) (hq : 4 * a * c - b * b = 0) :
    ∫ t in (0 : ℝ)..1, Real.sqrt (c * t ^ 2 + b * t + a) =
      0.25 / c * ((2 * c + b) * Real.sqrt (c + b + a) - b * Real.sqrt a) := by
  have p1 : 0 < Real.sqrt c := Real.sqrt_pos.2 hc
  have e1 : Real.sqrt c ^ 2 = c := Real.sq_sqrt hc.le
  have ha : a = b * b / (4 * c) := by field_simp; linarith
  have hQ : ∀ t, 0 ≤ t → Real.sqrt (c * t ^ 2 + b * t + a) = (2 * c * t + b) / (2 * Real.sqrt c) := by
    intro t ht
    have : c * t ^ 2 + b * t + a = ((2 * c * t + b) / (2 * Real.sqrt c)) ^ 2 := by
      rw [div_pow, mul_pow, e1, ha]; field_simp; ring
    rw [this, Real.sqrt_sq (by positivity)]
  have h1 := hQ 1 (by norm_num)
  have h0 := hQ 0 le_rfl
  rw [show c * 1 ^ 2 + b * 1 + a = c + b + a by ring] at h1
  rw [show c * 0 ^ 2 + b * 0 + a = a by ring] at h0
  rw [intervalIntegral.integral_congr (g := fun t => (2 * c * t + b) / (2 * Real.sqrt c)), h1, h0]
  · have hF : ∀ t ∈ Set.uIcc (0 : ℝ) 1, HasDerivAt (fun t => (c * t ^ 2 + b * t) / (2 * Real.sqrt c)) ((2 * c * t + b) / (2 * Real.sqrt c)) t := by
      intro t _
      refine HasDerivAt.congr_deriv (f := fun t => (c * t ^ 2 + b * t) / (2 * Real.sqrt c))
        ((((hasDerivAt_pow 2 t).const_mul c).add ((hasDerivAt_id t).const_mul b)).div_const _) ?_
      simp; ring
    rw [intervalIntegral.integral_eq_sub_of_hasDerivAt hF (Continuous.intervalIntegrable (by fun_prop) 0 1)]
    field_simp
    ring
  · intro t ht
    rw [Set.uIcc_of_le zero_le_one] at ht
    exact hQ t ht.1

/-- The control points are on one line and the two sides of the control polygon differ, in such a way that the point does not gain speed
from the start. -/
def Quad.Degenerate (q : Quad ℝ) : Prop :=
  (q.p1 - q.p0).cross (q.p2 - q.p1) = 0 ∧ q.p2 - q.p1 ≠ q.p1 - q.p0 ∧ (q.p1 - q.p0).dot ((q.p2 - q.p1) - (q.p1 - q.p0)) ≤ 0

/-- C97, the complete behaviour: `length` is the length of the curve, except when the control points are on a line and the point does not
gain speed from the start, in which case it raises `ValueError`. -/
theorem quad_length (q : Quad ℝ) :
    (q.Degenerate → q.length = .error .valueError) ∧ (¬ q.Degenerate → q.length = .ok (arcLength q.pointAt 0 1)) := by
  have hcc : ∀ v : Vec ℝ, v.dot v = v.x ^ 2 + v.y ^ 2 := by intro v; simp [Vec.dot]; ring
  obtain ⟨A0, eA0⟩ : ∃ A0, A0 = q.p1 - q.p0 := ⟨_, rfl⟩
  obtain ⟨A1, eA1⟩ : ∃ A1, A1 = q.p0 - q.p1.smul 2 + q.p2 := ⟨_, rfl⟩
  have hA1 : (q.p2 - q.p1) - (q.p1 - q.p0) = A1 := by rw [eA1]; ext <;> simp <;> ring
  have hchg : q.p2 - q.p1 ≠ q.p1 - q.p0 ↔ A1 ≠ 0 := by
    rw [← hA1, not_iff_not]
    constructor
    · intro h; rw [h]; ext <;> simp
    · intro h
      have hx := congrArg Vec.x h; have hy := congrArg Vec.y h
      simp at hx hy
      ext <;> simp <;> linarith
  have hcross : (q.p1 - q.p0).cross (q.p2 - q.p1) = A0.cross A1 := by
    rw [eA0, eA1]; simp [Vec.cross]; ring
  have hdeg : q.Degenerate ↔ A0.cross A1 = 0 ∧ A1 ≠ 0 ∧ A0.dot A1 ≤ 0 := by
    rw [Quad.Degenerate, hcross, hchg, hA1, eA0]
  rw [hdeg, arcLength]
  simp only [quad_speed]
  rw [← eA0, ← eA1]
  have hms : A1.magnitudeSquare ≠ 0 ↔ A1 ≠ 0 := by
    rw [not_iff_not]
    constructor
    · intro h
      simp [Vec.magnitudeSquare] at h
      ext <;> simp <;> nlinarith [sq_nonneg A1.x, sq_nonneg A1.y]
    · rintro rfl; simp [Vec.magnitudeSquare]
  have hq : 4 * (4 * A0.dot A0) * (4 * A1.dot A1) - 8 * A0.dot A1 * (8 * A0.dot A1) = 64 * A0.cross A1 ^ 2 := by
    simp [Vec.dot, Vec.cross]; ring
  by_cases h : A1 = 0
  · constructor
    · intro h'; exact absurd h h'.2.1
    · intro _
      have : q.length = .ok (2 * A0.magnitude) := by
        have hz : A1.magnitudeSquare = 0 := not_not.1 (fun c => hms.1 c h)
        rw [eA1] at hz
        simp only [Quad.length, hz, ne_eq, not_true_eq_false, if_false, eA0]
        rfl
      rw [this]
      congr 1
      have e : ∀ t : ℝ, Real.sqrt (4 * A1.dot A1 * t ^ 2 + 8 * A0.dot A1 * t + 4 * A0.dot A0) = 2 * A0.magnitude := by
        intro t
        rw [h]
        have : 4 * Vec.dot (0 : Vec ℝ) 0 * t ^ 2 + 8 * A0.dot 0 * t + 4 * A0.dot A0 = (2 * A0.magnitude) ^ 2 := by
          rw [mul_pow, sq A0.magnitude, Vec.magnitude_mul_self]
          simp only [Vec.dot, Vec.magnitudeSquare, Vec.zero_x, Vec.zero_y]; ring
        rw [this, Real.sqrt_sq (by simp [Vec.magnitude])]
      simp [e]
  · have hc : 0 < 4 * A1.dot A1 := by
      rw [hcc]
      have : A1.x ≠ 0 ∨ A1.y ≠ 0 := by
        by_contra hn; push Not at hn; exact h (by ext <;> simp [hn.1, hn.2])
      rcases this with h' | h' <;> positivity
    have hlen : q.length = (do
        let l1 ← pyLog (2 * Real.sqrt (4 * A1.dot A1 * (4 * A1.dot A1 + 8 * A0.dot A1 + 4 * A0.dot A0)) + (2 * (4 * A1.dot A1) + 8 * A0.dot A1))
        let l0 ← pyLog (2 * Real.sqrt (4 * A1.dot A1 * (4 * A0.dot A0)) + 8 * A0.dot A1)
        return 0.25 / (4 * A1.dot A1) * ((2 * (4 * A1.dot A1) + 8 * A0.dot A1) * Real.sqrt (4 * A1.dot A1 + 8 * A0.dot A1 + 4 * A0.dot A0) - 8 * A0.dot A1 * Real.sqrt (4 * A0.dot A0)) +
          (4 * (4 * A0.dot A0) * (4 * A1.dot A1) - 8 * A0.dot A1 * (8 * A0.dot A1)) / (8 * (4 * A1.dot A1) ^ (1.5 : ℝ)) * (l1 - l0)) := by
      have hz := hms.2 h
      rw [eA1] at hz
      simp only [Quad.length, hz, ne_eq, not_false_iff, if_true, eA0, eA1]
    have hpow : (4 * A1.dot A1) ^ (1.5 : ℝ) = 4 * A1.dot A1 * Real.sqrt (4 * A1.dot A1) := by
      rw [show (1.5 : ℝ) = 1 + 1 / 2 by norm_num, Real.rpow_add hc, Real.rpow_one, Real.sqrt_eq_rpow]
    rw [hlen, hpow]
    have ha0 : 0 ≤ 4 * A0.dot A0 := by rw [hcc]; positivity
    have hs0 : 0 ≤ 4 * A1.dot A1 + 8 * A0.dot A1 + 4 * A0.dot A0 := by
      have : 4 * A1.dot A1 + 8 * A0.dot A1 + 4 * A0.dot A0 = 4 * ((A0.x + A1.x) ^ 2 + (A0.y + A1.y) ^ 2) := by
        simp [Vec.dot]; ring
      rw [this]; positivity
    clear hlen hpow hms hdeg hchg
    generalize 4 * A1.dot A1 = c at *
    obtain ⟨b, eb⟩ : ∃ b, b = 8 * A0.dot A1 := ⟨_, rfl⟩
    have hdot : A0.dot A1 ≤ 0 ↔ b ≤ 0 := by rw [eb]; constructor <;> intro h <;> linarith
    rw [hdot]
    rw [← eb] at hq hs0 ⊢
    generalize 4 * A0.dot A0 = a at *
    by_cases hx : A0.cross A1 = 0
    · rw [hx] at hq
      have hq : 4 * a * c - b * b = 0 := by rw [hq]; ring
      have r0 : Real.sqrt (c * a) = |b| / 2 := by
        rw [show c * a = (|b| / 2) ^ 2 by rw [div_pow, sq_abs]; linarith, Real.sqrt_sq (by positivity)]
      have r1 : Real.sqrt (c * (c + b + a)) = |2 * c + b| / 2 := by
        rw [show c * (c + b + a) = (|2 * c + b| / 2) ^ 2 by rw [div_pow, sq_abs]; linarith, Real.sqrt_sq (by positivity)]
      constructor
      · rintro ⟨-, -, hb⟩
        rw [r0, abs_of_nonpos hb]
        have : pyLog (2 * (-b / 2) + b) = .error .valueError := by
          rw [pyLog, if_neg]; linarith
        rw [this]
        rw [pyLog]
        split <;> rfl
      · intro hn
        have hb : 0 < b := by by_contra hb; exact hn ⟨hx, h, not_lt.1 hb⟩
        rw [r0, r1, abs_of_pos hb, abs_of_pos (by linarith), pyLog, if_pos (by linarith), pyLog, if_pos (by linarith), hq,
          integral_sqrt_square a b c hc hb.le hq]
        simp [bind, Except.bind, pure, Except.pure]
    · have hq : 0 < 4 * a * c - b * b := by rw [hq]; positivity
      refine ⟨fun h' => absurd h'.1 hx, fun _ => ?_⟩
      have g0 : 0 < 2 * Real.sqrt (c * a) + b := by
        have h1 : |b| < 2 * Real.sqrt (c * a) := by
          apply abs_lt_of_sq_lt_sq _ (by positivity)
          rw [mul_pow, Real.sq_sqrt (mul_nonneg hc.le ha0)]
          nlinarith
        have := neg_abs_le b
        linarith
      have g1 : 0 < 2 * Real.sqrt (c * (c + b + a)) + (2 * c + b) := by
        have h1 : |2 * c + b| < 2 * Real.sqrt (c * (c + b + a)) := by
          apply abs_lt_of_sq_lt_sq _ (by positivity)
          rw [mul_pow, Real.sq_sqrt (mul_nonneg hc.le hs0)]
          nlinarith
        have := neg_abs_le (2 * c + b)
        linarith
      rw [pyLog, if_pos g1, pyLog, if_pos g0, integral_sqrt_quadratic a b c hc hq]
      simp [bind, Except.bind, pure, Except.pure]

example : (⟨⟨0, 0⟩, ⟨1, 2⟩, ⟨2, 0⟩⟩ : Quad ℝ).length = .ok (arcLength (⟨⟨0, 0⟩, ⟨1, 2⟩, ⟨2, 0⟩⟩ : Quad ℝ).pointAt 0 1) :=
  (quad_length _).2 (by simp [Quad.Degenerate, Vec.cross]; norm_num)

/-- C97 is false in general: the length of a quadratic curve along a line, with speed decreasing, raises `ValueError`. -/
theorem quad_length_wrong : (⟨⟨0, 0⟩, ⟨2, 0⟩, ⟨3, 0⟩⟩ : Quad ℝ).length = .error .valueError :=
  (quad_length _).1 ⟨by simp [Vec.cross], by
    intro h
    have := congrArg Vec.x h
    norm_num at this, by simp [Vec.dot]; norm_num⟩

/-! ## C98 -/

/-- The third difference of the control points, `p3 - 3 p2 + 3 p1 - p0`: null exactly when the curve is of degree at most two. -/
def Cubic.third (c : Cubic ℝ) : Vec ℝ := c.p3 - c.p2.smul 3 + c.p1.smul 3 - c.p0

theorem third_left (c : Cubic ℝ) (t : ℝ) : (c.splitAt t).1.third = c.third.smul (t ^ 3) := by
  ext <;> simp [Cubic.third, Cubic.splitAt, interpolate] <;> ring

theorem third_right (c : Cubic ℝ) (t : ℝ) : (c.splitAt t).2.third = c.third.smul ((1 - t) ^ 3) := by
  ext <;> simp [Cubic.third, Cubic.splitAt, interpolate] <;> ring

theorem tMax_error (c : Cubic ℝ) (h : c.third = 0) : c.tMax = .error .zeroDivisionError := by
  have h0 : c.d01 = 0 := by
    rw [Cubic.d01]
    rw [Cubic.third] at h
    rw [h, (Vec.magnitude_eq_zero 0).2 rfl]; simp
  simp only [Cubic.tMax, h0, Vec.pyDiv, if_true]
  rfl

/-- The value of `_t_max`: positive, and its cube is `κ / |n|`. -/
theorem tMax_ok (c : Cubic ℝ) (h : c.third ≠ 0) :
    ∃ t, c.tMax = .ok t ∧ 0 < t ∧ t ^ 3 * c.third.magnitude = 36 / Real.sqrt 3 * precision := by
  have hm := Vec.magnitude_pos _ h
  have hd : c.d01 = c.third.magnitude / 2 := rfl
  have hd0 : c.d01 ≠ 0 := by rw [hd]; positivity
  have h3 : 0 < Real.sqrt 3 := by positivity
  have hp : (0 : ℝ) < precision := by norm_num [precision]
  have hx : 0 < 18 / Real.sqrt 3 * precision / c.d01 := by rw [hd]; positivity
  refine ⟨(18 / Real.sqrt 3 * precision / c.d01) ^ (1 / 3 : ℝ), ?_, Real.rpow_pos_of_pos hx _, ?_⟩
  · simp only [Cubic.tMax, Vec.pyDiv_ok _ _ hd0]; rfl
  · rw [← Real.rpow_natCast, ← Real.rpow_mul hx.le]
    norm_num
    rw [hd]
    field_simp
    norm_num

theorem pow3_inj {a b : ℝ} (ha : 0 < a) (hb : 0 < b) (h : a ^ 3 = b ^ 3) : a = b :=
  (pow_left_inj₀ ha.le hb.le (by norm_num)).1 h

/-- The split value of the right part. -/
theorem tMax_right (c : Cubic ℝ) (h : c.third ≠ 0) (t : ℝ) (ht : c.tMax = .ok t) (h1 : t < 1) :
    0 < t ∧ (c.splitAt t).2.third ≠ 0 ∧ (c.splitAt t).2.tMax = .ok (t / (1 - t)) := by
  obtain ⟨t', e, hpos, hcube⟩ := tMax_ok c h
  rw [e] at ht
  injection ht with ht
  subst ht
  have hr : (c.splitAt t').2.third ≠ 0 := by
    rw [third_right]
    intro h'
    have h'' := (Vec.magnitude_eq_zero _).2 h'
    rw [Vec.magnitude_smul] at h''
    have := Vec.magnitude_pos _ h
    have h2 : 0 < 1 - t' := by linarith
    have h3 : 0 < |(1 - t') ^ 3| * c.third.magnitude := by positivity
    linarith
  obtain ⟨u, eu, hu, hucube⟩ := tMax_ok _ hr
  refine ⟨hpos, hr, ?_⟩
  rw [eu]
  congr 1
  have hp1 : 0 < 1 - t' := by linarith
  apply pow3_inj hu (by positivity)
  rw [third_right, Vec.magnitude_smul, abs_of_pos (by positivity), ← hcube] at hucube
  have := Vec.magnitude_pos _ h
  rw [div_pow, eq_div_iff (by positivity)]
  have : (u ^ 3 * (1 - t') ^ 3) * c.third.magnitude = t' ^ 3 * c.third.magnitude := by linarith
  exact mul_right_cancel₀ (by positivity) this

/-- The parts of a part are parts. -/
theorem covers_trans (f g : ℝ → Vec ℝ) (a b : ℝ) (hab : a < b) (h : IsPart f g a b) :
    ∀ (l : List (ℝ → Vec ℝ)) (s t : ℝ), Covers g l s t → Covers f l (a + s * (b - a)) (a + t * (b - a))
  | [], s, t, hc => by simp only [Covers] at *; rw [hc]
  | k :: l, s, t, hc => by
    obtain ⟨m, h1, h2, h3, h4⟩ := hc
    have hba : 0 < b - a := by linarith
    refine ⟨a + m * (b - a), by nlinarith, by nlinarith, fun x => ?_, covers_trans f g a b hab h l m t h4⟩
    rw [h3 x, h]
    congr 1
    ring

/-- The loop ends after `⌈1 / tMax⌉` segments, which cover the curve. -/
theorem adaptiveLoop_spec : ∀ (fuel : Nat) (c : Cubic ℝ) (t : ℝ), c.third ≠ 0 → c.tMax = .ok t → 1 / t ≤ fuel + 1 →
    ∃ segs, adaptiveLoop fuel c t = some (.ok segs) ∧ segs.length = ⌈1 / t⌉₊ ∧ Covers c.pointAt (segs.map Cubic.pointAt) 0 1 ∧
      ∀ s ∈ segs, s.third.magnitude ≤ 36 / Real.sqrt 3 * precision := by
  intro fuel
  induction fuel with
  | zero =>
    intro c t hn ht hf
    obtain ⟨t', e, hpos, hcube⟩ := tMax_ok c hn
    rw [e] at ht; injection ht with ht; subst ht
    have h1 : 1 ≤ t' := by
      rw [div_le_iff₀ hpos] at hf; simpa using hf
    refine ⟨[c], ?_, ?_, ?_, ?_⟩
    · rw [adaptiveLoop, if_neg (not_lt.2 h1)]
    · simp only [List.length_singleton]
      symm
      rw [Nat.ceil_eq_iff (by norm_num)]
      constructor
      · simpa using hpos
      · rw [div_le_iff₀ hpos]; simpa using h1
    · refine ⟨1, by norm_num, le_rfl, fun s => ?_, rfl⟩
      congr 1; ring
    · intro s hs
      rw [List.mem_singleton] at hs
      rw [hs, ← hcube]
      have : 1 ≤ t' ^ 3 := one_le_pow₀ h1
      nlinarith [Vec.magnitude_nonneg c.third]
  | succ fuel ih =>
    intro c t hn ht hf
    obtain ⟨t', e, hpos, hcube⟩ := tMax_ok c hn
    have ht0 := ht
    rw [e] at ht; injection ht with ht; subst ht
    rcases lt_or_ge t' 1 with h1 | h1
    · obtain ⟨-, hr, htr⟩ := tMax_right c hn t' ht0 h1
      have hp1 : 0 < 1 - t' := by linarith
      have hinv : 1 / (t' / (1 - t')) = 1 / t' - 1 := by field_simp
      obtain ⟨segs, e1, e2, e3, e4⟩ := ih _ _ hr htr (by rw [hinv]; push_cast at hf; linarith)
      refine ⟨(c.splitAt t').1 :: segs, ?_, ?_, ?_, ?_⟩
      · rw [adaptiveLoop, if_pos h1]
        simp only [htr, e1, Option.map_some]
        rfl
      · rw [List.length_cons, e2, hinv, Nat.ceil_sub_one]
        have : 0 < ⌈1 / t'⌉₊ := Nat.ceil_pos.2 (by positivity)
        omega
      · rw [List.map_cons]
        refine ⟨t', hpos, h1.le, (cubic_split c t').1, ?_⟩
        have := covers_trans _ _ t' 1 h1 (cubic_split c t').2.1 _ _ _ e3
        simpa using this
      · intro s hs
        rcases List.mem_cons.1 hs with rfl | hs
        · rw [third_left, Vec.magnitude_smul, abs_of_pos (by positivity), hcube]
        · exact e4 s hs
    · refine ⟨[c], ?_, ?_, ?_, ?_⟩
      · rw [adaptiveLoop, if_neg (not_lt.2 h1)]
      · simp only [List.length_singleton]
        symm
        rw [Nat.ceil_eq_iff (by norm_num)]
        constructor
        · simpa using hpos
        · rw [div_le_iff₀ hpos]; simpa using h1
      · refine ⟨1, by norm_num, le_rfl, fun s => ?_, rfl⟩
        congr 1; ring
      · intro s hs
        rw [List.mem_singleton] at hs
        rw [hs, ← hcube]
        have : 1 ≤ t' ^ 3 := one_le_pow₀ h1
        nlinarith [Vec.magnitude_nonneg c.third]

/-- The difference of a cubic curve and its mid-point quadratic curve. -/
theorem midQuad_diff (c : Cubic ℝ) (t : ℝ) :
    c.pointAt t - c.midQuad.pointAt t = c.third.smul (t * (t - 1 / 2) * (t - 1)) := by
  ext <;> simp [Cubic.pointAt, Quad.pointAt, Cubic.midQuad, Cubic.qPoint, Cubic.third] <;> ring

theorem cubic_factor_bound (t : ℝ) (h0 : 0 ≤ t) (h1 : t ≤ 1) : |t * (t - 1 / 2) * (t - 1)| ≤ Real.sqrt 3 / 36 := by
  apply abs_le_of_sq_le_sq _ (by positivity)
  rw [div_pow, Real.sq_sqrt (by norm_num)]
  have hu : 0 ≤ t * (1 - t) := mul_nonneg h0 (by linarith)
  have : (t * (t - 1 / 2) * (t - 1)) ^ 2 = (t * (1 - t)) ^ 2 * (1 / 4 - t * (1 - t)) := by ring
  rw [this]
  generalize t * (1 - t) = u at *
  nlinarith [mul_nonneg hu (sq_nonneg (u - 1 / 6)), sq_nonneg (u - 1 / 6)]

/-- The speed of a curve. -/
noncomputable def speed (f : ℝ → Vec ℝ) (t : ℝ) : ℝ :=
  Real.sqrt (deriv (fun t => (f t).x) t ^ 2 + deriv (fun t => (f t).y) t ^ 2)

theorem arcLength_part (f g : ℝ → Vec ℝ) (a b : ℝ) (hab : a < b) (h : IsPart f g a b) : arcLength g 0 1 = arcLength f a b := by
  have hd : ∀ (p : Vec ℝ → ℝ) (s : ℝ), deriv (fun s => p (g s)) s = (b - a) * deriv (fun t => p (f t)) (a + s * (b - a)) := by
    intro p s
    have : (fun s => p (g s)) = fun s => (fun u => p (f (a + u))) ((b - a) * s) := by
      funext s; simp only; rw [h s, mul_comm]
    rw [this, show deriv (fun s => (fun u => p (f (a + u))) ((b - a) * s)) s = _ from deriv_comp_mul_left (b - a) (fun u => p (f (a + u))) s,
      deriv_comp_const_add (fun t => p (f t)) a]
    rw [mul_comm s, smul_eq_mul]
  have hs : ∀ s, speed g s = (b - a) * speed f ((b - a) * s + a) := by
    intro s
    rw [speed, hd Vec.x, hd Vec.y, speed]
    rw [show a + s * (b - a) = (b - a) * s + a by ring, mul_pow, mul_pow, ← mul_add, Real.sqrt_mul (sq_nonneg _),
      Real.sqrt_sq (by linarith)]
  have e1 : arcLength g 0 1 = ∫ s in (0 : ℝ)..1, speed g s := rfl
  rw [e1]
  simp only [hs]
  rw [intervalIntegral.integral_const_mul, intervalIntegral.mul_integral_comp_mul_add]
  have e2 : arcLength f a b = ∫ s in a..b, speed f s := rfl
  rw [e2]
  congr 1 <;> ring

theorem speed_continuous (c : Cubic ℝ) : Continuous (speed c.pointAt) := by
  have : speed c.pointAt = fun t => Real.sqrt ((3 * (c.tangentAt t).x) ^ 2 + (3 * (c.tangentAt t).y) ^ 2) := by
    funext t; rw [speed, (cubic_deriv c t).1, (cubic_deriv c t).2]
  rw [this]
  simp only [Cubic.tangentAt, Vec.add_x, Vec.add_y, Vec.smul_x, Vec.smul_y]
  fun_prop

theorem quad_speed_continuous (c : Quad ℝ) : Continuous (speed c.pointAt) := by
  have : speed c.pointAt = fun t => Real.sqrt ((2 * (c.tangentAt t).x) ^ 2 + (2 * (c.tangentAt t).y) ^ 2) := by
    funext t; rw [speed, (quad_deriv c t).1, (quad_deriv c t).2]
  rw [this]
  simp only [Quad.tangentAt, Vec.add_x, Vec.add_y, Vec.smul_x, Vec.smul_y]
  fun_prop

theorem arcLength_covers (c : Cubic ℝ) : ∀ (l : List (Cubic ℝ)) (a b : ℝ), Covers c.pointAt (l.map Cubic.pointAt) a b →
    (l.map fun k => arcLength k.pointAt 0 1).sum = arcLength c.pointAt a b
  | [], a, b, h => by simp only [List.map_nil, Covers] at h; simp [h, arcLength]
  | k :: l, a, b, h => by
    obtain ⟨m, h1, h2, h3, h4⟩ := h
    rw [List.map_cons, List.sum_cons, arcLength_covers c l m b h4, arcLength_part _ _ _ _ h1 h3]
    exact intervalIntegral.integral_add_adjacent_intervals ((speed_continuous c).intervalIntegrable _ _)
      ((speed_continuous c).intervalIntegrable _ _)

/-- The integral of the absolute value of the difference of speeds. -/
theorem integral_abs_factor : ∫ t in (0 : ℝ)..1, |3 * t ^ 2 - 3 * t + 1 / 2| = Real.sqrt 3 / 9 := by
  have h3 : Real.sqrt 3 ^ 2 = 3 := Real.sq_sqrt (by norm_num)
  have hlt : Real.sqrt 3 < 2 := by nlinarith [Real.sqrt_nonneg 3]
  have hpos : 0 < Real.sqrt 3 := by positivity
  generalize Real.sqrt 3 = w at *
  have hG : ∀ a b : ℝ, ∫ t in a..b, (3 * t ^ 2 - 3 * t + 1 / 2) = b * (b - 1 / 2) * (b - 1) - a * (a - 1 / 2) * (a - 1) := by
    intro a b
    have hF : ∀ t ∈ Set.uIcc a b, HasDerivAt (fun t => t * (t - 1 / 2) * (t - 1)) (3 * t ^ 2 - 3 * t + 1 / 2) t := by
      intro t _
      refine HasDerivAt.congr_deriv (f := fun t => t * (t - 1 / 2) * (t - 1))
        (((hasDerivAt_id t).mul ((hasDerivAt_id t).sub_const (1 / 2))).mul ((hasDerivAt_id t).sub_const 1)) ?_
      simp; ring
    exact intervalIntegral.integral_eq_sub_of_hasDerivAt hF (Continuous.intervalIntegrable (by fun_prop) _ _)
  have hfac : ∀ t : ℝ, 3 * t ^ 2 - 3 * t + 1 / 2 = 3 * (t - (1 / 2 - w / 6)) * (t - (1 / 2 + w / 6)) := by
    intro t; nlinarith
  have hint : ∀ a b : ℝ, IntervalIntegrable (fun t : ℝ => |3 * t ^ 2 - 3 * t + 1 / 2|) MeasureTheory.volume a b := by
    intro a b; exact Continuous.intervalIntegrable (by fun_prop) _ _
  rw [← intervalIntegral.integral_add_adjacent_intervals (hint 0 (1 / 2 - w / 6)) (hint _ 1),
    ← intervalIntegral.integral_add_adjacent_intervals (hint (1 / 2 - w / 6) (1 / 2 + w / 6)) (hint _ 1)]
  have i1 : ∫ t in (0 : ℝ)..(1 / 2 - w / 6), |3 * t ^ 2 - 3 * t + 1 / 2| = ∫ t in (0 : ℝ)..(1 / 2 - w / 6), (3 * t ^ 2 - 3 * t + 1 / 2) := by
    apply intervalIntegral.integral_congr
    intro t ht
    rw [Set.uIcc_of_le (by linarith)] at ht
    simp only
    rw [abs_of_nonneg]
    rw [hfac]; nlinarith [ht.1, ht.2, mul_nonneg (sub_nonneg.2 ht.2) (show 0 ≤ (1 / 2 + w / 6) - t by linarith [ht.2])]
  have i2 : ∫ t in (1 / 2 - w / 6)..(1 / 2 + w / 6), |3 * t ^ 2 - 3 * t + 1 / 2| =
      ∫ t in (1 / 2 - w / 6)..(1 / 2 + w / 6), -(3 * t ^ 2 - 3 * t + 1 / 2) := by
    apply intervalIntegral.integral_congr
    intro t ht
    rw [Set.uIcc_of_le (by linarith)] at ht
    simp only
    rw [abs_of_nonpos]
    rw [hfac]; nlinarith [ht.1, ht.2, mul_nonneg (sub_nonneg.2 ht.1) (sub_nonneg.2 ht.2)]
  have i3 : ∫ t in (1 / 2 + w / 6)..1, |3 * t ^ 2 - 3 * t + 1 / 2| = ∫ t in (1 / 2 + w / 6)..1, (3 * t ^ 2 - 3 * t + 1 / 2) := by
    apply intervalIntegral.integral_congr
    intro t ht
    rw [Set.uIcc_of_le (by linarith)] at ht
    simp only
    rw [abs_of_nonneg]
    rw [hfac]; nlinarith [ht.1, ht.2, mul_nonneg (sub_nonneg.2 ht.1) (show 0 ≤ t - (1 / 2 - w / 6) by linarith [ht.1])]
  rw [i1, i2, i3, intervalIntegral.integral_neg, hG, hG, hG]
  have hw3 : w ^ 3 = 3 * w := by rw [pow_succ, h3]
  ring_nf
  nlinarith

/-- The length of a cubic curve differs from the length of its mid-point quadratic curve by at most `√3 / 9` of the third difference. -/
theorem midQuad_length (c : Cubic ℝ) :
    |arcLength c.pointAt 0 1 - arcLength c.midQuad.pointAt 0 1| ≤ Real.sqrt 3 / 9 * c.third.magnitude := by
  have e1 : arcLength c.pointAt 0 1 = ∫ s in (0 : ℝ)..1, speed c.pointAt s := rfl
  have e2 : arcLength c.midQuad.pointAt 0 1 = ∫ s in (0 : ℝ)..1, speed c.midQuad.pointAt s := rfl
  have hmag : ∀ v : Vec ℝ, v.magnitude = Real.sqrt (v.x ^ 2 + v.y ^ 2) := by
    intro v; rw [Vec.magnitude, Vec.magnitudeSquare, sq, sq]
  have hpt : ∀ s, |speed c.pointAt s - speed c.midQuad.pointAt s| ≤ |3 * s ^ 2 - 3 * s + 1 / 2| * c.third.magnitude := by
    intro s
    have h1 : speed c.pointAt s = ((c.tangentAt s).smul 3).magnitude := by
      rw [speed, (cubic_deriv c s).1, (cubic_deriv c s).2, hmag]; simp
    have h2 : speed c.midQuad.pointAt s = ((c.midQuad.tangentAt s).smul 2).magnitude := by
      rw [speed, (quad_deriv _ s).1, (quad_deriv _ s).2, hmag]; simp
    have h3 : (c.tangentAt s).smul 3 = (c.midQuad.tangentAt s).smul 2 + c.third.smul (3 * s ^ 2 - 3 * s + 1 / 2) := by
      ext <;> simp [Cubic.tangentAt, Quad.tangentAt, Cubic.midQuad, Cubic.qPoint, Cubic.third] <;> ring
    have h4 : (c.midQuad.tangentAt s).smul 2 = (c.tangentAt s).smul 3 + c.third.smul (-(3 * s ^ 2 - 3 * s + 1 / 2)) := by
      rw [h3]; ext <;> simp <;> ring
    have t1 := Vec.triangle ((c.midQuad.tangentAt s).smul 2) (c.third.smul (3 * s ^ 2 - 3 * s + 1 / 2))
    have t2 := Vec.triangle ((c.tangentAt s).smul 3) (c.third.smul (-(3 * s ^ 2 - 3 * s + 1 / 2)))
    rw [← h3, Vec.magnitude_smul c.third] at t1
    rw [← h4, Vec.magnitude_smul c.third, abs_neg] at t2
    rw [h1, h2, abs_le]
    constructor <;> linarith
  rw [e1, e2, ← intervalIntegral.integral_sub ((speed_continuous c).intervalIntegrable _ _) ((quad_speed_continuous _).intervalIntegrable _ _)]
  calc |∫ s in (0 : ℝ)..1, (speed c.pointAt s - speed c.midQuad.pointAt s)|
      ≤ ∫ s in (0 : ℝ)..1, |speed c.pointAt s - speed c.midQuad.pointAt s| :=
        intervalIntegral.abs_integral_le_integral_abs zero_le_one
    _ ≤ ∫ s in (0 : ℝ)..1, |3 * s ^ 2 - 3 * s + 1 / 2| * c.third.magnitude := by
        apply intervalIntegral.integral_mono_on zero_le_one
        · exact (((speed_continuous c).sub (quad_speed_continuous _)).abs).intervalIntegrable _ _
        · exact Continuous.intervalIntegrable (by fun_prop) _ _
        · intro s _; exact hpt s
    _ = Real.sqrt 3 / 9 * c.third.magnitude := by
        rw [intervalIntegral.integral_mul_const, integral_abs_factor]

theorem mapM_error : ∀ l : List (Cubic ℝ), (∃ s ∈ l, s.midQuad.Degenerate) → l.mapM Cubic.qLength = .error .valueError
  | [], h => by obtain ⟨s, h, -⟩ := h; simp at h
  | s :: l, h => by
    rw [List.mapM_cons]
    by_cases hs : s.midQuad.Degenerate
    · rw [Cubic.qLength, (quad_length _).1 hs]; rfl
    · rw [Cubic.qLength, (quad_length _).2 hs]
      obtain ⟨s', h1, h2⟩ := h
      rcases List.mem_cons.1 h1 with rfl | h1
      · exact absurd h2 hs
      · have := mapM_error l ⟨s', h1, h2⟩
        dsimp only [bind, Except.bind] at this ⊢
        rw [this]

theorem mapM_ok : ∀ l : List (Cubic ℝ), (∀ s ∈ l, ¬ s.midQuad.Degenerate) →
    l.mapM Cubic.qLength = .ok (l.map fun s => arcLength s.midQuad.pointAt 0 1)
  | [], _ => rfl
  | s :: l, h => by
    rw [List.mapM_cons, mapM_ok l (fun s hs => h s (List.mem_cons_of_mem _ hs)), Cubic.qLength,
      (quad_length _).2 (h s List.mem_cons_self)]
    rfl

theorem error_sum (δ : ℝ) : ∀ l : List (Cubic ℝ),
    (∀ s ∈ l, |arcLength s.pointAt 0 1 - arcLength s.midQuad.pointAt 0 1| ≤ δ) →
    |(l.map fun s => arcLength s.midQuad.pointAt 0 1).sum - (l.map fun s => arcLength s.pointAt 0 1).sum| ≤ δ * l.length
  | [], _ => by simp
  | s :: l, h => by
    have h1 := abs_le.1 (error_sum δ l (fun s hs => h s (List.mem_cons_of_mem _ hs)))
    have h2 := abs_le.1 (h s List.mem_cons_self)
    simp only [List.map_cons, List.sum_cons, List.length_cons]
    push_cast
    rw [abs_le]
    constructor <;> linarith [h1.1, h1.2, h2.1, h2.2]

/-- C98, the complete behaviour for a curve of degree three. With enough turns, `length` cuts the curve into consecutive parts, as few
as `κ n³ ≥ |p3 - 3 p2 + 3 p1 - p0|` allows for `κ = 0.012 √3`; each part is everywhere within the precision, 0.001, of its quadratic
approximation. When one of these approximations is degenerate `length` raises `ValueError`; otherwise it returns the length of the
curve with an error of at most 0.004 for each part. Missing for the property: curves of degree at most two (`cubic_length_wrong`) and
degenerate approximations (`cubic_length_wrong'`). -/
theorem cubic_length_partial (c : Cubic ℝ) (h : c.p3 - c.p2.smul 3 + c.p1.smul 3 - c.p0 ≠ 0) :
    ∃ segs : List (Cubic ℝ), Covers c.pointAt (segs.map Cubic.pointAt) 0 1 ∧
      (c.p3 - c.p2.smul 3 + c.p1.smul 3 - c.p0).magnitude ≤ 0.012 * Real.sqrt 3 * segs.length ^ 3 ∧
      0.012 * Real.sqrt 3 * (segs.length - 1) ^ 3 < (c.p3 - c.p2.smul 3 + c.p1.smul 3 - c.p0).magnitude ∧
      (∀ s ∈ segs, ∀ t, 0 ≤ t → t ≤ 1 → distance (s.pointAt t) (s.midQuad.pointAt t) ≤ 0.001) ∧
      ∀ fuel, segs.length ≤ fuel + 1 → c.adaptiveSegments fuel = some (.ok segs) ∧
        ((∃ s ∈ segs, s.midQuad.Degenerate) → c.length fuel = some (.error .valueError)) ∧
        ((∀ s ∈ segs, ¬ s.midQuad.Degenerate) →
          ∃ l, c.length fuel = some (.ok l) ∧ |l - arcLength c.pointAt 0 1| ≤ 0.004 * segs.length) := by
  have hn : c.third ≠ 0 := h
  obtain ⟨t, ht, hpos, hcube⟩ := tMax_ok c hn
  obtain ⟨N, hN⟩ : ∃ N, N = ⌈1 / t⌉₊ := ⟨_, rfl⟩
  have hN1 : 1 / t ≤ N := hN ▸ Nat.le_ceil _
  have hN2 : (N : ℝ) < 1 / t + 1 := hN ▸ Nat.ceil_lt_add_one (by positivity)
  have hN0 : 0 < N := hN ▸ Nat.ceil_pos.2 (by positivity)
  have h3 : Real.sqrt 3 ^ 2 = 3 := Real.sq_sqrt (by norm_num)
  have h3p : 0 < Real.sqrt 3 := by positivity
  have hk : 36 / Real.sqrt 3 * precision = 0.012 * Real.sqrt 3 := by
    rw [precision]; field_simp; rw [h3]; norm_num
  have hmag := Vec.magnitude_pos _ hn
  have key : ∀ fuel, N ≤ fuel + 1 → ∃ segs, adaptiveLoop fuel c t = some (.ok segs) ∧ segs.length = N ∧
      Covers c.pointAt (segs.map Cubic.pointAt) 0 1 ∧ ∀ s ∈ segs, s.third.magnitude ≤ 36 / Real.sqrt 3 * precision := by
    intro fuel hf
    rw [hN]
    apply adaptiveLoop_spec fuel c t hn ht
    have : (N : ℝ) ≤ fuel + 1 := by exact_mod_cast hf
    linarith
  obtain ⟨segs, e1, e2, e3, e4⟩ := key (N - 1) (by omega)
  -- more turns give the same segments
  have mono : ∀ (fuel : Nat) (c : Cubic ℝ) (t : ℝ) r, adaptiveLoop fuel c t = some r → ∀ k, adaptiveLoop (fuel + k) c t = some r := by
    intro fuel
    induction fuel with
    | zero =>
      intro c t r hr k
      rw [adaptiveLoop] at hr
      rw [adaptiveLoop.eq_def]
      split at hr
      · simp at hr
      · rename_i hlt; rw [if_neg hlt]; exact hr
    | succ fuel ih =>
      intro c t r hr k
      rw [adaptiveLoop.eq_def] at hr
      rw [adaptiveLoop.eq_def]
      split at hr
      · rename_i hlt
        rw [if_pos hlt]
        rw [show fuel + 1 + k = (fuel + k) + 1 by omega]
        simp only at hr ⊢
        split at hr
        · exact hr
        · rw [Option.map_eq_some_iff] at hr ⊢
          obtain ⟨r', h1, h2⟩ := hr
          exact ⟨r', ih _ _ _ h1 k, h2⟩
      · rename_i hlt; rw [if_neg hlt]; exact hr
  have hseg : ∀ fuel, segs.length ≤ fuel + 1 → c.adaptiveSegments fuel = some (.ok segs) := by
    intro fuel hf
    simp only [Cubic.adaptiveSegments, ht]
    have := mono _ _ _ _ e1 (fuel - (N - 1))
    rwa [show N - 1 + (fuel - (N - 1)) = fuel by omega] at this
  have hb : t ^ 3 * c.third.magnitude = 0.012 * Real.sqrt 3 := by rw [hcube, hk]
  refine ⟨segs, e3, ?_, ?_, ?_, ?_⟩
  · rw [e2, ← hb]
    show c.third.magnitude ≤ _
    have h1 : 1 ≤ t * N := by rw [div_le_iff₀ hpos] at hN1; linarith
    have : 1 ≤ (t * N) ^ 3 := one_le_pow₀ h1
    rw [mul_pow] at this
    nlinarith
  · rw [e2, ← hb]
    show _ < c.third.magnitude
    have h1 : t * ((N : ℝ) - 1) < 1 := by
      have : (N : ℝ) - 1 < 1 / t := by linarith
      rw [lt_div_iff₀ hpos] at this; linarith
    have h0 : 0 ≤ (N : ℝ) - 1 := by
      have : (1 : ℝ) ≤ N := by exact_mod_cast hN0
      linarith
    have : (t * ((N : ℝ) - 1)) ^ 3 < 1 := pow_lt_one₀ (by positivity) h1 (by norm_num)
    rw [mul_pow] at this
    nlinarith
  · intro s hs u h0 h1
    rw [← distance_eq, midQuad_diff, Vec.magnitude_smul]
    have b1 := cubic_factor_bound u h0 h1
    have b2 := e4 s hs
    rw [hk] at b2
    calc |u * (u - 1 / 2) * (u - 1)| * s.third.magnitude ≤ Real.sqrt 3 / 36 * (0.012 * Real.sqrt 3) :=
          mul_le_mul b1 b2 (Vec.magnitude_nonneg _) (by positivity)
      _ = 0.001 := by
          rw [show Real.sqrt 3 / 36 * (0.012 * Real.sqrt 3) = Real.sqrt 3 ^ 2 * (0.012 / 36) by ring, h3]; norm_num
  · intro fuel hf
    refine ⟨hseg fuel hf, ?_, ?_⟩
    · intro hd
      rw [Cubic.length, hseg fuel hf]
      simp only [Option.map_some]
      have := mapM_error segs hd
      dsimp only [bind, Except.bind] at this ⊢
      rw [this]
    · intro hd
      refine ⟨_, by
        rw [Cubic.length, hseg fuel hf]
        simp only [Option.map_some]
        dsimp only [bind, Except.bind]
        rw [mapM_ok segs hd]
        rfl, ?_⟩
      rw [← arcLength_covers c segs 0 1 e3]
      apply error_sum
      intro s hs
      refine (midQuad_length s).trans ?_
      have b2 := e4 s hs
      rw [hk] at b2
      calc Real.sqrt 3 / 9 * s.third.magnitude ≤ Real.sqrt 3 / 9 * (0.012 * Real.sqrt 3) := by
            apply mul_le_mul_of_nonneg_left b2; positivity
        _ = 0.004 := by
            rw [show Real.sqrt 3 / 9 * (0.012 * Real.sqrt 3) = Real.sqrt 3 ^ 2 * (0.012 / 9) by ring, h3]; norm_num

/-- C98 is false for the curves of degree at most two, in particular for every quadratic curve turned into a cubic one: `length` raises
`ZeroDivisionError`. -/
theorem cubic_length_wrong (c : Cubic ℝ) (h : c.p3 - c.p2.smul 3 + c.p1.smul 3 - c.p0 = 0) (fuel : Nat) :
    c.length fuel = some (.error .zeroDivisionError) := by
  rw [Cubic.length, Cubic.adaptiveSegments, tMax_error c h]
  rfl

/-- C98, an instance of `cubic_length_wrong`: elevating the degree of any quadratic curve gives a curve whose length raises. -/
theorem toCubic_length_wrong (q : Quad ℝ) (fuel : Nat) : q.toCubic.length fuel = some (.error .zeroDivisionError) := by
  apply cubic_length_wrong
  ext <;> simp [Quad.toCubic] <;> ring

/-- A curve near a quadratic curve has one segment. -/
theorem one_segment (c : Cubic ℝ) (h : c.third ≠ 0) (h1 : c.third.magnitude ≤ 0.02) (fuel : Nat) :
    c.adaptiveSegments fuel = some (.ok [c]) := by
  obtain ⟨t, ht, hpos, hcube⟩ := tMax_ok c h
  have h3 : Real.sqrt 3 ^ 2 = 3 := Real.sq_sqrt (by norm_num)
  have h3p : 0 < Real.sqrt 3 := by positivity
  have hk : 36 / Real.sqrt 3 * precision = 0.012 * Real.sqrt 3 := by
    rw [precision]; field_simp; rw [h3]; norm_num
  have hge : ¬ t < 1 := by
    intro hlt
    have : t ^ 3 < 1 := pow_lt_one₀ hpos.le hlt (by norm_num)
    have h17 : 1.7 < Real.sqrt 3 := by
      rw [Real.lt_sqrt (by norm_num)]; norm_num
    rw [hk] at hcube
    nlinarith [Vec.magnitude_pos _ h]
  simp only [Cubic.adaptiveSegments, ht]
  rw [adaptiveLoop.eq_def, if_neg hge]

/-- A curve that meets the hypotheses of `cubic_length_partial`, with its outcome. -/
example (fuel : Nat) : ∃ l, (⟨⟨0, 0⟩, ⟨1, 1⟩, ⟨2, 1⟩, ⟨3, 0.01⟩⟩ : Cubic ℝ).length fuel = some (.ok l) ∧
    |l - arcLength (⟨⟨0, 0⟩, ⟨1, 1⟩, ⟨2, 1⟩, ⟨3, 0.01⟩⟩ : Cubic ℝ).pointAt 0 1| ≤ 0.004 := by
  obtain ⟨c, hc⟩ : ∃ c : Cubic ℝ, c = ⟨⟨0, 0⟩, ⟨1, 1⟩, ⟨2, 1⟩, ⟨3, 0.01⟩⟩ := ⟨_, rfl⟩
  rw [← hc]
  have hn : c.third = ⟨0, 0.01⟩ := by rw [hc]; ext <;> simp [Cubic.third] <;> norm_num
  have hn0 : c.third ≠ 0 := by
    rw [hn]; intro h; have := congrArg Vec.y h; norm_num at this
  have hmag : c.third.magnitude ≤ 0.02 := by
    rw [hn, Vec.magnitude, Vec.magnitudeSquare, Real.sqrt_le_left (by norm_num)]; norm_num
  obtain ⟨segs, -, -, -, -, h⟩ := cubic_length_partial c hn0
  have heq : segs = [c] := by
    have := (h segs.length (by omega)).1
    rw [one_segment c hn0 hmag] at this
    simp only [Option.some.injEq, Except.ok.injEq] at this
    exact this.symm
  obtain ⟨-, -, h3⟩ := h fuel (by rw [heq]; simp)
  rw [heq] at h3
  obtain ⟨l, h4, h5⟩ := h3 (by
    intro s hs hd
    rw [List.mem_singleton] at hs
    rw [hs, hc] at hd
    have := hd.1
    simp [Cubic.midQuad, Cubic.qPoint, Vec.cross] at this
    norm_num at this)
  exact ⟨l, h4, by simpa using h5⟩

/-- C98 is false for a curve along a line: `length` raises `ValueError`. -/
theorem cubic_length_wrong' (fuel : Nat) :
    (⟨⟨0, 0⟩, ⟨2, 0⟩, ⟨3, 0⟩, ⟨3.01, 0⟩⟩ : Cubic ℝ).length fuel = some (.error .valueError) := by
  obtain ⟨c, hc⟩ : ∃ c : Cubic ℝ, c = ⟨⟨0, 0⟩, ⟨2, 0⟩, ⟨3, 0⟩, ⟨3.01, 0⟩⟩ := ⟨_, rfl⟩
  rw [← hc]
  have hn : c.third = ⟨0.01, 0⟩ := by rw [hc]; ext <;> simp [Cubic.third]; norm_num
  have hn0 : c.third ≠ 0 := by
    rw [hn]; intro h; have := congrArg Vec.x h; norm_num at this
  have hmag : c.third.magnitude ≤ 0.02 := by
    rw [hn, Vec.magnitude, Vec.magnitudeSquare, Real.sqrt_le_left (by norm_num)]; norm_num
  rw [Cubic.length, one_segment c hn0 hmag]
  have hd : c.midQuad.Degenerate := by
    rw [hc]
    refine ⟨by simp [Cubic.midQuad, Cubic.qPoint, Vec.cross], ?_, ?_⟩
    · intro h; have := congrArg Vec.x h; simp [Cubic.midQuad, Cubic.qPoint] at this; norm_num at this
    · simp [Cubic.midQuad, Cubic.qPoint, Vec.dot]; norm_num
  have := mapM_error [c] ⟨c, by simp, hd⟩
  simp only [Option.map_some]
  dsimp only [bind, Except.bind] at this ⊢
  rw [this]

/-! ## C104 -/

/-- A chord is at most as long as the curve. -/
theorem chord_le (f v : ℝ → Vec ℝ) (hv : ∀ t, HasVelocity f (v t) t) (hx : Continuous fun t => (v t).x) (hy : Continuous fun t => (v t).y)
    (a b : ℝ) (hab : a ≤ b) : (f b - f a).magnitude ≤ arcLength f a b := by
  have hsp : arcLength f a b = ∫ t in a..b, (v t).magnitude := by
    rw [arcLength]
    apply intervalIntegral.integral_congr
    intro t _
    simp only
    rw [(hv t).1.deriv, (hv t).2.deriv, Vec.magnitude, Vec.magnitudeSquare, sq, sq]
  have hcm : Continuous fun t => (v t).magnitude := by
    simp only [Vec.magnitude, Vec.magnitudeSquare]; fun_prop
  obtain ⟨w, hw⟩ : ∃ w, w = f b - f a := ⟨_, rfl⟩
  have hdot : w.dot w = ∫ t in a..b, w.dot (v t) := by
    have h1 := intervalIntegral.integral_eq_sub_of_hasDerivAt (fun t _ => (hv t).1) (hx.intervalIntegrable a b)
    have h2 := intervalIntegral.integral_eq_sub_of_hasDerivAt (fun t _ => (hv t).2) (hy.intervalIntegrable a b)
    simp only [Vec.dot]
    rw [intervalIntegral.integral_add ((hx.const_mul _).intervalIntegrable a b) ((hy.const_mul _).intervalIntegrable a b),
      intervalIntegral.integral_const_mul, intervalIntegral.integral_const_mul, h1, h2, hw]
    simp
  have hle : w.dot w ≤ w.magnitude * arcLength f a b := by
    rw [hdot, hsp, ← intervalIntegral.integral_const_mul]
    apply intervalIntegral.integral_mono_on hab
    · exact Continuous.intervalIntegrable (by simp only [Vec.dot]; fun_prop) _ _
    · exact (hcm.const_mul _).intervalIntegrable _ _
    · intro t _
      exact (le_abs_self _).trans (Vec.abs_dot_le _ _)
  rw [← hw]
  by_cases h0 : w.magnitude = 0
  · rw [h0, hsp]
    exact intervalIntegral.integral_nonneg hab (fun t _ => Vec.magnitude_nonneg _)
  · have hp : 0 < w.magnitude := lt_of_le_of_ne (Vec.magnitude_nonneg _) (Ne.symm h0)
    have : w.dot w = w.magnitude * w.magnitude := by rw [Vec.magnitude_mul_self]; simp [Vec.dot, Vec.magnitudeSquare]
    rw [this] at hle
    exact le_of_mul_le_mul_left hle hp

/-- The length of a curve exceeds a chord by at most the square of the step, times a bound on the acceleration. -/
theorem le_chord (f v : ℝ → Vec ℝ) (hv : ∀ t, HasVelocity f (v t) t) (hx : Continuous fun t => (v t).x) (hy : Continuous fun t => (v t).y)
    (M a b : ℝ) (hab : a ≤ b) (hM : ∀ s, a ≤ s → s ≤ b → (v s - v a).magnitude ≤ M * (s - a)) :
    arcLength f a b ≤ (f b - f a).magnitude + M * (b - a) ^ 2 := by
  have hsp : arcLength f a b = ∫ t in a..b, (v t).magnitude := by
    rw [arcLength]
    apply intervalIntegral.integral_congr
    intro t _
    simp only
    rw [(hv t).1.deriv, (hv t).2.deriv, Vec.magnitude, Vec.magnitudeSquare, sq, sq]
  have hcm : Continuous fun t => (v t).magnitude := by
    simp only [Vec.magnitude, Vec.magnitudeSquare]; fun_prop
  have hint : ∫ s in a..b, M * (s - a) = M * (b - a) ^ 2 / 2 := by
    have hF : ∀ t ∈ Set.uIcc a b, HasDerivAt (fun t => M * (t - a) ^ 2 / 2) (M * (t - a)) t := by
      intro t _
      refine HasDerivAt.congr_deriv (f := fun t => M * (t - a) ^ 2 / 2)
        (((((hasDerivAt_id t).sub_const a).pow 2).const_mul M).div_const 2) ?_
      simp; ring
    rw [intervalIntegral.integral_eq_sub_of_hasDerivAt hF (Continuous.intervalIntegrable (by fun_prop) _ _)]
    ring
  -- the speed is at most the speed at the start plus the change
  have h1 : arcLength f a b ≤ (v a).magnitude * (b - a) + M * (b - a) ^ 2 / 2 := by
    rw [hsp, ← hint]
    have : (v a).magnitude * (b - a) = ∫ _ in a..b, (v a).magnitude := by simp [mul_comm]
    rw [this, ← intervalIntegral.integral_add (Continuous.intervalIntegrable (by fun_prop) _ _) (Continuous.intervalIntegrable (by fun_prop) _ _)]
    apply intervalIntegral.integral_mono_on hab (hcm.intervalIntegrable _ _) (Continuous.intervalIntegrable (by fun_prop) _ _)
    intro s hs
    have e : v s = v a + (v s - v a) := by ext <;> simp
    calc (v s).magnitude = (v a + (v s - v a)).magnitude := by rw [← e]
      _ ≤ (v a).magnitude + (v s - v a).magnitude := Vec.triangle _ _
      _ ≤ _ := by linarith [hM s hs.1 hs.2]
  -- the chord is at least the displacement at the speed of the start minus the change
  have h2 : (v a).magnitude * (b - a) ≤ (f b - f a).magnitude + M * (b - a) ^ 2 / 2 := by
    have hg : ∀ t, HasVelocity (fun t => f t - (v a).smul t) (v t - v a) t := by
      intro t
      constructor
      · have := (hv t).1.sub ((hasDerivAt_id t).const_mul (v a).x)
        refine HasDerivAt.congr_of_eventuallyEq (HasDerivAt.congr_deriv this (by simp)) ?_
        refine Filter.Eventually.of_forall fun s => ?_
        simp [mul_comm]
      · have := (hv t).2.sub ((hasDerivAt_id t).const_mul (v a).y)
        refine HasDerivAt.congr_of_eventuallyEq (HasDerivAt.congr_deriv this (by simp)) ?_
        refine Filter.Eventually.of_forall fun s => ?_
        simp [mul_comm]
    have hc := chord_le (fun t => f t - (v a).smul t) (fun t => v t - v a) hg (by simp only [Vec.sub_x]; fun_prop)
      (by simp only [Vec.sub_y]; fun_prop) a b hab
    have hb : arcLength (fun t => f t - (v a).smul t) a b ≤ M * (b - a) ^ 2 / 2 := by
      rw [← hint, arcLength]
      apply intervalIntegral.integral_mono_on hab
      · have : (fun t => Real.sqrt (deriv (fun t => (f t - (v a).smul t).x) t ^ 2 + deriv (fun t => (f t - (v a).smul t).y) t ^ 2)) =
            fun t => (v t - v a).magnitude := by
          funext t
          rw [(hg t).1.deriv, (hg t).2.deriv, Vec.magnitude, Vec.magnitudeSquare, sq, sq]
        rw [this]
        apply Continuous.intervalIntegrable
        simp only [Vec.magnitude, Vec.magnitudeSquare, Vec.sub_x, Vec.sub_y]; fun_prop
      · exact Continuous.intervalIntegrable (by fun_prop) _ _
      · intro s hs
        rw [(hg s).1.deriv, (hg s).2.deriv]
        have := hM s hs.1 hs.2
        rwa [Vec.magnitude, Vec.magnitudeSquare, ← sq, ← sq] at this
    have e : (v a).smul (b - a) = (f b - f a) + ((f b - (v a).smul b) - (f a - (v a).smul a)).smul (-1) := by
      ext <;> simp <;> ring
    have ht := Vec.triangle (f b - f a) (((f b - (v a).smul b) - (f a - (v a).smul a)).smul (-1))
    rw [← e, Vec.magnitude_smul, Vec.magnitude_smul, abs_of_nonneg (by linarith)] at ht
    simp only [abs_neg, abs_one, one_mul] at ht
    linarith
  linarith

theorem interpolatedLoop_spec (f v : ℝ → Vec ℝ) (hv : ∀ t, HasVelocity f (v t) t) (hx : Continuous fun t => (v t).x)
    (hy : Continuous fun t => (v t).y) (M : ℝ) (hM0 : 0 ≤ M)
    (hM : ∀ s t, 0 ≤ t → t ≤ s → s ≤ 1 → (v s - v t).magnitude ≤ M * (s - t)) (dt : ℝ) (hdt : 0 < dt) :
    ∀ (fuel : Nat) (t len : ℝ), 0 ≤ t → t ≤ 1 → 1 - t ≤ fuel * dt → ∃ l, interpolatedLoop f dt fuel t len = some (len + l) ∧
      (f 1 - f t).magnitude ≤ l ∧ l ≤ arcLength f t 1 ∧ arcLength f t 1 ≤ l + M * dt * (1 - t) := by
  have hdone : ∀ (fuel : Nat) (len : ℝ), ∃ l, interpolatedLoop f dt fuel 1 len = some (len + l) ∧
      (f 1 - f 1).magnitude ≤ l ∧ l ≤ arcLength f 1 1 ∧ arcLength f 1 1 ≤ l + M * dt * (1 - 1) := by
    intro fuel len
    refine ⟨0, by rw [interpolatedLoop.eq_def, if_neg (lt_irrefl _), add_zero], ?_, by simp [arcLength], by simp [arcLength]⟩
    rw [show f 1 - f 1 = 0 by ext <;> simp, (Vec.magnitude_eq_zero 0).2 rfl]
  intro fuel
  induction fuel with
  | zero =>
    intro t len h0 h1 hf
    have : t = 1 := by simp at hf; linarith
    subst this
    exact hdone 0 len
  | succ fuel ih =>
    intro t len h0 h1 hf
    rcases h1.lt_or_eq with hlt | rfl
    · rw [interpolatedLoop.eq_def, if_pos hlt]
      simp only
      have ht' : t ≤ min (t + dt) 1 := le_min (by linarith) h1
      have ht1 : min (t + dt) 1 ≤ 1 := min_le_right _ _
      have htd : min (t + dt) 1 - t ≤ dt := by linarith [min_le_left (t + dt) 1]
      have hf' : 1 - min (t + dt) 1 ≤ fuel * dt := by
        push_cast at hf
        rcases min_choice (t + dt) 1 with h | h <;> rw [h]
        · linarith
        · simp; positivity
      obtain ⟨t', et⟩ : ∃ t', t' = min (t + dt) 1 := ⟨_, rfl⟩
      rw [← et] at ht' ht1 htd hf' ⊢
      obtain ⟨l, e1, e2, e3, e4⟩ := ih t' (len + (f t' - f t).magnitude) (by linarith) ht1 hf'
      have hcont : Continuous fun t => Real.sqrt (deriv (fun t => (f t).x) t ^ 2 + deriv (fun t => (f t).y) t ^ 2) := by
        have : (fun t => Real.sqrt (deriv (fun t => (f t).x) t ^ 2 + deriv (fun t => (f t).y) t ^ 2)) =
            fun t => Real.sqrt ((v t).x ^ 2 + (v t).y ^ 2) := by
          funext t; rw [(hv t).1.deriv, (hv t).2.deriv]
        rw [this]; fun_prop
      have hadd : arcLength f t 1 = arcLength f t t' + arcLength f t' 1 :=
        (intervalIntegral.integral_add_adjacent_intervals (hcont.intervalIntegrable _ _) (hcont.intervalIntegrable _ _)).symm
      have c1 := chord_le f v hv hx hy t t' ht'
      have c2 := le_chord f v hv hx hy M t t' ht' (fun s hs1 hs2 => hM s t h0 hs1 (by linarith))
      refine ⟨(f t' - f t).magnitude + l, by rw [e1]; congr 1; ring, ?_, by linarith, ?_⟩
      · have e : f 1 - f t = (f t' - f t) + (f 1 - f t') := by ext <;> simp
        rw [e]
        linarith [Vec.triangle (f t' - f t) (f 1 - f t')]
      · have : M * (t' - t) ^ 2 ≤ M * dt * (t' - t) := by
          have h5 : 0 ≤ M * (t' - t) := mul_nonneg hM0 (by linarith)
          nlinarith
        have e : M * dt * (1 - t) = M * dt * (t' - t) + M * dt * (1 - t') := by ring
        rw [hadd, e]
        linarith
    · exact hdone _ len

/-- The largest second difference of the control points of a cubic curve. -/
theorem tangent_lipschitz (c : Cubic ℝ) (s t : ℝ) (h0 : 0 ≤ t) (hts : t ≤ s) (h1 : s ≤ 1) :
    ((c.tangentAt s).smul 3 - (c.tangentAt t).smul 3).magnitude ≤
      6 * max (c.p2 - c.p1.smul 2 + c.p0).magnitude (c.p3 - c.p2.smul 2 + c.p1).magnitude * (s - t) := by
  have e : (c.tangentAt s).smul 3 - (c.tangentAt t).smul 3 =
      (c.p2 - c.p1.smul 2 + c.p0).smul (3 * (s - t) * (2 - s - t)) + (c.p3 - c.p2.smul 2 + c.p1).smul (3 * (s - t) * (s + t)) := by
    ext <;> simp [Cubic.tangentAt] <;> ring
  rw [e]
  refine (Vec.triangle _ _).trans ?_
  have hst : 0 ≤ s - t := by linarith
  rw [Vec.magnitude_smul, Vec.magnitude_smul, abs_of_nonneg (mul_nonneg (by linarith) (by linarith)),
    abs_of_nonneg (mul_nonneg (by linarith) (by linarith))]
  have m1 := le_max_left (c.p2 - c.p1.smul 2 + c.p0).magnitude (c.p3 - c.p2.smul 2 + c.p1).magnitude
  have m2 := le_max_right (c.p2 - c.p1.smul 2 + c.p0).magnitude (c.p3 - c.p2.smul 2 + c.p1).magnitude
  generalize max (c.p2 - c.p1.smul 2 + c.p0).magnitude (c.p3 - c.p2.smul 2 + c.p1).magnitude = m at *
  have k1 := mul_le_mul_of_nonneg_left m1 (show 0 ≤ 3 * (s - t) * (2 - s - t) from mul_nonneg (by linarith) (by linarith))
  have k2 := mul_le_mul_of_nonneg_left m2 (show 0 ≤ 3 * (s - t) * (s + t) from mul_nonneg (by linarith) (by linarith))
  have : 3 * (s - t) * (2 - s - t) * m + 3 * (s - t) * (s + t) * m = 6 * m * (s - t) := by ring
  linarith

/-- C104, cubic curves. For a positive step, `interpolated_length` ends after at most `1 / dt` turns, rounded up; its result is at least
the distance of the end points, at most the length of the curve, and not less than this length by more than `6 m dt`, where `m` is the
largest second difference of the control points. -/
theorem interpolated_cubic (c : Cubic ℝ) (dt : ℝ) (hdt : 0 < dt) (fuel : Nat) (hf : 1 ≤ fuel * dt) :
    ∃ l, interpolatedLength c.pointAt c.p0 c.p3 (some dt) fuel = some (.ok l) ∧ distance c.p3 c.p0 ≤ l ∧ l ≤ arcLength c.pointAt 0 1 ∧
      arcLength c.pointAt 0 1 - l ≤ 6 * max (c.p2 - c.p1.smul 2 + c.p0).magnitude (c.p3 - c.p2.smul 2 + c.p1).magnitude * dt := by
  obtain ⟨l, e1, e2, e3, e4⟩ := interpolatedLoop_spec c.pointAt (fun t => (c.tangentAt t).smul 3)
    (fun t => (tangent_velocity c ⟨0, 0, 0⟩ t).1) (by simp only [Cubic.tangentAt, Vec.add_x, Vec.smul_x]; fun_prop)
    (by simp only [Cubic.tangentAt, Vec.add_y, Vec.smul_y]; fun_prop) _
    (mul_nonneg (by norm_num) (le_max_of_le_left (Vec.magnitude_nonneg _)))
    (fun s t h0 hts h1 => tangent_lipschitz c s t h0 hts h1) dt hdt fuel 0 0 le_rfl zero_le_one (by linarith)
  refine ⟨l, ?_, ?_, e3, ?_⟩
  · simp only [interpolatedLength, e1, Option.map_some, zero_add]
  · rw [← distance_eq]
    have h1 : c.pointAt 1 = c.p3 := by ext <;> simp [Cubic.pointAt] <;> ring
    have h0 : c.pointAt 0 = c.p0 := by ext <;> simp [Cubic.pointAt]
    rwa [h1, h0] at e2
  · rw [sub_zero, mul_one] at e4
    linarith

/-- C104, quadratic curves. -/
theorem interpolated_quad (c : Quad ℝ) (dt : ℝ) (hdt : 0 < dt) (fuel : Nat) (hf : 1 ≤ fuel * dt) :
    ∃ l, interpolatedLength c.pointAt c.p0 c.p2 (some dt) fuel = some (.ok l) ∧ distance c.p2 c.p0 ≤ l ∧ l ≤ arcLength c.pointAt 0 1 ∧
      arcLength c.pointAt 0 1 - l ≤ 2 * (c.p2 - c.p1.smul 2 + c.p0).magnitude * dt := by
  obtain ⟨l, e1, e2, e3, e4⟩ := interpolatedLoop_spec c.pointAt (fun t => (c.tangentAt t).smul 2)
    (fun t => (tangent_velocity ⟨0, 0, 0, 0⟩ c t).2) (by simp only [Quad.tangentAt, Vec.add_x, Vec.smul_x]; fun_prop)
    (by simp only [Quad.tangentAt, Vec.add_y, Vec.smul_y]; fun_prop) (2 * (c.p2 - c.p1.smul 2 + c.p0).magnitude)
    (mul_nonneg (by norm_num) (Vec.magnitude_nonneg _))
    (fun s t h0 hts h1 => by
      have e : (c.tangentAt s).smul 2 - (c.tangentAt t).smul 2 = (c.p2 - c.p1.smul 2 + c.p0).smul (2 * (s - t)) := by
        ext <;> simp [Quad.tangentAt] <;> ring
      rw [e, Vec.magnitude_smul, abs_of_nonneg (by linarith)]
      linarith) dt hdt fuel 0 0 le_rfl zero_le_one (by linarith)
  refine ⟨l, ?_, ?_, e3, ?_⟩
  · simp only [interpolatedLength, e1, Option.map_some, zero_add]
  · rw [← distance_eq]
    have h1 : c.pointAt 1 = c.p2 := by ext <;> simp [Quad.pointAt]
    have h0 : c.pointAt 0 = c.p0 := by ext <;> simp [Quad.pointAt]
    rwa [h1, h0] at e2
  · rw [sub_zero, mul_one] at e4
    linarith

/-- C104. Without a step, `interpolated_length` takes 0.05 divided by the distance of the end points, and raises `ZeroDivisionError` when
they are equal. -/
theorem interpolated_default (f : ℝ → Vec ℝ) (a b : Vec ℝ) (fuel : Nat) :
    (a = b → interpolatedLength f a b none fuel = some (.error .zeroDivisionError)) ∧
    (a ≠ b → interpolatedLength f a b none fuel = interpolatedLength f a b (some (0.05 / distance b a)) fuel ∧ 0 < 0.05 / distance b a) := by
  constructor
  · rintro rfl
    have : (a - a).magnitude = 0 := (Vec.magnitude_eq_zero _).2 (by ext <;> simp)
    simp [interpolatedLength, this, Vec.pyDiv]
  · intro h
    have hp : 0 < (b - a).magnitude := Vec.magnitude_pos _ (fun e => h (by
      have hx := congrArg Vec.x e; have hy := congrArg Vec.y e
      simp at hx hy
      ext <;> linarith))
    rw [distance_eq] at hp
    refine ⟨?_, by positivity⟩
    simp only [interpolatedLength, distance_eq, Vec.pyDiv_ok _ _ hp.ne']

/-- C104. With a step that is not positive, `interpolated_length` does not end. -/
theorem interpolated_diverges (f : ℝ → Vec ℝ) (a b : Vec ℝ) (dt : ℝ) (h : dt ≤ 0) (fuel : Nat) :
    interpolatedLength f a b (some dt) fuel = none := by
  have key : ∀ (fuel : Nat) (t len : ℝ), t < 1 → interpolatedLoop f dt fuel t len = none := by
    intro fuel
    induction fuel with
    | zero => intro t len ht; rw [interpolatedLoop.eq_def, if_pos ht]
    | succ fuel ih =>
      intro t len ht
      rw [interpolatedLoop.eq_def, if_pos ht]
      exact ih _ _ (lt_of_le_of_lt (min_le_left _ _) (by linarith))
  rw [interpolatedLength, key fuel 0 0 one_pos]
  rfl

example : ∃ l, interpolatedLength (⟨⟨0, 0⟩, ⟨1, 2⟩, ⟨2, 0⟩⟩ : Quad ℝ).pointAt ⟨0, 0⟩ ⟨2, 0⟩ (some 0.1) 10 = some (.ok l) ∧ 2 ≤ l := by
  obtain ⟨l, h1, h2, -⟩ := interpolated_quad ⟨⟨0, 0⟩, ⟨1, 2⟩, ⟨2, 0⟩⟩ 0.1 (by norm_num) 10 (by norm_num)
  refine ⟨l, h1, ?_⟩
  have : distance (⟨2, 0⟩ : Vec ℝ) ⟨0, 0⟩ = 2 := by
    rw [distance, show ((2 : ℝ) - 0) ^ 2 + (0 - 0) ^ 2 = 2 ^ 2 by norm_num, Real.sqrt_sq (by norm_num)]
  simp only [this] at h2
  exact h2

/-! ## C105 -/

/-- C105, the complete behaviour of `t_at_length` of a curve of length `l`. Only the two ends of the curve can be found: every other
length on the curve raises `AttributeError`. A length beyond the end is accepted. -/
theorem tAtLength_spec (l length precision : ℝ) (hp : 0 ≤ precision) :
    (length < 0 → tAtLength (.ok l) length precision = .error .valueError) ∧
    (length = 0 → tAtLength (.ok l) length precision = .ok 0) ∧
    (0 < length → l - precision ≤ length → tAtLength (.ok l) length precision = .ok 1) ∧
    (0 < length → length < l - precision → tAtLength (.ok l) length precision = .error .attributeError) := by
  refine ⟨fun h => by simp [tAtLength, h], fun h => by simp [tAtLength, h], fun h h' => ?_, fun h h' => ?_⟩
  · rw [tAtLength, if_neg (by linarith), if_neg h.ne']
    dsimp only [bind, Except.bind]
    rw [if_pos (by linarith)]; rfl
  · rw [tAtLength, if_neg (by linarith), if_neg h.ne']
    dsimp only [bind, Except.bind]
    rw [if_neg (by linarith), if_neg (by linarith)]

/-- C105. The parameters that `t_at_length` returns for a length on the curve, measured from the start of a quadratic curve, are right to
the precision. Missing: the lengths between the ends, for which nothing is returned (`tAtLength_wrong`). -/
theorem tAtLength_partial (q : Quad ℝ) (length precision t : ℝ) (hp : 0 ≤ precision)
    (h1 : length ≤ arcLength q.pointAt 0 1) (h : tAtLength q.length length precision = .ok t) :
    0 ≤ t ∧ t ≤ 1 ∧ |arcLength q.pointAt 0 t - length| ≤ precision := by
  rw [tAtLength] at h
  split at h
  · simp at h
  · split at h
    · rename_i h0
      injection h with h
      subst h
      exact ⟨le_rfl, zero_le_one, by simp [arcLength, h0, hp]⟩
    · by_cases hd : q.Degenerate
      · rw [(quad_length q).1 hd] at h
        simp [bind, Except.bind] at h
      · rw [(quad_length q).2 hd] at h
        dsimp only [bind, Except.bind] at h
        split at h
        · rename_i h2
          injection h with h
          subst h
          exact ⟨zero_le_one, le_rfl, abs_le.2 ⟨by linarith, h2⟩⟩
        · split at h <;> simp at h

/-- C105 is false: the parameter of the middle of a segment is not found, and a length beyond the end gives 1. -/
theorem tAtLength_wrong :
    let q : Quad ℝ := ⟨⟨0, 0⟩, ⟨1, 0⟩, ⟨2, 0⟩⟩
    q.length = .ok 2 ∧ tAtLength q.length 1 1e-6 = .error .attributeError ∧ tAtLength q.length 5 1e-6 = .ok 1 := by
  have hl : (⟨⟨0, 0⟩, ⟨1, 0⟩, ⟨2, 0⟩⟩ : Quad ℝ).length = .ok 2 := by
    have hm : (⟨1, 0⟩ : Vec ℝ).magnitude = 1 := by
      rw [Vec.magnitude, Vec.magnitudeSquare]; simp
    simp only [Quad.length, Vec.magnitudeSquare, Vec.add_x, Vec.add_y, Vec.sub_x, Vec.sub_y, Vec.smul_x, Vec.smul_y]
    norm_num
    rw [show (⟨1, 0⟩ : Vec ℝ) - ⟨0, 0⟩ = ⟨1, 0⟩ by ext <;> simp, hm]
    norm_num [pure, Except.pure]
  refine ⟨hl, ?_, ?_⟩
  · rw [hl]; exact (tAtLength_spec 2 1 1e-6 (by norm_num)).2.2.2 (by norm_num) (by norm_num)
  · rw [hl]; exact (tAtLength_spec 2 5 1e-6 (by norm_num)).2.2.1 (by norm_num) (by norm_num)

end Patro.Bezier
