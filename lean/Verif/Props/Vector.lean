import Verif.Proof.Vector
/-!
# C30 – C33, C79: vectors
-/

namespace Patro.Vec

open MathFunctions (trignometricClamp sign)

/-! ## C30 -/

/-- C30. In the complex plane, `rotate(a)` is the multiplication by `exp(i·a·π/180)`, and the clockwise rotation by
its inverse. -/
theorem rotate_toComplex (v : Vec ℝ) (a : ℝ) (ccw : Bool) :
    (v.rotate a ccw).toComplex =
      Complex.exp (Complex.I * ((if ccw then a else -a) * Real.pi / 180 : ℝ)) * v.toComplex := by
  have key : ∀ r : ℝ, (⟨Real.cos r * v.x - Real.sin r * v.y, Real.sin r * v.x + Real.cos r * v.y⟩ : ℂ) =
      Complex.exp (Complex.I * (r : ℂ)) * ⟨v.x, v.y⟩ := by
    intro r
    rw [mul_comm Complex.I, Complex.exp_mul_I, ← Complex.ofReal_cos, ← Complex.ofReal_sin]
    generalize Real.cos r = c
    generalize Real.sin r = s
    apply Complex.ext
    · simp
    · simp; ring
  unfold rotate toComplex radians
  cases ccw
  · simp only [Bool.false_eq_true, if_false]
    rw [key]
    congr 4; ring
  · simp only [if_true]
    rw [key]
    congr 4; ring

/-- C30. Rotation preserves dot products, cross products and lengths. -/
theorem rotate_isometry (v w : Vec ℝ) (a : ℝ) (ccw : Bool) :
    (v.rotate a ccw).dot (w.rotate a ccw) = v.dot w ∧ (v.rotate a ccw).cross (w.rotate a ccw) = v.cross w ∧
    (v.rotate a ccw).magnitude = v.magnitude := by
  have hd : ∀ v w : Vec ℝ, (v.rotate a ccw).dot (w.rotate a ccw) = v.dot w := by
    intro v w
    simp only [rotate, dot]
    generalize (if ccw = true then radians a else -radians a) = r
    linear_combination (v.x * w.x + v.y * w.y) * Real.sin_sq_add_cos_sq r
  refine ⟨hd v w, ?_, ?_⟩
  · simp only [rotate, cross]
    generalize (if ccw = true then radians a else -radians a) = r
    linear_combination (v.x * w.y - v.y * w.x) * Real.sin_sq_add_cos_sq r
  · unfold magnitude
    exact congrArg _ (hd v v)

/-- C30. Rotation is linear. -/
theorem rotate_linear (v w : Vec ℝ) (a s : ℝ) (ccw : Bool) :
    (v + w).rotate a ccw = v.rotate a ccw + w.rotate a ccw ∧ (v.smul s).rotate a ccw = (v.rotate a ccw).smul s := by
  constructor <;> ext <;> simp [rotate] <;> ring

/-- C30. Successive rotations add up; the opposite angle, or the clockwise direction, undoes a rotation. -/
theorem rotate_rotate (v : Vec ℝ) (a b : ℝ) :
    (v.rotate a).rotate b = v.rotate (a + b) ∧ (v.rotate a).rotate (-a) = v ∧ (v.rotate a).rotate a false = v := by
  have hadd : ∀ a b, (v.rotate a).rotate b = v.rotate (a + b) := by
    intro a b
    have : radians (a + b) = radians a + radians b := by unfold radians; ring
    ext <;> simp only [rotate, if_true, this, Real.cos_add, Real.sin_add] <;> ring
  have hcw : ∀ w : Vec ℝ, w.rotate a false = w.rotate (-a) := by
    intro w
    have : radians (-a) = -radians a := by unfold radians; ring
    simp [rotate, this]
  have hz : (v.rotate a).rotate (-a) = v := by
    rw [hadd, add_neg_cancel]
    ext <;> simp [rotate, radians]
  exact ⟨hadd a b, hz, by rw [hcw]; exact hz⟩

/-- C30. `permute` exchanges the coordinates, `scale` multiplies each coordinate by its factor, `divide` undoes `scale`, and `middle` is at the
same displacement from both points. -/
theorem permute_scale_middle {K : Type _} [Field K] [CharZero K] (v p0 p1 : Vec K) (sx sy : K) :
    (v.permute.x = v.y ∧ v.permute.y = v.x) ∧ ((v.scale sx sy).x = v.x * sx ∧ (v.scale sx sy).y = v.y * sy) ∧
      (sx ≠ 0 → sy ≠ 0 → (v.divide sx sy).scale sx sy = v ∧ (v.scale sx sy).divide sx sy = v) ∧
      p1 - middle p0 p1 = middle p0 p1 - p0 := by
  refine ⟨⟨rfl, rfl⟩, ⟨rfl, rfl⟩, fun h1 h2 => ⟨?_, ?_⟩, ?_⟩
  · ext <;> simp [scale, divide, h1, h2]
  · ext <;> simp [scale, divide, h1, h2]
  · ext <;> simp [middle] <;> field_simp <;> ring

example : (⟨1, 2⟩ : Vec ℚ).permute = ⟨2, 1⟩ ∧ (⟨1, 2⟩ : Vec ℚ).scale 3 4 = ⟨3, 8⟩ ∧ (⟨3, 8⟩ : Vec ℚ).divide 3 4 = ⟨1, 2⟩ ∧
    middle (⟨1, 2⟩ : Vec ℚ) ⟨3, 8⟩ = ⟨2, 5⟩ := by decide +kernel

/-- C30. `normal`, `anti_normal` and `parity` are the rotations by 90°, −90° and 180°. -/
theorem normal_rotate (v : Vec ℝ) :
    v.normal = v.rotate 90 ∧ v.antiNormal = v.rotate (-90) ∧ v.parity = v.rotate 180 := by
  have h90 : radians 90 = Real.pi / 2 := by unfold radians; ring
  have h90' : radians (-90) = -(Real.pi / 2) := by unfold radians; ring
  have h180 : radians 180 = Real.pi := by unfold radians; ring
  refine ⟨?_, ?_, ?_⟩ <;> ext <;> simp [rotate, h90, h90', h180, normal, antiNormal, parity]

example : ((⟨3, 4⟩ : Vec ℝ).rotate 90) = ⟨-4, 3⟩ := by
  rw [← (normal_rotate _).1]; rfl

/-! ## C31 -/

section
variable {K : Type _} [Field K] [LinearOrder K] [IsStrictOrderedRing K]

/-- C31. `dot` is symmetric, bilinear and positive definite. -/
theorem dot_laws (u v w : Vec K) (s : K) :
    v.dot w = w.dot v ∧ (u + v).dot w = u.dot w + v.dot w ∧ (v.smul s).dot w = s * v.dot w ∧
    0 ≤ v.dot v ∧ (v.dot v = 0 ↔ v = 0) := by
  refine ⟨?_, ?_, ?_, magnitudeSquare_nonneg v, magnitudeSquare_eq_zero v⟩ <;> simp [dot] <;> ring

/-- C31. `cross` is antisymmetric, bilinear, and vanishes exactly for linearly dependent vectors. -/
theorem cross_laws (u v w : Vec K) (s : K) :
    v.cross w = -w.cross v ∧ (u + v).cross w = u.cross w + v.cross w ∧ (v.smul s).cross w = s * v.cross w ∧
    (v.cross w = 0 ↔ Dependent v w) := by
  refine ⟨by simp [cross]; ring, by simp [cross]; ring, by simp [cross]; ring, ?_⟩
  constructor
  · intro h
    unfold cross at h
    by_cases hv : v = 0
    · exact ⟨1, 0, Or.inl one_ne_zero, by subst hv; ext <;> simp⟩
    · by_cases hx : v.x = 0
      · have hy : v.y ≠ 0 := fun hy => hv (by ext <;> assumption)
        refine ⟨w.y, -v.y, Or.inr (neg_ne_zero.2 hy), ?_⟩
        ext
        · simp only [add_x, smul_x, zero_x]; linear_combination h
        · simp only [add_y, smul_y, zero_y]; ring
      · refine ⟨w.x, -v.x, Or.inr (neg_ne_zero.2 hx), ?_⟩
        ext
        · simp only [add_x, smul_x, zero_x]; ring
        · simp only [add_y, smul_y, zero_y]; linear_combination -h
  · rintro ⟨a, b, hab, h⟩
    have hx : a * v.x + b * w.x = 0 := congrArg Vec.x h
    have hy : a * v.y + b * w.y = 0 := congrArg Vec.y h
    rcases hab with ha | hb
    · apply mul_left_cancel₀ ha
      rw [mul_zero, cross]; linear_combination w.y * hx - w.x * hy
    · apply mul_left_cancel₀ hb
      rw [mul_zero, cross]; linear_combination v.x * hy - v.y * hx

omit [LinearOrder K] [IsStrictOrderedRing K] in
/-- C31. The squares of the dot and cross products add up to the product of the squared lengths. -/
theorem dot_sq_add_cross_sq (v w : Vec K) :
    v.dot w ^ 2 + v.cross w ^ 2 = v.magnitudeSquare * w.magnitudeSquare := lagrange v w

/-- C31. `is_parallel` and `is_orthogonal` are tests within a tolerance of `5·10⁻⁸` on the cross and dot products: they
hold for exactly parallel (orthogonal) vectors. -/
theorem isParallel_iff (v w : Vec K) :
    (v.isParallel w = true ↔ |v.cross w| ≤ 5 / 10 ^ 8) ∧ (Dependent v w → v.isParallel w = true) ∧
    (v.isOrthogonal w = true ↔ |v.dot w| ≤ 5 / 10 ^ 8) := by
  refine ⟨by simp [isParallel, roundsToZero], ?_, by simp [isOrthogonal, roundsToZero]⟩
  intro h
  have := ((cross_laws v v w 0).2.2.2).2 h
  simp only [isParallel, roundsToZero, this, abs_zero, decide_eq_true_eq]
  positivity

end

/-- C31. The tolerance is absolute: perpendicular vectors of length `10⁻⁴` are reported parallel. -/
theorem isParallel_short : (⟨1 / 10 ^ 4, 0⟩ : Vec ℚ).isParallel ⟨0, 1 / 10 ^ 4⟩ = true ∧
    (⟨1 / 10 ^ 4, 0⟩ : Vec ℚ).isOrthogonal ⟨0, 1 / 10 ^ 4⟩ = true := by
  constructor <;> norm_num [isParallel, isOrthogonal, roundsToZero, cross, dot, abs_le]

example : (⟨1, 2⟩ : Vec ℚ).cross ⟨2, 4⟩ = 0 ∧ (⟨1, 2⟩ : Vec ℚ).cross ⟨-2, 1⟩ = 5 := by decide +kernel

/-! ## C32 -/

/-- C32. For a non-null direction `d`, a vector is its projection along `d/|d|` plus its deviation along the normal of
`d/|d|`. -/
theorem projection_deviation (v d : Vec ℝ) (hd : d ≠ 0) :
    ∃ p q u, v.projectionOn d = .ok p ∧ v.deviationWith d = .ok q ∧ d.toNormalised = some u ∧
      v = u.smul p + u.normal.smul q := by
  have hp := magnitude_pos d hd
  refine ⟨_, _, _, pyDiv_ok _ _ hp.ne', pyDiv_ok _ _ hp.ne', if_neg hp.ne', ?_⟩
  have hm : d.magnitude * d.magnitude = d.x * d.x + d.y * d.y := magnitude_mul_self d
  generalize d.magnitude = m at hp hm
  have hm0 : m ≠ 0 := hp.ne'
  ext
  · simp only [add_x, smul_x, sdiv_x, normal_x, sdiv_y, dot, cross]
    field_simp
    linear_combination v.x * hm
  · simp only [add_y, smul_y, sdiv_x, normal_y, sdiv_y, dot, cross]
    field_simp
    linear_combination v.y * hm

/-- C32. Projecting is idempotent: the projected vector has the same projection and no deviation. -/
theorem projection_idempotent (v d u : Vec ℝ) (p : ℝ) (hu : d.toNormalised = some u) (_hp : v.projectionOn d = .ok p) :
    (u.smul p).projectionOn d = .ok p ∧ (u.smul p).deviationWith d = .ok 0 := by
  have hm0 : d.magnitude ≠ 0 := by
    intro h; unfold toNormalised at hu; rw [if_pos h] at hu; cases hu
  unfold toNormalised at hu
  rw [if_neg hm0] at hu
  cases hu
  unfold projectionOn deviationWith
  rw [pyDiv_ok _ _ hm0, pyDiv_ok _ _ hm0]
  have hm : d.magnitude * d.magnitude = d.x * d.x + d.y * d.y := magnitude_mul_self d
  generalize d.magnitude = m at hm0 hm
  constructor
  · congr 1
    simp only [dot, smul_x, smul_y, sdiv_x, sdiv_y]
    field_simp
    linear_combination -p * hm
  · congr 1
    simp only [cross, smul_x, smul_y, sdiv_x, sdiv_y]
    ring

/-- C32. `projection_on` and `deviation_with` raise `ZeroDivisionError` exactly for a null direction; `cos_with` and
`sin_with` exactly when one of the vectors is null. -/
theorem projection_error (v d : Vec ℝ) :
    (v.projectionOn d = .error .zeroDivisionError ↔ d = 0) ∧ (v.deviationWith d = .error .zeroDivisionError ↔ d = 0) ∧
    (v.cosWith d = .error .zeroDivisionError ↔ d = 0 ∨ v = 0) ∧
    (v.sinWith d = .error .zeroDivisionError ↔ d = 0 ∨ v = 0) := by
  have hdiv : ∀ a b : ℝ, pyDiv a b = .error .zeroDivisionError ↔ b = 0 := by
    intro a b; unfold pyDiv; split <;> simp [*]
  have hmap : ∀ a b : ℝ, (pyDiv a b).map trignometricClamp = .error .zeroDivisionError ↔ b = 0 := by
    intro a b; unfold pyDiv; split <;> simp [*, Except.map]
  refine ⟨?_, ?_, ?_, ?_⟩
  · unfold projectionOn; rw [hdiv, magnitude_eq_zero]
  · unfold deviationWith; rw [hdiv, magnitude_eq_zero]
  · unfold cosWith; rw [hmap, mul_eq_zero, magnitude_eq_zero, magnitude_eq_zero]
  · unfold sinWith; rw [hmap, mul_eq_zero, magnitude_eq_zero, magnitude_eq_zero]

/-- C32. For non-null vectors, cosine and sine lie in [−1, 1], their squares add up to 1, and they are the exact ratios
(clamping does not change them). -/
theorem cos_sin_with (v d : Vec ℝ) (hv : v ≠ 0) (hd : d ≠ 0) :
    ∃ c s, v.cosWith d = .ok c ∧ v.sinWith d = .ok s ∧ |c| ≤ 1 ∧ |s| ≤ 1 ∧ c ^ 2 + s ^ 2 = 1 ∧
      c * (d.magnitude * v.magnitude) = d.dot v ∧ s * (d.magnitude * v.magnitude) = d.cross v := by
  refine ⟨_, _, cosWith_ok v d hv hd, sinWith_ok v d hv hd, ?_⟩
  have hp := mul_pos (magnitude_pos d hd) (magnitude_pos v hv)
  have h1 : ∀ a : ℝ, |a| ≤ d.magnitude * v.magnitude → |a / (d.magnitude * v.magnitude)| ≤ 1 := by
    intro a ha
    rw [abs_div, abs_of_pos hp, div_le_one hp]; exact ha
  refine ⟨h1 _ (abs_dot_le d v), h1 _ (abs_cross_le d v), ?_, div_mul_cancel₀ _ hp.ne', div_mul_cancel₀ _ hp.ne'⟩
  rw [div_pow, div_pow, ← add_div, lagrange, mul_pow, magnitude_sq, magnitude_sq, div_self]
  rw [← magnitude_sq, ← magnitude_sq, ← mul_pow]
  exact pow_ne_zero _ hp.ne'

/-! ## C33 -/

/-- C33. Normalising succeeds exactly for non-null vectors and gives a vector of length one in the same direction. -/
theorem toNormalised_spec (v : Vec ℝ) :
    (v = 0 → v.toNormalised = none) ∧
    (v ≠ 0 → ∃ u, v.toNormalised = some u ∧ u.magnitude = 1 ∧ ∃ k > 0, u = v.smul k) := by
  constructor
  · intro h; exact if_pos ((magnitude_eq_zero v).2 h)
  · intro h
    have hp := magnitude_pos v h
    refine ⟨_, if_neg hp.ne', ?_, v.magnitude⁻¹, inv_pos.2 hp, ?_⟩
    · have : v.sdiv v.magnitude = v.smul v.magnitude⁻¹ := by ext <;> simp [div_eq_inv_mul]
      rw [this, magnitude_smul, abs_of_pos (inv_pos.2 hp), inv_mul_cancel₀ hp.ne']
    · ext <;> simp [div_eq_inv_mul]

/-- C33. A polar vector has the requested length; `from_angle` gives unit vectors. -/
theorem fromPolar_magnitude (r a : ℝ) : (fromPolar r a).magnitude = |r| ∧ (fromAngle a).magnitude = 1 := by
  have h1 : (fromAngle a).magnitude = 1 := by
    rw [magnitude_eq_iff _ _ zero_le_one]
    simp only [magnitudeSquare, fromAngle]
    linear_combination Real.sin_sq_add_cos_sq (radians a)
  exact ⟨by rw [fromPolar, magnitude_smul, h1, mul_one], h1⟩

/-- C33. `from_polar(r, a)` is the rotation by `a` of `(r, 0)`, and `from_ellipse` lies on the ellipse of its radii. -/
theorem fromPolar_rotate (r a rx ry : ℝ) :
    fromPolar r a = (⟨r, 0⟩ : Vec ℝ).rotate a ∧
    (rx ≠ 0 → ry ≠ 0 → ((fromEllipse rx ry a).x / rx) ^ 2 + ((fromEllipse rx ry a).y / ry) ^ 2 = 1) := by
  constructor
  · ext <;> simp [fromPolar, fromAngle, rotate] <;> ring
  · intro h1 h2
    simp only [fromEllipse]
    rw [mul_div_cancel_left₀ _ h1, mul_div_cancel_left₀ _ h2]
    exact Real.cos_sq_add_sin_sq _

example : (⟨3, 4⟩ : Vec ℝ) ≠ 0 ∧ (⟨3, 4⟩ : Vec ℝ).magnitude = 5 := by
  constructor
  · intro h; have := congrArg Vec.x h; norm_num at this
  · rw [magnitude_eq_iff _ _ (by norm_num)]; norm_num [magnitudeSquare]

/-! ## C79 -/

/-- C79. The orientation of a non-null vector is its polar angle in degrees, in (−180, 180]. -/
theorem orientation_eq_arg (v : Vec ℝ) (h : v ≠ 0) : v.orientation = degrees v.toComplex.arg := by
  have hpi := Real.pi_pos
  have hadd : ∀ a b, degrees (a + b) = degrees a + degrees b := by intro a b; unfold degrees; ring
  have hsub : ∀ a b, degrees (a - b) = degrees a - degrees b := by intro a b; unfold degrees; ring
  have hdpi : degrees Real.pi = 180 := by unfold degrees; field_simp
  have hdpi2 : degrees (Real.pi / 2) = 90 := by unfold degrees; field_simp; norm_num
  have hdpi2' : degrees (-(Real.pi / 2)) = -90 := by unfold degrees; field_simp; norm_num
  have hm := magnitude_pos v h
  have hroot : v.x ≠ 0 → Real.sqrt (1 + (v.y / v.x) ^ 2) = v.magnitude / |v.x| := by
    intro hx
    have hx' := abs_pos.2 hx
    rw [Real.sqrt_eq_iff_mul_self_eq (by positivity) (by positivity)]
    rw [div_mul_div_comm, magnitude_mul_self, abs_mul_abs_self, magnitudeSquare]
    field_simp
  unfold orientation
  by_cases hx : v.x = 0
  · rw [if_pos hx]
    have hy : v.y ≠ 0 := fun hy => h (by ext <;> assumption)
    by_cases hy0 : 0 ≤ v.y
    · rw [if_pos hy0, Complex.arg_eq_pi_div_two_iff.2 ⟨hx, lt_of_le_of_ne hy0 hy.symm⟩, hdpi2]
    · rw [if_neg hy0, Complex.arg_eq_neg_pi_div_two_iff.2 ⟨hx, not_le.1 hy0⟩, hdpi2']
  · rw [if_neg hx]
    by_cases hy : v.y = 0
    · rw [if_pos hy]
      by_cases hx0 : v.x ≥ 0
      · rw [if_pos hx0, Complex.arg_eq_zero_iff.2 ⟨hx0, hy⟩]; simp [degrees]
      · rw [if_neg hx0, Complex.arg_eq_pi_iff.2 ⟨not_le.1 hx0, hy⟩, hdpi]
    · rw [if_neg hy]
      simp only
      by_cases hx0 : v.x < 0
      · have hat : Real.arctan (v.y / v.x) = Real.arcsin (-v.y / v.magnitude) := by
          rw [Real.arctan_eq_arcsin, hroot hx, abs_of_neg hx0]
          congr 1
          have := neg_pos.2 hx0
          field_simp
        rw [if_pos hx0]
        by_cases hy0 : v.y > 0
        · rw [if_pos hy0, Complex.arg_of_re_neg_of_im_nonneg hx0 hy0.le, hadd, hdpi, hat, magnitude_eq_norm]
          rfl
        · rw [if_neg hy0, Complex.arg_of_re_neg_of_im_neg hx0 (lt_of_le_of_ne (not_lt.1 hy0) hy), hsub, hdpi, hat,
            magnitude_eq_norm]
          rfl
      · have hxp : 0 < v.x := lt_of_le_of_ne (not_lt.1 hx0) (Ne.symm hx)
        have hat : Real.arctan (v.y / v.x) = Real.arcsin (v.y / v.magnitude) := by
          rw [Real.arctan_eq_arcsin, hroot hx, abs_of_pos hxp]
          congr 1
          field_simp
        rw [if_neg hx0, Complex.arg_of_re_nonneg (not_lt.1 hx0), hat, magnitude_eq_norm]
        rfl

/-- C79. A non-null vector is recovered from its length and orientation. -/
theorem fromPolar_orientation (v : Vec ℝ) (h : v ≠ 0) :
    fromPolar v.magnitude v.orientation = v ∧ -180 < v.orientation ∧ v.orientation ≤ 180 := by
  have hpi := Real.pi_pos
  rw [orientation_eq_arg v h]
  refine ⟨?_, ?_, ?_⟩
  · have := Complex.norm_mul_cos_add_sin_mul_I v.toComplex
    unfold fromPolar fromAngle
    rw [radians_degrees, magnitude_eq_norm]
    have hz : v.toComplex ≠ 0 := by
      intro e
      apply h
      ext
      · exact congrArg Complex.re e
      · exact congrArg Complex.im e
    have hn : ‖v.toComplex‖ ≠ 0 := norm_ne_zero_iff.2 hz
    ext
    · simp only [smul_x, Complex.cos_arg hz]
      rw [mul_div_cancel₀ _ hn]; rfl
    · simp only [smul_y, Complex.sin_arg]
      rw [mul_div_cancel₀ _ hn]; rfl
  · have := Complex.neg_pi_lt_arg v.toComplex
    unfold degrees
    have h2 : -Real.pi * (180 / Real.pi) < v.toComplex.arg * (180 / Real.pi) :=
      mul_lt_mul_of_pos_right this (by positivity)
    have h3 : -Real.pi * (180 / Real.pi) = -180 := by field_simp
    linarith
  · have := Complex.arg_le_pi v.toComplex
    unfold degrees
    have h2 : v.toComplex.arg * (180 / Real.pi) ≤ Real.pi * (180 / Real.pi) :=
      mul_le_mul_of_nonneg_right this (by positivity)
    have h3 : Real.pi * (180 / Real.pi) = 180 := by field_simp
    linarith

/-- C79. For non-null vectors, `angle_with` returns an angle in (−180, 180] that turns the direction into the vector. -/
theorem angleWith_spec (v d : Vec ℝ) (hv : v ≠ 0) (hd : d ≠ 0) :
    ∃ a, v.angleWith d = .ok a ∧ -180 < a ∧ a ≤ 180 ∧ (d.rotate a).smul v.magnitude = v.smul d.magnitude := by
  obtain ⟨c, s, hc, hs, hc1, hs1, hcs, hcd, hsd⟩ := cos_sin_with v d hv hd
  have hpi := Real.pi_pos
  refine ⟨sign s * degrees (Real.arccos c), ?_, ?_, ?_, ?_⟩
  · unfold angleWith; rw [hc, hs]; rfl
  · have h0 := Real.arccos_nonneg c
    unfold sign degrees
    split
    · have : 0 ≤ Real.arccos c * (180 / Real.pi) := by positivity
      linarith
    · rename_i hneg
      have hlt : Real.arccos c < Real.pi := by
        apply lt_of_le_of_ne (Real.arccos_le_pi c)
        intro e
        rw [Real.arccos_eq_pi] at e
        have : c = -1 := le_antisymm e (abs_le.1 hc1).1
        subst this
        have hs0 : s ^ 2 = 0 := by linarith
        have : s = 0 := by simpa using hs0
        exact hneg (by rw [this])
      have h2 : Real.arccos c * (180 / Real.pi) < Real.pi * (180 / Real.pi) :=
        mul_lt_mul_of_pos_right hlt (by positivity)
      have h3 : Real.pi * (180 / Real.pi) = 180 := by field_simp
      linarith
  · have h0 := Real.arccos_nonneg c
    have h1 := Real.arccos_le_pi c
    have h2 : Real.arccos c * (180 / Real.pi) ≤ Real.pi * (180 / Real.pi) :=
      mul_le_mul_of_nonneg_right h1 (by positivity)
    have h3 : Real.pi * (180 / Real.pi) = 180 := by field_simp
    have h4 : 0 ≤ Real.arccos c * (180 / Real.pi) := by positivity
    unfold sign degrees
    split <;> linarith
  · have hcos : Real.cos (radians (sign s * degrees (Real.arccos c))) = c := by
      unfold sign
      split
      · rw [one_mul, radians_degrees, Real.cos_arccos (abs_le.1 hc1).1 (abs_le.1 hc1).2]
      · have : radians (-1 * degrees (Real.arccos c)) = -Real.arccos c := by
          unfold radians degrees; field_simp
        rw [this, Real.cos_neg, Real.cos_arccos (abs_le.1 hc1).1 (abs_le.1 hc1).2]
    have hsin : Real.sin (radians (sign s * degrees (Real.arccos c))) = s := by
      have hsq : Real.sqrt (1 - c ^ 2) = |s| := by
        rw [← Real.sqrt_sq_eq_abs]; congr 1; linarith
      unfold sign
      split
      · rename_i h
        rw [one_mul, radians_degrees, Real.sin_arccos, hsq, abs_of_nonneg h]
      · rename_i h
        have : radians (-1 * degrees (Real.arccos c)) = -Real.arccos c := by
          unfold radians degrees; field_simp
        rw [this, Real.sin_neg, Real.sin_arccos, hsq, abs_of_neg (not_le.1 h), neg_neg]
    have hmd := magnitude_mul_self d
    have hdp := (magnitude_pos d hd).ne'
    have e1 : d.magnitude * (d.x * v.magnitude * c - d.y * v.magnitude * s) = d.magnitude * (d.magnitude * v.x) := by
      have : d.magnitude * (d.x * v.magnitude * c - d.y * v.magnitude * s) = d.x * d.dot v - d.y * d.cross v := by
        rw [← hcd, ← hsd]; ring
      rw [this, ← mul_assoc, hmd]
      simp only [dot, cross, magnitudeSquare]; ring
    have e2 : d.magnitude * (d.x * v.magnitude * s + d.y * v.magnitude * c) = d.magnitude * (d.magnitude * v.y) := by
      have : d.magnitude * (d.x * v.magnitude * s + d.y * v.magnitude * c) = d.x * d.cross v + d.y * d.dot v := by
        rw [← hcd, ← hsd]; ring
      rw [this, ← mul_assoc, hmd]
      simp only [dot, cross, magnitudeSquare]; ring
    ext
    · simp only [rotate, if_true, smul_x, hcos, hsin]
      linear_combination mul_left_cancel₀ hdp e1
    · simp only [rotate, if_true, smul_y, hcos, hsin]
      linear_combination mul_left_cancel₀ hdp e2

/-- C79. The null vector has an orientation (the check for it is dead code in Python 3). -/
theorem orientation_null : (0 : Vec ℝ).orientation = 90 := by simp [orientation]

example : (⟨-1, 0⟩ : Vec ℝ).orientation = 180 ∧ (⟨0, -2⟩ : Vec ℝ).orientation = -90 := by
  constructor <;> norm_num [orientation]

end Patro.Vec
