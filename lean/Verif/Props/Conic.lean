import Verif.Spec.Conic
import Verif.Props.Vector
import Verif.Props.Transformation
import Verif.Props.Line
import Mathlib.Analysis.SpecialFunctions.Trigonometric.Deriv
import Mathlib.Analysis.Real.Pi.Bounds
/-! # C55 to C57 and C93 to C95: angular domains and circles -/

namespace Patro.Conic

open Classical MathFunctions Transformation

/-! ## C55 -/

/-- C55. For bounds in [0, 360] and an angle in [0, 360), as `angle_for_point` gives, `is_inside` decides the closed sector
swept counter-clockwise from the start to the stop (but the angle 0 is not seen as 360). -/
theorem isInside_partial (d : Domain ℝ) (angle : ℝ) (h1 : 0 ≤ d.start) (h2 : d.start ≤ 360) (h3 : 0 ≤ d.stop)
    (h4 : d.stop ≤ 360) (h5 : 0 ≤ angle) (h6 : angle < 360) (h7 : 0 < angle ∨ d.stop < 360) :
    d.isInside angle = true ↔ InSector d.start d.sweep angle := by
  unfold Domain.isInside Domain.isCounterclockwise InSector Domain.sweep
  by_cases hc : d.start ≤ d.stop
  · simp only [hc, decide_true, if_true, Bool.and_eq_true, decide_eq_true_eq]
    constructor
    · rintro ⟨ha, hb⟩
      exact ⟨0, angle - d.start, by linarith, by linarith, by push_cast; ring⟩
    · rintro ⟨k, s, hs0, hs1, e⟩
      have hk1 : (k : ℝ) < 1 := by linarith
      have hk2 : (-1 : ℝ) < k := by rcases h7 with h7 | h7 <;> linarith
      have : k = 0 := by
        have a1 : k < 1 := by exact_mod_cast hk1
        have a2 : -1 < k := by exact_mod_cast hk2
        omega
      subst this
      push_cast at e
      exact ⟨by linarith, by linarith⟩
  · simp only [hc, decide_false, Bool.false_eq_true, if_false, Bool.not_eq_true', Bool.and_eq_false_iff,
      decide_eq_false_iff_not, not_lt]
    have hc := not_le.1 hc
    constructor
    · rintro (ha | ha)
      · exact ⟨-1, angle - d.start + 360, by linarith, by linarith, by push_cast; ring⟩
      · exact ⟨0, angle - d.start, by linarith, by linarith, by push_cast; ring⟩
    · rintro ⟨k, s, hs0, hs1, e⟩
      by_contra hn
      obtain ⟨n1, n2⟩ := not_or.1 hn
      have n1 := not_le.1 n1
      have n2 := not_le.1 n2
      have hk1 : (k : ℝ) < 0 := by linarith
      have hk2 : (-1 : ℝ) < k := by linarith
      have a1 : k < 0 := by exact_mod_cast hk1
      have a2 : -1 < k := by exact_mod_cast hk2
      omega

/-- C55. The start and stop angles are inside; an angle and its opposite bound: a counter-clockwise domain that covers
[0, 360] holds every angle of [0, 360]. -/
theorem isInside_bounds (d : Domain ℝ) (angle : ℝ) :
    d.isInside d.start = true ∧ d.isInside d.stop = true ∧
    (d.start ≤ 0 → 360 ≤ d.stop → 0 ≤ angle → angle ≤ 360 → d.isInside angle = true) := by
  unfold Domain.isInside Domain.isCounterclockwise
  by_cases hc : d.start ≤ d.stop
  · simp only [hc, decide_true, if_true, Bool.and_eq_true, decide_eq_true_eq]
    exact ⟨⟨le_refl _, trivial⟩, ⟨trivial, le_refl _⟩, fun a b c e => ⟨by linarith, by linarith⟩⟩
  · simp only [hc, decide_false, Bool.false_eq_true, if_false]
    refine ⟨by simp, by simp, fun a b c e => ?_⟩
    exact absurd (by linarith) hc

/-- C55 fails: a closed domain which is clockwise misses all the angles between its bounds, and an angle inside a counter-clockwise domain is not
inside it after any number of turns, although it is the same direction. -/
theorem isInside_wrong (d : Domain ℝ) (angle : ℝ) :
    (360 ≤ d.start - d.stop → d.isClosed = true ∧ (d.stop < angle → angle < d.start → d.isInside angle = false)) ∧
    (d.start ≤ d.stop → d.stop - d.start < 360 → d.isInside angle = true → ∀ k : ℤ, k ≠ 0 → d.isInside (angle + 360 * k) = false) := by
  constructor
  · intro h
    refine ⟨?_, fun h1 h2 => ?_⟩
    · unfold Domain.isClosed Domain.span
      rw [abs_sub_comm, abs_of_nonneg (by linarith)]
      simpa using h
    · unfold Domain.isInside Domain.isCounterclockwise
      have h3 : ¬ d.start ≤ d.stop := by linarith
      simp [h3, h1, h2]
  · intro h1 h2 h3 k hk
    unfold Domain.isInside Domain.isCounterclockwise at h3 ⊢
    simp only [h1, decide_true, if_true, Bool.and_eq_true, decide_eq_true_eq] at h3 ⊢
    rw [← Bool.not_eq_true, Bool.and_eq_true, decide_eq_true_eq, decide_eq_true_eq]
    rintro ⟨h4, h5⟩
    have h6 : (k : ℝ) < 1 := by linarith
    have h7 : (-1 : ℝ) < k := by linarith
    have h6' : k < 1 := by exact_mod_cast h6
    have h7' : -1 < k := by exact_mod_cast h7
    omega

example :
    (⟨720, 0⟩ : Domain ℚ).isClosed = true ∧ (⟨720, 0⟩ : Domain ℚ).isInside 10 = false ∧
    (⟨360, 720⟩ : Domain ℚ).isClosed = true ∧ (⟨360, 720⟩ : Domain ℚ).isInside 10 = false ∧
    (⟨350, 370⟩ : Domain ℚ).isInside 5 = false ∧ (⟨350, 10⟩ : Domain ℚ).isInside 5 = true ∧
    (⟨-10, 10⟩ : Domain ℚ).isInside 355 = false ∧ (⟨350, 360⟩ : Domain ℚ).isInside 0 = false := by
  decide +kernel

/-! ## C93 -/

/-- C93. The length of a counter-clockwise domain is the length of the sector of a unit circle; a closed domain has the length of
the circle. -/
theorem length_partial (d : Domain ℝ) :
    (d.start ≤ d.stop → d.stop - d.start < 360 → d.length = (d.stop - d.start) * Real.pi / 180) ∧
    (360 ≤ |d.stop - d.start| → d.length = 2 * Real.pi) := by
  unfold Domain.length Domain.isClosed Domain.span Domain.isCounterclockwise
  constructor
  · intro h1 h2
    rw [abs_of_nonneg (by linarith)]
    simp only [ge_iff_le, not_le.2 h2, decide_false, Bool.false_eq_true, if_false, h1, decide_true, if_true, Vec.radians]
    ring
  · intro h
    simp [h]

/-- C93 fails for every clockwise domain: the length exceeds the length of the circle, whereas the sector that `is_inside` decides is smaller than
the circle. -/
theorem length_wrong (d : Domain ℝ) (h : d.stop < d.start) (h' : d.start - d.stop < 360) :
    2 * Real.pi < d.length ∧ d.sweep * Real.pi / 180 < 2 * Real.pi := by
  have hpi := Real.pi_pos
  constructor
  · unfold Domain.length Domain.isClosed Domain.span Domain.isCounterclockwise
    have h1 : ¬ (|d.stop - d.start| ≥ 360) := by
      rw [abs_sub_comm, abs_of_pos (by linarith)]
      linarith
    have h2 : ¬ (d.start ≤ d.stop) := by linarith
    simp only [h1, decide_false, Bool.false_eq_true, if_false, h2, Vec.radians]
    have h3 : 0 < (d.start - d.stop) * Real.pi := mul_pos (by linarith) hpi
    linarith
  · unfold Domain.sweep
    rw [if_neg (by linarith)]
    have h3 : 0 < (d.start - d.stop) * Real.pi := mul_pos (by linarith) hpi
    linarith

example : (⟨300, 10⟩ : Domain ℝ).sweep = 70 := by
  unfold Domain.sweep
  rw [if_neg (by norm_num)]; norm_num

/-- C93 fails for circles: the perimeter of an arc is the one of the circle, and the perimeter of a circle raises. -/
theorem perimeter_wrong (c : Vec ℝ) (r : ℝ) (d : Domain ℝ) :
    (⟨c, r, none⟩ : Circle ℝ).perimeter = .error .attributeError ∧
    (⟨c, r, some d⟩ : Circle ℝ).perimeter = .ok (2 * Real.pi * r) := ⟨rfl, rfl⟩

/-- C93. A circle built from a start angle and a distance of at most its perimeter is an arc that starts at the angle and has
the distance as length; for a greater distance it is closed. -/
theorem new_distance (center : Vec ℝ) (radius start distance : ℝ) (hr : 0 < radius) (hd : 0 ≤ distance) :
    (distance > 2 * Real.pi * radius →
      Circle.new center radius none false (some start) (some distance) = .ok ⟨center, radius, none⟩) ∧
    (distance ≤ 2 * Real.pi * radius → ∃ d, Circle.new center radius none false (some start) (some distance) =
      .ok ⟨center, radius, some d⟩ ∧ d.start = start ∧ radius * d.length = distance) := by
  have hpi := Real.pi_pos
  constructor
  · intro h
    simp [Circle.new, h]
  · intro h
    refine ⟨⟨start, start + Vec.degrees (distance / radius)⟩, ?_, rfl, ?_⟩
    · simp only [Circle.new, Bool.false_eq_true, if_false, not_lt.2 h, gt_iff_lt]
      rw [Vec.pyDiv_ok _ _ hr.ne']
      rfl
    · have hdeg : Vec.degrees (distance / radius) = distance / radius * (180 / Real.pi) := rfl
      have hnn : 0 ≤ Vec.degrees (distance / radius) := by rw [hdeg]; positivity
      have hle : Vec.degrees (distance / radius) ≤ 360 := by
        rw [hdeg]
        have : distance / radius ≤ 2 * Real.pi := by rw [div_le_iff₀ hr]; exact h
        calc distance / radius * (180 / Real.pi) ≤ 2 * Real.pi * (180 / Real.pi) := by
              apply mul_le_mul_of_nonneg_right this; positivity
          _ = 360 := by field_simp; norm_num
      rcases lt_or_eq_of_le hle with hlt | heq
      · rw [(length_partial _).1 (by simp only; linarith) (by simp only; linarith)]
        simp only [add_sub_cancel_left, hdeg]
        field_simp
      · rw [(length_partial _).2 (by simp only [add_sub_cancel_left, heq]; norm_num)]
        rw [hdeg] at heq
        field_simp at heq
        linarith

/-! ## C94 -/

theorem pointAtAngle_eq (c : Circle ℝ) (angle : ℝ) : c.pointAtAngle angle = onCircle c.center c.radius angle := by
  unfold Circle.pointAtAngle onCircle Vec.fromPolar Vec.fromAngle
  have : Vec.radians angle = angle * Real.pi / 180 := by unfold Vec.radians; ring
  ext <;> simp [this] <;> ring

theorem onCircle_distance (c : Vec ℝ) (r angle : ℝ) (hr : 0 ≤ r) : distance (onCircle c r angle) c = r := by
  unfold distance onCircle
  rw [Real.sqrt_eq_iff_mul_self_eq (by positivity) hr]
  simp only
  linear_combination r ^ 2 * Real.sin_sq_add_cos_sq (angle * Real.pi / 180)

/-- C94. The point at an angle is on the circle. -/
theorem pointAtAngle_on (c : Circle ℝ) (hr : 0 ≤ c.radius) (angle : ℝ) :
    c.pointAtAngle angle ∈ circlePoints c.center c.radius := by
  rw [pointAtAngle_eq]; exact onCircle_distance _ _ _ hr

theorem onCircle_period (c : Vec ℝ) (r angle : ℝ) (k : ℤ) : onCircle c r (angle + 360 * k) = onCircle c r angle := by
  unfold onCircle
  have : (angle + 360 * k) * Real.pi / 180 = angle * Real.pi / 180 + k * (2 * Real.pi) := by ring
  rw [this, Real.cos_add_int_mul_two_pi, Real.sin_add_int_mul_two_pi]

theorem angleForPoint_spec (c : Circle ℝ) (p : Vec ℝ) :
    0 ≤ c.angleForPoint p ∧ c.angleForPoint p < 360 ∧ p = onCircle c.center (distance p c.center) (c.angleForPoint p) := by
  have hz : (0 : Vec ℝ).orientation = 90 := Vec.orientation_null
  by_cases h : p - c.center = 0
  · have hp : c.angleForPoint p = 90 := by
      unfold Circle.angleForPoint Circle.pointInCircleFrame
      rw [h, hz]; norm_num
    have hd : distance p c.center = 0 := by rw [← distance_eq, h]; exact (Vec.magnitude_eq_zero 0).2 rfl
    refine ⟨by rw [hp]; norm_num, by rw [hp]; norm_num, ?_⟩
    rw [hd]
    have hx := congrArg Vec.x h
    have hy := congrArg Vec.y h
    simp only [Vec.sub_x, Vec.sub_y, Vec.zero_x, Vec.zero_y] at hx hy
    unfold onCircle
    ext <;> simp <;> linarith
  · obtain ⟨e, l, u⟩ := Vec.fromPolar_orientation _ h
    have key : ∀ k : ℤ, c.angleForPoint p = (p - c.center).orientation + 360 * k →
        p = onCircle c.center (distance p c.center) (c.angleForPoint p) := by
      intro k hk
      rw [hk, onCircle_period, ← distance_eq]
      have := pointAtAngle_eq ⟨c.center, (p - c.center).magnitude, none⟩ (p - c.center).orientation
      simp only at this
      rw [← this]
      unfold Circle.pointAtAngle
      simp only
      rw [e]
      ext <;> simp
    unfold Circle.angleForPoint Circle.pointInCircleFrame at key ⊢
    simp only at key ⊢
    by_cases hn : (p - c.center).orientation < 0
    · rw [if_pos hn] at key ⊢
      exact ⟨by linarith, by linarith, key 1 (by push_cast; ring)⟩
    · rw [if_neg hn] at key ⊢
      exact ⟨by linarith, by linarith, key 0 (by push_cast; ring)⟩

/-- C94. `angle_for_point` is in [0, 360) and is the angle of the point: `point_at_angle` gives the point back when it is on
the circle. -/
theorem angleForPoint_inverse (c : Circle ℝ) (p : Vec ℝ) (hp : p ∈ circlePoints c.center c.radius) :
    0 ≤ c.angleForPoint p ∧ c.angleForPoint p < 360 ∧ c.pointAtAngle (c.angleForPoint p) = p := by
  obtain ⟨h1, h2, h3⟩ := angleForPoint_spec c p
  refine ⟨h1, h2, ?_⟩
  rw [pointAtAngle_eq, ← (show distance p c.center = c.radius from hp)]
  exact h3.symm

/-- C94. Conversely `point_at_angle` followed by `angle_for_point` gives back every angle of [0, 360). -/
theorem angle_roundtrip (c : Circle ℝ) (hr : 0 < c.radius) (angle : ℝ) (h0 : 0 ≤ angle) (h1 : angle < 360) :
    c.angleForPoint (c.pointAtAngle angle) = angle := by
  have hpi := Real.pi_pos
  obtain ⟨a0, a1, a2⟩ := angleForPoint_inverse c _ (pointAtAngle_on c hr.le angle)
  generalize c.angleForPoint (c.pointAtAngle angle) = b at *
  rw [pointAtAngle_eq, pointAtAngle_eq] at a2
  unfold onCircle at a2
  have hx := congrArg Vec.x a2
  have hy := congrArg Vec.y a2
  simp only [add_right_inj, mul_eq_mul_left_iff, hr.ne', or_false] at hx hy
  have hcos : Real.cos (b * Real.pi / 180 - angle * Real.pi / 180) = 1 := by
    rw [Real.cos_sub, hx, hy]
    linear_combination Real.sin_sq_add_cos_sq (angle * Real.pi / 180)
  rw [Real.cos_eq_one_iff_of_lt_of_lt] at hcos
  · have : (b - angle) * Real.pi = 0 := by linarith
    rcases mul_eq_zero.1 this with h | h
    · linarith
    · exact absurd h hpi.ne'
  · have : (-360) * Real.pi < (b - angle) * Real.pi := mul_lt_mul_of_pos_right (by linarith) hpi
    linarith
  · have : (b - angle) * Real.pi < 360 * Real.pi := mul_lt_mul_of_pos_right (by linarith) hpi
    linarith

/-- C94. The tangent at an angle passes through the point at this angle, is orthogonal to the radius, and has no other point
on or inside the circle. -/
theorem tangent_spec (c : Circle ℝ) (hr : 0 < c.radius) (angle : ℝ) :
    (c.tangentAtAngle angle).p = c.pointAtAngle angle ∧
    (c.tangentAtAngle angle).v.dot (c.pointAtAngle angle - c.center) = 0 ∧ (c.tangentAtAngle angle).v ≠ 0 ∧
    ∀ q, (c.tangentAtAngle angle).Contains q → q ≠ c.pointAtAngle angle → c.radius < distance q c.center := by
  have hd : (c.pointAtAngle angle - c.center).magnitudeSquare = c.radius ^ 2 := by
    have := pointAtAngle_on c hr.le angle
    have h2 := (Vec.magnitude_eq_iff _ _ hr.le).1 ((distance_eq _ _).trans this)
    exact h2
  have hv : (c.tangentAtAngle angle).v = (c.pointAtAngle angle - c.center).normal := rfl
  refine ⟨rfl, ?_, ?_, ?_⟩
  · rw [hv]; simp only [Vec.dot, Vec.normal_x, Vec.normal_y]; ring
  · rw [hv]
    intro h
    have hx := congrArg Vec.x h
    have hy := congrArg Vec.y h
    simp only [Vec.normal_x, Vec.normal_y, Vec.zero_x, Vec.zero_y] at hx hy
    have : (c.pointAtAngle angle - c.center).magnitudeSquare = 0 := by
      unfold Vec.magnitudeSquare
      rw [hy, neg_eq_zero.1 hx]; ring
    rw [this] at hd
    have := pow_pos hr 2
    linarith
  · rintro q ⟨s, rfl⟩ hne
    have hs : s ≠ 0 := by
      rintro rfl
      apply hne
      ext <;> simp <;> rfl
    unfold distance
    rw [Real.lt_sqrt hr.le]
    have hp : (c.tangentAtAngle angle).p = c.pointAtAngle angle := rfl
    rw [hv, hp]
    simp only [Vec.magnitudeSquare, Vec.sub_x, Vec.sub_y] at hd
    simp only [Vec.normal_x, Vec.normal_y, Vec.sub_x, Vec.sub_y]
    have : 0 < s ^ 2 * c.radius ^ 2 := by positivity
    generalize (c.pointAtAngle angle).x = a at *
    generalize (c.pointAtAngle angle).y = b at *
    nlinarith [hd]

/-- C94. `point_at_distance` runs along the circle: it is the point at the angle whose arc from the origin angle has the
length; it raises exactly for a null radius. -/
theorem pointAtDistance_spec (c : Circle ℝ) (l : ℝ) :
    (c.radius ≠ 0 → c.pointAtDistance l = .ok (onCircle c.center c.radius (l / c.radius * 180 / Real.pi))) ∧
    (c.radius = 0 → c.pointAtDistance l = .error .zeroDivisionError) := by
  constructor
  · intro h
    unfold Circle.pointAtDistance
    rw [Vec.pyDiv_ok _ _ h]
    show Except.ok (c.pointAtAngle _) = _
    rw [pointAtAngle_eq]
    unfold Vec.degrees
    rw [mul_div_assoc]
  · intro h
    simp only [Circle.pointAtDistance, Vec.pyDiv, h, if_true]
    rfl

/-! ## C57 -/

/-- C57. `is_point_inside` decides the closed disc. -/
theorem isPointInside_iff (c : Circle ℝ) (hr : 0 ≤ c.radius) (p : Vec ℝ) :
    (c.isPointInside p = true ↔ distance p c.center ≤ c.radius) ∧
    (c.isPointInside p = true ↔ c.signedDistanceToPoint p ≤ 0) := by
  have h : c.isPointInside p = true ↔ distance p c.center ≤ c.radius := by
    unfold Circle.isPointInside
    rw [decide_eq_true_eq, ← Vec.magnitude_sq, distance_eq]
    exact pow_le_pow_iff_left₀ (Real.sqrt_nonneg _) hr (by norm_num)
  refine ⟨h, h.trans ?_⟩
  unfold Circle.signedDistanceToPoint
  rw [distance_eq]
  exact sub_nonpos.symm

theorem abs_sub_le_distance (c p q : Vec ℝ) : |distance p c - distance q c| ≤ distance p q := by
  rw [← distance_eq, ← distance_eq, ← distance_eq]
  have h1 := Vec.triangle (p - q) (q - c)
  have h2 := Vec.triangle (q - p) (p - c)
  have e1 : p - q + (q - c) = p - c := by ext <;> simp
  have e2 : q - p + (p - c) = q - c := by ext <;> simp
  have e3 : (q - p).magnitude = (p - q).magnitude := by
    unfold Vec.magnitude Vec.magnitudeSquare; congr 1; simp only [Vec.sub_x, Vec.sub_y]; ring
  rw [e1] at h1
  rw [e2, e3] at h2
  rw [abs_le]
  constructor <;> linarith

theorem onCircle_same_angle (c : Vec ℝ) (r s angle : ℝ) :
    distance (onCircle c r angle) (onCircle c s angle) = |r - s| := by
  unfold distance onCircle
  rw [← Real.sqrt_sq_eq_abs]
  congr 1
  simp only
  linear_combination (r - s) ^ 2 * Real.sin_sq_add_cos_sq (angle * Real.pi / 180)

/-- C57. The distance to a full circle is the least distance to its points. -/
theorem distance_circle (c : Circle ℝ) (hr : 0 ≤ c.radius) (hd : c.domain = none) (p : Vec ℝ) :
    IsLeast {l | ∃ q ∈ circlePoints c.center c.radius, l = distance p q} (c.distanceToPoint p) := by
  have e : c.distanceToPoint p = |distance p c.center - c.radius| := by
    unfold Circle.distanceToPoint Circle.signedDistanceToPoint
    rw [hd, distance_eq]
  rw [e]
  obtain ⟨_, _, h⟩ := angleForPoint_spec c p
  constructor
  · refine ⟨_, onCircle_distance c.center c.radius (c.angleForPoint p) hr, ?_⟩
    generalize c.angleForPoint p = a at h
    conv_rhs => rw [h]
    rw [onCircle_same_angle]
  · rintro l ⟨q, hq, rfl⟩
    have := abs_sub_le_distance c.center p q
    rwa [show distance q c.center = c.radius from hq] at this

theorem cos_le_max (a x b : ℝ) (h0 : 0 ≤ a) (h1 : a ≤ x) (h2 : x ≤ b) (h3 : b ≤ 2 * Real.pi) :
    Real.cos x ≤ Real.cos a ∨ Real.cos x ≤ Real.cos b := by
  have hpi := Real.pi_pos
  by_cases h : x ≤ Real.pi
  · exact .inl (Real.cos_le_cos_of_nonneg_of_le_pi h0 h h1)
  · right
    have h := not_le.1 h
    rw [← Real.cos_two_pi_sub x, ← Real.cos_two_pi_sub b]
    exact Real.cos_le_cos_of_nonneg_of_le_pi (by linarith) (by linarith) (by linarith)

theorem distance_onCircle (c : Vec ℝ) (rho r theta phi : ℝ) :
    distance (onCircle c rho theta) (onCircle c r phi) =
      Real.sqrt (rho ^ 2 + r ^ 2 - 2 * (rho * r) * Real.cos ((phi - theta) * Real.pi / 180)) := by
  unfold distance onCircle
  congr 1
  have : (phi - theta) * Real.pi / 180 = phi * Real.pi / 180 - theta * Real.pi / 180 := by ring
  rw [this, Real.cos_sub]
  simp only
  linear_combination rho ^ 2 * Real.sin_sq_add_cos_sq (theta * Real.pi / 180) +
    r ^ 2 * Real.sin_sq_add_cos_sq (phi * Real.pi / 180)

theorem distance_symm (a b : Vec ℝ) : distance a b = distance b a := by
  unfold distance; congr 1; ring

/-- The distance to the points of an arc which does not contain the direction of the point is the least at an end. -/
theorem arc_ends (c : Vec ℝ) (rho r theta a s sweep : ℝ) (hrho : 0 ≤ rho) (hr : 0 ≤ r) (h0 : theta ≤ a) (hs0 : 0 ≤ s)
    (hs1 : s ≤ sweep) (h1 : a + sweep ≤ theta + 360) :
    min (distance (onCircle c rho theta) (onCircle c r a)) (distance (onCircle c rho theta) (onCircle c r (a + sweep))) ≤
      distance (onCircle c rho theta) (onCircle c r (a + s)) := by
  have hpi := Real.pi_pos
  have hm : ∀ u v : ℝ, u ≤ v → u * Real.pi / 180 ≤ v * Real.pi / 180 := by
    intro u v h
    have := mul_le_mul_of_nonneg_right h hpi.le
    linarith
  have h := cos_le_max ((a - theta) * Real.pi / 180) ((a + s - theta) * Real.pi / 180) ((a + sweep - theta) * Real.pi / 180)
    (by have := hm 0 (a - theta) (by linarith); linarith) (hm _ _ (by linarith)) (hm _ _ (by linarith))
    (by have := hm (a + sweep - theta) 360 (by linarith); linarith)
  have hk : 0 ≤ 2 * (rho * r) := by positivity
  rcases h with h | h
  · refine (min_le_left _ _).trans ?_
    rw [distance_onCircle, distance_onCircle]
    apply Real.sqrt_le_sqrt
    have := mul_le_mul_of_nonneg_left h hk
    linarith
  · refine (min_le_right _ _).trans ?_
    rw [distance_onCircle, distance_onCircle]
    apply Real.sqrt_le_sqrt
    have := mul_le_mul_of_nonneg_left h hk
    linarith

/-- C57. The distance to an arc is the least distance to its points, for an arc whose bounds are in [0, 360). -/
theorem distance_arc_partial (c : Circle ℝ) (hr : 0 ≤ c.radius) (d : Domain ℝ) (hd : c.domain = some d)
    (h1 : 0 ≤ d.start) (h2 : d.start ≤ 360) (h3 : 0 ≤ d.stop) (h4 : d.stop < 360) (p : Vec ℝ) :
    IsLeast {l | ∃ q ∈ arcPoints c.center c.radius d.start d.sweep, l = distance p q} (c.distanceToPoint p) := by
  obtain ⟨a0, a1, hp⟩ := angleForPoint_spec c p
  have hin := isInside_partial d (c.angleForPoint p) h1 h2 h3 h4.le a0 a1 (.inr h4)
  have hrho : 0 ≤ distance p c.center := Real.sqrt_nonneg _
  have hstop : ∃ k : ℤ, d.stop = d.start + d.sweep + 360 * k := by
    unfold Domain.sweep
    split
    · exact ⟨0, by push_cast; ring⟩
    · exact ⟨-1, by push_cast; ring⟩
  have hsw : 0 ≤ d.sweep := by
    unfold Domain.sweep
    split <;> linarith
  unfold Circle.distanceToPoint
  rw [hd]
  simp only
  by_cases hi : d.isInside (c.angleForPoint p) = true
  · rw [if_pos hi]
    obtain ⟨k, s, hs0, hs1, hs⟩ := hin.1 hi
    have e : c.signedDistanceToPoint p = distance p c.center - c.radius := by
      unfold Circle.signedDistanceToPoint; rw [distance_eq]
    rw [e]
    constructor
    · refine ⟨_, ⟨s, hs0, hs1, rfl⟩, ?_⟩
      rw [← onCircle_period _ _ _ k, ← hs]
      generalize c.angleForPoint p = a at hp
      conv_rhs => rw [hp]
      rw [onCircle_same_angle]
    · rintro l ⟨q, ⟨s, _, _, rfl⟩, rfl⟩
      have := abs_sub_le_distance c.center p (onCircle c.center c.radius (d.start + s))
      rwa [onCircle_distance _ _ _ hr] at this
  · rw [if_neg hi, distance_eq, distance_eq, pointAtAngle_eq, pointAtAngle_eq]
    obtain ⟨k, hk⟩ := hstop
    have estop : onCircle c.center c.radius d.stop = onCircle c.center c.radius (d.start + d.sweep) := by
      conv_lhs => rw [hk]
      rw [onCircle_period]
    constructor
    · rcases min_choice (distance p (onCircle c.center c.radius d.start)) (distance p (onCircle c.center c.radius d.stop))
        with h | h <;> rw [h]
      · exact ⟨_, ⟨0, le_refl _, hsw, by rw [add_zero]⟩, rfl⟩
      · exact ⟨_, ⟨d.sweep, hsw, le_refl _, estop⟩, rfl⟩
    · rintro l ⟨q, ⟨s, hs0, hs1, rfl⟩, rfl⟩
      rw [estop]
      -- the turn of the angle just below the start
      obtain ⟨m, hm1, hm2⟩ : ∃ m : ℤ, c.angleForPoint p + 360 * m ≤ d.start ∧
          d.start + d.sweep ≤ c.angleForPoint p + 360 * m + 360 := by
        unfold Domain.isInside Domain.isCounterclockwise at hi
        unfold Domain.sweep
        by_cases hc : d.start ≤ d.stop
        · simp only [hc, decide_true, if_true, Bool.and_eq_true, decide_eq_true_eq, not_and_or, not_le] at hi ⊢
          rcases hi with hi | hi
          · exact ⟨0, by push_cast; linarith, by push_cast; linarith⟩
          · exact ⟨-1, by push_cast; linarith, by push_cast; linarith⟩
        · simp only [hc, decide_false, Bool.false_eq_true, if_false, Bool.not_eq_true', Bool.and_eq_false_iff,
            decide_eq_false_iff_not, not_lt, not_or, not_le] at hi ⊢
          exact ⟨0, by push_cast; linarith [hi.1, hi.2], by push_cast; linarith [hi.1, hi.2]⟩
      rw [← onCircle_period _ _ _ m] at hp
      have key := arc_ends c.center (distance p c.center) c.radius _ _ s _ hrho hr hm1 hs0 hs1 hm2
      rwa [← hp] at key

/-- C57 fails for every arc that crosses the origin with a negative start: its points before the origin are not at the distance zero. -/
theorem distance_arc_wrong (center : Vec ℝ) (r : ℝ) (hr : 0 < r) (a b : ℝ) (ha : -360 < a) (ha' : a < 0) (hb : 0 ≤ b) (hb' : b < a + 360)
    (t : ℝ) (ht : a + 360 < t) (ht' : t < 360) :
    let c : Circle ℝ := ⟨center, r, some ⟨a, b⟩⟩
    c.pointAtAngle t ∈ arcPoints center r a (b - a) ∧ c.distanceToPoint (c.pointAtAngle t) ≠ 0 := by
  intro c
  have hp : c.pointAtAngle t = onCircle center r t := pointAtAngle_eq c t
  refine ⟨⟨t - 360 - a, by linarith, by linarith, ?_⟩, ?_⟩
  · rw [hp, ← onCircle_period center r (a + (t - 360 - a)) 1]
    congr 1
    push_cast
    ring
  · have hang : c.angleForPoint (c.pointAtAngle t) = t := angle_roundtrip c hr t (by linarith) ht'
    have hin : Domain.isInside ⟨a, b⟩ t = false := by
      unfold Domain.isInside Domain.isCounterclockwise
      have h1 : a ≤ b := by linarith
      have h2 : ¬ t ≤ b := by linarith
      simp [h1, h2]
    have key : ∀ phi, (∀ n : ℤ, phi - t ≠ 360 * n) → 0 < distance (onCircle center r t) (onCircle center r phi) := by
      intro phi hphi
      rw [distance_onCircle]
      apply Real.sqrt_pos.2
      have hc : Real.cos ((phi - t) * Real.pi / 180) ≠ 1 := by
        intro h
        obtain ⟨n, hn⟩ := (Real.cos_eq_one_iff _).1 h
        refine hphi n (mul_right_cancel₀ Real.pi_ne_zero ?_)
        linarith
      have := lt_of_le_of_ne (Real.cos_le_one _) hc
      nlinarith [mul_pos hr hr]
    have hint : ∀ (x : ℝ) (n m : ℤ), 360 * (m : ℝ) < x → x < 360 * ((m : ℝ) + 1) → x ≠ 360 * (n : ℝ) := by
      intro x n m h1 h2 h
      rw [h] at h1 h2
      have h3 : (m : ℝ) < n := by linarith
      have h4 : (n : ℝ) < m + 1 := by linarith
      have h3' : m < n := by exact_mod_cast h3
      have h4' : n < m + 1 := by exact_mod_cast h4
      omega
    have k1 := key a fun n => hint _ n (-2) (by push_cast; linarith) (by push_cast; linarith)
    have k2 := key b fun n => hint _ n (-1) (by push_cast; linarith) (by push_cast; linarith)
    unfold Circle.distanceToPoint
    simp only [c]
    rw [show Circle.angleForPoint ⟨center, r, some ⟨a, b⟩⟩ (Circle.pointAtAngle ⟨center, r, some ⟨a, b⟩⟩ t) = t from hang, hin]
    rw [if_neg (by simp), distance_eq, distance_eq, pointAtAngle_eq, pointAtAngle_eq, pointAtAngle_eq]
    exact (lt_min k1 k2).ne'

example : (-360 : ℝ) < -90 ∧ (-90 : ℝ) < 0 ∧ (90 : ℝ) < -90 + 360 ∧ (-90 : ℝ) + 360 < 300 ∧ (300 : ℝ) < 360 := by norm_num

/-! ## C56 -/

theorem intersectSegment_eq (c : Circle ℝ) (seg : Segment ℝ) (hne : seg.p0 ≠ seg.p1) :
    let d := seg.vector
    let dr2 := d.x ^ 2 + d.y ^ 2
    let D := (seg.p0 - c.center).cross (seg.p1 - c.center)
    let disc := c.radius ^ 2 * dr2 - D ^ 2
    0 < dr2 ∧ c.intersectSegment seg =
      if disc < 0 then .ok .none
      else if disc = 0 then .ok (.one (⟨D * d.y / dr2, -D * d.x / dr2⟩ + c.center))
      else .ok (.two (⟨(D * d.y - sign d.y * d.x * Real.sqrt disc) / dr2, (-D * d.x - |d.y| * Real.sqrt disc) / dr2⟩ + c.center)
        (⟨(D * d.y + sign d.y * d.x * Real.sqrt disc) / dr2, (-D * d.x + |d.y| * Real.sqrt disc) / dr2⟩ + c.center)) := by
  intro d dr2 D disc
  have hv : seg.vector ≠ 0 := by
    intro h
    apply hne
    have hx := congrArg Vec.x h
    have hy := congrArg Vec.y h
    simp only [Segment.vector, Vec.sub_x, Vec.sub_y, Vec.zero_x, Vec.zero_y] at hx hy
    ext <;> linarith
  have hdr : 0 < dr2 := by
    have := Vec.magnitudeSquare_pos _ hv
    unfold Vec.magnitudeSquare at this
    simp only [dr2, d]; linarith
  refine ⟨hdr, ?_⟩
  unfold Circle.intersectSegment
  simp only [Vec.pyDiv, show ¬ (seg.vector.x ^ 2 + seg.vector.y ^ 2 = 0) from hdr.ne', if_false]
  rfl

/-- The points of a line on a circle, by the abscissa along the line. -/
theorem meets_iff (c : Vec ℝ) (r : ℝ) (hr : 0 ≤ r) (seg : Segment ℝ) (q : Vec ℝ)
    (hdr : 0 < seg.vector.x ^ 2 + seg.vector.y ^ 2) :
    (seg.toLine.Contains q ∧ distance q c = r) ↔
      (q.x - c.x) * seg.vector.y - (q.y - c.y) * seg.vector.x = (seg.p0 - c).cross (seg.p1 - c) ∧
      ((q.x - c.x) * seg.vector.x + (q.y - c.y) * seg.vector.y) ^ 2 =
        r ^ 2 * (seg.vector.x ^ 2 + seg.vector.y ^ 2) - (seg.p0 - c).cross (seg.p1 - c) ^ 2 := by
  have hdist : distance q c = r ↔ (q.x - c.x) ^ 2 + (q.y - c.y) ^ 2 = r ^ 2 := by
    unfold distance
    rw [Real.sqrt_eq_iff_mul_self_eq (by positivity) hr]
    constructor <;> intro h <;> linarith
  rw [hdist]
  have hlag : ((q.x - c.x) * seg.vector.x + (q.y - c.y) * seg.vector.y) ^ 2 +
      ((q.x - c.x) * seg.vector.y - (q.y - c.y) * seg.vector.x) ^ 2 =
      ((q.x - c.x) ^ 2 + (q.y - c.y) ^ 2) * (seg.vector.x ^ 2 + seg.vector.y ^ 2) := by ring
  have hline : seg.toLine.Contains q ↔
      (q.x - c.x) * seg.vector.y - (q.y - c.y) * seg.vector.x = (seg.p0 - c).cross (seg.p1 - c) := by
    simp only [Line.Contains, Segment.toLine, Line.fromTwoPoints, Segment.vector, Vec.cross, Vec.sub_x, Vec.sub_y] at hdr ⊢
    constructor
    · rintro ⟨s, rfl⟩
      simp only; ring
    · intro h
      refine ⟨((q.x - seg.p0.x) * (seg.p1.x - seg.p0.x) + (q.y - seg.p0.y) * (seg.p1.y - seg.p0.y)) /
        ((seg.p1.x - seg.p0.x) ^ 2 + (seg.p1.y - seg.p0.y) ^ 2), ?_⟩
      have h' : (q.x - seg.p0.x) * (seg.p1.y - seg.p0.y) = (q.y - seg.p0.y) * (seg.p1.x - seg.p0.x) := by linarith
      ext
      · simp only
        rw [div_mul_eq_mul_div, ← sub_eq_iff_eq_add', eq_div_iff hdr.ne']
        linear_combination (seg.p1.y - seg.p0.y) * h'
      · simp only
        rw [div_mul_eq_mul_div, ← sub_eq_iff_eq_add', eq_div_iff hdr.ne']
        linear_combination -(seg.p1.x - seg.p0.x) * h'
  rw [hline]
  constructor
  · rintro ⟨h1, h2⟩
    refine ⟨h1, ?_⟩
    rw [h1, h2] at hlag
    linarith
  · rintro ⟨h1, h2⟩
    refine ⟨h1, ?_⟩
    rw [h1, h2] at hlag
    have : r ^ 2 * (seg.vector.x ^ 2 + seg.vector.y ^ 2) =
      ((q.x - c.x) ^ 2 + (q.y - c.y) ^ 2) * (seg.vector.x ^ 2 + seg.vector.y ^ 2) := by linarith
    exact (mul_right_cancel₀ hdr.ne' this).symm

/-- A point is determined by its coordinates along and across a direction. -/
theorem coordinates_unique (dx dy u v : ℝ) (q c : Vec ℝ) (hdr : 0 < dx ^ 2 + dy ^ 2)
    (h1 : (q.x - c.x) * dy - (q.y - c.y) * dx = u) (h2 : (q.x - c.x) * dx + (q.y - c.y) * dy = v) :
    q = (⟨(u * dy + dx * v) / (dx ^ 2 + dy ^ 2), (-u * dx + dy * v) / (dx ^ 2 + dy ^ 2)⟩ : Vec ℝ) + c := by
  ext
  · simp only [Vec.add_x]
    rw [← sub_eq_iff_eq_add, eq_div_iff hdr.ne']
    linear_combination dy * h1 + dx * h2
  · simp only [Vec.add_y]
    rw [← sub_eq_iff_eq_add, eq_div_iff hdr.ne']
    linear_combination -dx * h1 + dy * h2

theorem coordinates_of (dx dy u v : ℝ) (c : Vec ℝ) (hdr : 0 < dx ^ 2 + dy ^ 2) :
    let q := (⟨(u * dy + dx * v) / (dx ^ 2 + dy ^ 2), (-u * dx + dy * v) / (dx ^ 2 + dy ^ 2)⟩ : Vec ℝ) + c
    (q.x - c.x) * dy - (q.y - c.y) * dx = u ∧ (q.x - c.x) * dx + (q.y - c.y) * dy = v := by
  intro q
  simp only [q, Vec.add_x, Vec.add_y, add_sub_cancel_right]
  have := hdr.ne'
  constructor
  · field_simp; ring
  · field_simp; ring

/-- C56. The result of the intersection of a circle and of a segment which is not a point is the set of the points of the line on the
circle: nothing when there is none, a bare vector when the line is tangent, and two different points otherwise. The points are the
ones of the whole line, not of the segment. -/
theorem intersectSegment_spec (c : Circle ℝ) (hr : 0 ≤ c.radius) (seg : Segment ℝ) (hne : seg.p0 ≠ seg.p1) :
    (c.intersectSegment seg = .ok .none ∧ ∀ q, ¬ (seg.toLine.Contains q ∧ q ∈ circlePoints c.center c.radius)) ∨
    (∃ p, c.intersectSegment seg = .ok (.one p) ∧
      ∀ q, (seg.toLine.Contains q ∧ q ∈ circlePoints c.center c.radius) ↔ q = p) ∨
    (∃ p0 p1, c.intersectSegment seg = .ok (.two p0 p1) ∧ p0 ≠ p1 ∧
      ∀ q, (seg.toLine.Contains q ∧ q ∈ circlePoints c.center c.radius) ↔ q = p0 ∨ q = p1) := by
  obtain ⟨hdr, e⟩ := intersectSegment_eq c seg hne
  rw [e]
  clear e
  have hm := fun q => meets_iff c.center c.radius hr seg q hdr
  simp only [circlePoints, Set.mem_setOf_eq]
  simp only [hm]
  generalize (seg.p0 - c.center).cross (seg.p1 - c.center) = D
  generalize hdisc : c.radius ^ 2 * (seg.vector.x ^ 2 + seg.vector.y ^ 2) - D ^ 2 = disc
  generalize seg.vector.x = dx at *
  generalize seg.vector.y = dy at *
  by_cases h1 : disc < 0
  · left
    rw [if_pos h1]
    refine ⟨rfl, fun q ⟨_, hq⟩ => ?_⟩
    have := sq_nonneg ((q.x - c.center.x) * dx + (q.y - c.center.y) * dy)
    linarith
  · right
    rw [if_neg h1]
    by_cases h2 : disc = 0
    · left
      rw [if_pos h2]
      refine ⟨_, rfl, fun q => ⟨fun ⟨hq1, hq2⟩ => ?_, ?_⟩⟩
      · rw [h2] at hq2
        have := coordinates_unique dx dy D 0 q c.center hdr hq1 (by simpa using hq2)
        rw [this]; ext <;> simp
      · rintro rfl
        have := coordinates_of dx dy D 0 c.center hdr
        simp only [mul_zero, add_zero] at this
        refine ⟨this.1, ?_⟩
        rw [this.2, h2]; ring
    · right
      rw [if_neg h2]
      have hpos : 0 < disc := lt_of_le_of_ne (not_lt.1 h1) (Ne.symm h2)
      have hs : 0 < Real.sqrt disc := Real.sqrt_pos.2 hpos
      have hss : Real.sqrt disc ^ 2 = disc := Real.sq_sqrt hpos.le
      have hsg : |dy| = sign dy * dy ∧ sign dy ^ 2 = 1 := by
        unfold sign
        split
        · rename_i h; rw [abs_of_nonneg h]; constructor <;> ring
        · rename_i h; rw [abs_of_neg (not_le.1 h)]; constructor <;> ring
      obtain ⟨hsg1, hsg2⟩ := hsg
      have hsn : sign dy ≠ 0 := by intro h; rw [h] at hsg2; norm_num at hsg2
      have e0 : ∀ t : ℝ, t = 1 ∨ t = -1 → (⟨(D * dy + t * (sign dy * dx * Real.sqrt disc)) / (dx ^ 2 + dy ^ 2),
          (-D * dx + t * (|dy| * Real.sqrt disc)) / (dx ^ 2 + dy ^ 2)⟩ : Vec ℝ) + c.center =
          (⟨(D * dy + dx * (t * sign dy * Real.sqrt disc)) / (dx ^ 2 + dy ^ 2),
            (-D * dx + dy * (t * sign dy * Real.sqrt disc)) / (dx ^ 2 + dy ^ 2)⟩ : Vec ℝ) + c.center := by
        intro t _
        rw [hsg1]
        ext <;> simp only [Vec.add_x, Vec.add_y] <;> congr 2 <;> ring
      have em := e0 (-1) (.inr rfl)
      have ep := e0 1 (.inl rfl)
      simp only [neg_mul, one_mul, ← sub_eq_add_neg] at em ep
      refine ⟨_, _, rfl, ?_, ?_⟩
      · rw [show (-D * dx : ℝ) = -(D * dx) by ring]
        rw [em, ep]
        intro h
        have c1 := (coordinates_of dx dy D (-(sign dy * Real.sqrt disc)) c.center hdr).2
        have c2 := (coordinates_of dx dy D (sign dy * Real.sqrt disc) c.center hdr).2
        simp only [neg_mul] at c1 c2
        rw [h] at c1
        rw [c1] at c2
        have : sign dy * Real.sqrt disc = 0 := by linarith
        rcases mul_eq_zero.1 this with h | h
        · exact hsn h
        · exact hs.ne' h
      · intro q
        rw [show (-D * dx : ℝ) = -(D * dx) by ring]
        rw [em, ep]
        constructor
        · rintro ⟨hq1, hq2⟩
          have : ((q.x - c.center.x) * dx + (q.y - c.center.y) * dy) ^ 2 = (sign dy * Real.sqrt disc) ^ 2 := by
            rw [hq2, mul_pow, hsg2, hss, one_mul]
          rcases sq_eq_sq_iff_eq_or_eq_neg.1 this with h | h
          · right
            have := coordinates_unique dx dy D _ q c.center hdr hq1 h
            simpa only [neg_mul] using this
          · left
            have := coordinates_unique dx dy D _ q c.center hdr hq1 h
            simpa only [neg_mul] using this
        · rintro (rfl | rfl)
          · have := coordinates_of dx dy D (-(sign dy * Real.sqrt disc)) c.center hdr
            simp only [neg_mul] at this
            refine ⟨this.1, ?_⟩
            rw [this.2, neg_sq, mul_pow, hsg2, hss, one_mul]
          · have := coordinates_of dx dy D (sign dy * Real.sqrt disc) c.center hdr
            simp only [neg_mul] at this
            refine ⟨this.1, ?_⟩
            rw [this.2, mul_pow, hsg2, hss, one_mul]

/-- C56. The intersection with a segment of null length raises `ZeroDivisionError`, even when the point is outside the circle. -/
theorem intersectSegment_null (c : Circle ℝ) (p : Vec ℝ) : c.intersectSegment ⟨p, p⟩ = .error .zeroDivisionError := by
  unfold Circle.intersectSegment
  have h1 : (⟨p, p⟩ : Segment ℝ).vector.x = 0 := by simp [Segment.vector]
  have h2 : (⟨p, p⟩ : Segment ℝ).vector.y = 0 := by simp [Segment.vector]
  have h3 : (p - c.center).cross (p - c.center) = 0 := by simp only [Vec.cross]; ring
  simp only [h1, h2, h3]
  norm_num [Vec.pyDiv]
  rfl

/-- Example: the unit circle and a horizontal segment. -/
example : ∃ p0 p1, (⟨⟨0, 0⟩, 5, none⟩ : Circle ℝ).intersectSegment ⟨⟨0, 3⟩, ⟨1, 3⟩⟩ = .ok (.two p0 p1) ∧ p0 = ⟨-4, 3⟩ ∧ p1 = ⟨4, 3⟩ := by
  have hs : Real.sqrt 16 = 4 := by rw [show (16 : ℝ) = 4 ^ 2 by norm_num]; exact Real.sqrt_sq (by norm_num)
  obtain ⟨_, e⟩ := intersectSegment_eq ⟨⟨0, 0⟩, 5, none⟩ ⟨⟨0, 3⟩, ⟨1, 3⟩⟩ (by intro h; have := congrArg Vec.x h; norm_num at this)
  refine ⟨_, _, ?_, rfl, rfl⟩
  rw [e]
  norm_num [Segment.vector, Vec.cross, sign, hs]
  constructor <;> ext <;> norm_num

/-! ## C95 -/

/-- A matrix whose columns are orthogonal and have the same length reaches every point. -/
theorem similarity_onto (t : Aff ℝ) (k : ℝ) (hk : k ≠ 0) (h1 : t.m 0 0 ^ 2 + t.m 1 0 ^ 2 = k ^ 2)
    (h2 : t.m 0 1 ^ 2 + t.m 1 1 ^ 2 = k ^ 2) (h3 : t.m 0 0 * t.m 0 1 + t.m 1 0 * t.m 1 1 = 0) (q : Vec ℝ) :
    ∃ p, t.apply p = q := by
  have hdet : (t.m 0 0 * t.m 1 1 - t.m 0 1 * t.m 1 0) ^ 2 = (k ^ 2) ^ 2 := by
    have : (t.m 0 0 ^ 2 + t.m 1 0 ^ 2) * (t.m 0 1 ^ 2 + t.m 1 1 ^ 2) = (k ^ 2) ^ 2 := by rw [h1, h2]; ring
    linear_combination this - (t.m 0 0 * t.m 0 1 + t.m 1 0 * t.m 1 1) * h3
  have hne : t.m 0 0 * t.m 1 1 - t.m 0 1 * t.m 1 0 ≠ 0 := by
    intro h
    rw [h] at hdet
    have : k ^ 2 = 0 := by
      have h0 : (k ^ 2) ^ 2 = 0 := by rw [← hdet]; ring
      exact pow_eq_zero_iff (by norm_num) |>.1 h0
    exact hk (pow_eq_zero_iff (by norm_num) |>.1 this)
  refine ⟨⟨(t.m 1 1 * (q.x - t.m 0 2) - t.m 0 1 * (q.y - t.m 1 2)) / (t.m 0 0 * t.m 1 1 - t.m 0 1 * t.m 1 0),
    (-t.m 1 0 * (q.x - t.m 0 2) + t.m 0 0 * (q.y - t.m 1 2)) / (t.m 0 0 * t.m 1 1 - t.m 0 1 * t.m 1 0)⟩, ?_⟩
  rw [aff_apply]
  generalize t.m 0 0 = a at *
  generalize t.m 0 1 = b at *
  generalize t.m 1 0 = c at *
  generalize t.m 1 1 = d at *
  ext
  · simp only; field_simp; ring
  · simp only
    rw [← sub_eq_zero]
    have : c * ((d * (q.x - t.m 0 2) - b * (q.y - t.m 1 2)) / (a * d - b * c)) +
        d * ((-c * (q.x - t.m 0 2) + a * (q.y - t.m 1 2)) / (a * d - b * c)) = q.y - t.m 1 2 := by
      rw [← mul_div_assoc, ← mul_div_assoc, ← add_div, div_eq_iff hne]; ring
    linarith

/-- The factor of a reachable transformation, of known type, that accepts the product by a number. -/
theorem scalarMul_matrix (t : Aff ℝ) (h : Aff.Reach t) (ht : t.type ≠ none) (s r : ℝ)
    (hr : scalarMul t.type (t.m 0 0) s = .ok r) : ∃ k, 0 ≤ k ∧ r = k * s ∧ t.m 0 0 ^ 2 + t.m 1 0 ^ 2 = k ^ 2 ∧
      t.m 0 1 ^ 2 + t.m 1 1 ^ 2 = k ^ 2 ∧ t.m 0 0 * t.m 0 1 + t.m 1 0 * t.m 1 1 = 0 := by
  have hok := (aff_reach_ok t h).2
  cases hty : t.type with
  | none => exact absurd hty ht
  | some ty =>
    rw [hty] at hok hr
    cases ty <;> simp only at hok <;> simp [scalarMul] at hr
    · refine ⟨1, zero_le_one, by linarith, ?_, ?_, ?_⟩ <;> rw [hok] <;> simp
    · obtain ⟨k, hk⟩ := hok
      refine ⟨|t.m 0 0|, abs_nonneg _, hr.symm, ?_, ?_, ?_⟩ <;> rw [hk] <;> simp
    · refine ⟨|t.m 0 0|, abs_nonneg _, hr.symm, ?_, ?_, ?_⟩ <;> rw [hok] <;> simp
    · refine ⟨|t.m 0 0|, abs_nonneg _, hr.symm, ?_, ?_, ?_⟩ <;> rw [hok] <;> simp
    · refine ⟨|t.m 0 0|, abs_nonneg _, hr.symm, ?_, ?_, ?_⟩ <;> rw [hok] <;> simp
    · obtain ⟨a, ha⟩ := hok
      have hsc := Real.sin_sq_add_cos_sq a
      refine ⟨1, zero_le_one, by linarith, ?_, ?_, ?_⟩ <;> rw [ha] <;> simp <;> linarith
    · obtain ⟨x, y, hx⟩ := hok
      refine ⟨|t.m 0 0|, abs_nonneg _, hr.symm, ?_, ?_, ?_⟩ <;> rw [hx] <;> simp

/-- C95. The outcome for the transformations made by the class methods: the centre is moved in all cases; the radius is kept by the identity,
translations, rotations and reflections, and multiplied by the absolute value of the factor of a scale with one factor; and the other scales
raise `ValueError`. -/
theorem circle_transform_made (c : Circle ℝ) :
    (∀ t : Aff ℝ, (t = Aff.identity ∨ (∃ v, t = Aff.translation v) ∨ (∃ a, t = Aff.rotation a) ∨
        ∃ x y, x * y = -1 ∧ x + y = 0 ∧ t = Aff.scale x y) →
      c.applyTransformation t = (.ok (), { c with center := t.apply c.center })) ∧
    (∀ k : ℝ, c.applyTransformation (Aff.scale k k) =
      (.ok (), { c with center := (Aff.scale k k).apply c.center, radius := |k| * c.radius })) ∧
    ∀ x y : ℝ, x ≠ y → ¬ (x * y = -1 ∧ x + y = 0) →
      c.applyTransformation (Aff.scale x y) = (.error .valueError, { c with center := (Aff.scale x y).apply c.center }) := by
  obtain ⟨h1, h2, h3, h4, h5, h6⟩ := scalarMul_made c.radius
  unfold Circle.applyTransformation
  refine ⟨?_, fun k => ?_, fun x y hxy hn => ?_⟩
  · rintro t (rfl | ⟨v, rfl⟩ | ⟨a, rfl⟩ | ⟨x, y, hx, hy, rfl⟩)
    · rw [h1]
    · rw [h2]
    · rw [h3]
    · rw [h5 x y hx hy]
  · rw [h4]
  · rw [h6 x y hxy hn]

/-- C95. A circle is transformed into its image, when the type of the transformation is known. -/
theorem circle_transform_partial (c c' : Circle ℝ) (hr : 0 ≤ c.radius) (t : Aff ℝ) (h : Aff.Reach t) (ht : t.type ≠ none)
    (e : c.applyTransformation t = (.ok (), c')) :
    0 ≤ c'.radius ∧ circlePoints c'.center c'.radius = t.apply '' circlePoints c.center c.radius := by
  unfold Circle.applyTransformation at e
  cases hs : scalarMul t.type (t.m 0 0) c.radius with
  | error x => rw [hs] at e; cases e
  | ok r =>
    rw [hs] at e
    simp only [Prod.mk.injEq, true_and] at e
    subst e
    obtain ⟨k, hk, rfl, m1, m2, m3⟩ := scalarMul_matrix t h ht _ _ hs
    have hsim := similarity_of_matrix t k hk m1 m2 m3
    refine ⟨by simp only; positivity, ?_⟩
    ext q
    simp only [circlePoints, Set.mem_setOf_eq, Set.mem_image]
    constructor
    · intro hq
      by_cases hk0 : k = 0
      · subst hk0
        refine ⟨onCircle c.center c.radius 0, onCircle_distance _ _ _ hr, ?_⟩
        have h0 : ∀ a b : Vec ℝ, distance a b = 0 → a = b := by
          intro a b hab
          rw [← distance_eq] at hab
          have := (Vec.magnitude_eq_zero _).1 hab
          have hx := congrArg Vec.x this
          have hy := congrArg Vec.y this
          simp only [Vec.sub_x, Vec.sub_y, Vec.zero_x, Vec.zero_y] at hx hy
          ext <;> linarith
        have e1 := h0 q _ (by simpa using hq)
        have e2 := h0 _ _ ((hsim (onCircle c.center c.radius 0) c.center).trans (zero_mul _))
        rw [e1, e2]
      · obtain ⟨p, rfl⟩ := similarity_onto t k hk0 m1 m2 m3 q
        refine ⟨p, ?_, rfl⟩
        rw [hsim] at hq
        exact mul_left_cancel₀ hk0 hq
    · rintro ⟨p, hp, rfl⟩
      rw [hsim, hp]

/-- C95. The arcs follow the translations and the scales by a positive factor, angle by angle. -/
theorem arc_transform_partial (c : Circle ℝ) (v : Vec ℝ) (k : ℝ) (hk : 0 < k) (angle : ℝ) :
    (∃ c', c.applyTransformation (Aff.translation v) = (.ok (), c') ∧ c'.domain = c.domain ∧
      c'.pointAtAngle angle = (Aff.translation v).apply (c.pointAtAngle angle)) ∧
    (∃ c', c.applyTransformation (Aff.scale k k) = (.ok (), c') ∧ c'.domain = c.domain ∧
      c'.pointAtAngle angle = (Aff.scale k k).apply (c.pointAtAngle angle)) := by
  constructor
  · refine ⟨⟨(Aff.translation v).apply c.center, c.radius, c.domain⟩, ?_, rfl, ?_⟩
    · simp [Circle.applyTransformation, scalarMul, Aff.translation]
    · rw [pointAtAngle_eq, pointAtAngle_eq, aff_apply, aff_apply]
      unfold onCircle
      ext <;> simp [Aff.translation] <;> ring
  · refine ⟨⟨(Aff.scale k k).apply c.center, k * c.radius, c.domain⟩, ?_, rfl, ?_⟩
    · unfold Circle.applyTransformation scalarMul
      by_cases h1 : k = 1
      · subst h1; simp [Aff.scale, typeForScale]
      · have h2 : k ≠ -1 := by intro h; linarith
        simp [Aff.scale, typeForScale, h1, h2, abs_of_pos hk]
    · rw [pointAtAngle_eq, pointAtAngle_eq, aff_apply, aff_apply]
      unfold onCircle
      ext <;> simp [Aff.scale] <;> ring

/-- C95 fails for the rotations of arcs: the domain is not turned. Whatever the arc and the rotation, but full turns, the start of the result is
not the image of the start. -/
theorem arc_transform_wrong (center : Vec ℝ) (radius : ℝ) (hr : radius ≠ 0) (d : Domain ℝ) (angle : ℝ) (ha : ∀ n : ℤ, angle ≠ 360 * n) :
    let c : Circle ℝ := ⟨center, radius, some d⟩
    ∃ c', c.applyTransformation (Aff.rotation angle) = (.ok (), c') ∧ c'.domain = some d ∧
      c'.startStopPoint ≠ c.startStopPoint.map (Aff.rotation angle).apply := by
  intro c
  refine ⟨⟨(Aff.rotation angle).apply center, radius, some d⟩, ?_, rfl, ?_⟩
  · simp [Circle.applyTransformation, scalarMul, Aff.rotation, c]
  · unfold Circle.startStopPoint
    simp only [c, if_true, pointAtAngle_eq, Option.map_some, ne_eq, Option.some.injEq, aff_apply, Vec.ext_iff, onCircle, Aff.rotation]
    simp only [Matrix.of_apply, Matrix.cons_val', Matrix.cons_val_zero, Matrix.cons_val_one, Matrix.cons_val_fin_one, Matrix.cons_val]
    rintro ⟨h1, h2⟩
    have hang : Vec.radians angle = angle * Real.pi / 180 := by unfold Vec.radians; ring
    rw [hang] at h1 h2
    generalize hA : angle * Real.pi / 180 = A at h1 h2
    generalize hS : d.start * Real.pi / 180 = S at h1 h2
    have e1 : Real.cos S = Real.cos A * Real.cos S - Real.sin A * Real.sin S := by
      apply mul_left_cancel₀ hr
      linarith
    have e2 : Real.sin S = Real.sin A * Real.cos S + Real.cos A * Real.sin S := by
      apply mul_left_cancel₀ hr
      linarith
    have hsc := Real.sin_sq_add_cos_sq S
    have hc : Real.cos A = 1 := by
      have : Real.cos A * (Real.sin S ^ 2 + Real.cos S ^ 2) = Real.sin S ^ 2 + Real.cos S ^ 2 := by
        linear_combination (-Real.cos S) * e1 - Real.sin S * e2
      rw [hsc] at this
      linarith
    obtain ⟨n, hn⟩ := (Real.cos_eq_one_iff _).1 hc
    apply ha n
    rw [← hA] at hn
    apply mul_right_cancel₀ Real.pi_ne_zero
    linarith

/-- The arc from 0 to 90 degrees is unchanged by a rotation of 90 degrees about its center. -/
example :
    let c : Circle ℝ := ⟨⟨0, 0⟩, 1, some ⟨0, 90⟩⟩
    ∃ c', c.applyTransformation (Aff.rotation 90) = (.ok (), c') ∧ c'.startStopPoint = some ⟨1, 0⟩ ∧
      c.startStopPoint.map (Aff.rotation 90).apply = some ⟨0, 1⟩ := by
  intro c
  have h90 : Vec.radians 90 = Real.pi / 2 := by unfold Vec.radians; ring
  refine ⟨⟨(Aff.rotation 90).apply ⟨0, 0⟩, 1, some ⟨0, 90⟩⟩, ?_, ?_, ?_⟩
  · simp [Circle.applyTransformation, scalarMul, Aff.rotation, c]
  · unfold Circle.startStopPoint
    simp only [if_true, pointAtAngle_eq, aff_apply, Option.some.injEq]
    ext <;> simp [onCircle, Aff.rotation]
  · unfold Circle.startStopPoint
    simp only [c, if_true, pointAtAngle_eq, Option.map_some, Option.some.injEq, aff_apply]
    ext <;> simp [onCircle, Aff.rotation, h90]

/-- C95 fails for every rotation about a point, but a turn and half a turn: the radius is multiplied by the cosine of the angle. -/
theorem circle_transform_wrong (c : Circle ℝ) (hr : c.radius ≠ 0) (center : Vec ℝ) (angle : ℝ) (ha : Real.sin (angle * Real.pi / 180) ≠ 0) :
    ∃ c', c.applyTransformation (Aff.rotationAt center angle) = (.ok (), c') ∧
      c'.radius = |Real.cos (angle * Real.pi / 180)| * c.radius ∧ c'.radius ≠ c.radius := by
  obtain ⟨_, h2, h3⟩ := scalarMul_wrong center angle c.radius
  unfold Circle.applyTransformation
  simp only
  rw [h2]
  exact ⟨_, rfl, rfl, h3 hr ha⟩

/-- A rotation of 90 degrees is one of them: the circle becomes a point. -/
example : Real.sin (90 * Real.pi / 180) ≠ 0 ∧ |Real.cos (90 * Real.pi / 180)| = 0 := by
  rw [show (90 : ℝ) * Real.pi / 180 = Real.pi / 2 by ring]
  simp

/-- C95. When the product by the radius fails, the exception leaves the circle with the new center and the old radius. -/
theorem circle_transform_torn (c : Circle ℝ) (h : ℝ) :
    c.applyTransformation (Aff.screen h) = (.error .valueError, { c with center := (Aff.screen h).apply c.center }) := by
  simp [Circle.applyTransformation, scalarMul, Aff.screen]

end Patro.Conic
