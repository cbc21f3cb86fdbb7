import Verif.Model.PathBulge
import Verif.Props.Path
import Verif.Props.Conic
/-! # C108 and C109: rounded corners of a path -/

namespace Patro.Path

open MathFunctions (sign) 
open Conic
open Transformation (Lin Aff)

/-- The half turn of the corner. -/
theorem turn (d1 d2 : Vec ℝ) (h1 : d1.magnitude = 1) (h2 : d2.magnitude = 1) (hx : d1.cross d2 ≠ 0) :
    ∃ x, (0 < x ∧ x < Real.pi / 2 ∨ -(Real.pi / 2) < x ∧ x < 0) ∧ d2 = d1.rotate (Vec.degrees (2 * x)) ∧
      bulgeAngleRad d1 d2 = .ok (if 0 < x then Real.pi - 2 * x else -(Real.pi + 2 * x)) := by
  have n1 : d1 ≠ 0 := by
    rintro rfl
    simp [Vec.cross] at hx
  have n2 : d2 ≠ 0 := by
    rintro rfl
    simp [Vec.cross] at hx
  have hpi := Real.pi_pos
  obtain ⟨a, ha, ha1, ha2, hr⟩ := Vec.angleWith_spec d2 d1 n2 n1
  rw [h1, h2] at hr
  have hr' : d1.rotate a = d2 := by
    have hx := congrArg Vec.x hr
    have hy := congrArg Vec.y hr
    simp only [Vec.smul_x, Vec.smul_y, one_mul] at hx hy
    exact Vec.ext hx hy
  have hrad : ∀ b : ℝ, Vec.degrees (2 * (Vec.radians b / 2)) = b := by
    intro b
    rw [mul_div_cancel₀ _ (two_ne_zero), Vec.degrees_radians]
  have ha0 : a ≠ 0 := by
    rintro rfl
    apply hx
    rw [← hr']
    simp [Vec.rotate, Vec.radians, Vec.cross]
    ring
  have ha180 : a ≠ 180 := by
    rintro rfl
    apply hx
    rw [← hr']
    have : Vec.radians 180 = Real.pi := by unfold Vec.radians; ring
    simp [Vec.rotate, this, Vec.cross]
    ring
  have hlt : a < 180 := lt_of_le_of_ne ha2 ha180
  refine ⟨Vec.radians a / 2, ?_, ?_, ?_⟩
  · unfold Vec.radians
    rcases lt_or_gt_of_ne ha0 with h | h
    · right
      constructor <;> nlinarith
    · left
      constructor <;> nlinarith
  · rw [hrad, hr']
  · unfold bulgeAngleRad
    rw [ha]
    dsimp only [bind, Except.bind, pure, Except.pure]
    rcases lt_or_gt_of_ne ha0 with h | h
    · rw [if_neg (by linarith), if_neg]
      · congr 1; unfold Vec.radians; ring
      · unfold Vec.radians
        have : a * (Real.pi / 180) < 0 := mul_neg_of_neg_of_pos h (by positivity)
        linarith
    · rw [if_pos h.le, if_pos]
      · congr 1; unfold Vec.radians; ring
      · unfold Vec.radians
        have : 0 < a * (Real.pi / 180) := by positivity
        linarith

/-- The corner in terms of the half turn. -/
theorem bulge_values (corner d1 d2 : Vec ℝ) (radius : ℝ) (h1 : d1.magnitude = 1) (h2 : d2.magnitude = 1) (hx : d1.cross d2 ≠ 0) :
    ∃ x, (0 < x ∧ x < Real.pi / 2 ∨ -(Real.pi / 2) < x ∧ x < 0) ∧ d2 = d1.rotate (Vec.degrees (2 * x)) ∧
      bulgeAngleRad d1 d2 = .ok (if 0 < x then Real.pi - 2 * x else -(Real.pi + 2 * x)) ∧
      bulgeCenter corner d1 d2 radius = .ok (corner + (d2 - d1).smul (radius / |Real.sin (2 * x)|)) ∧
      bulgeStart corner d1 d2 radius = .ok (corner - d1.smul (radius * |Real.tan x|)) ∧
      bulgeStop corner d1 d2 radius = .ok (corner + d2.smul (radius * |Real.tan x|)) := by
  obtain ⟨x, hx', hd, hb⟩ := turn d1 d2 h1 h2 hx
  have hpi := Real.pi_pos
  have hC : 0 < Real.cos x := Real.cos_pos_of_mem_Ioo ⟨by rcases hx' with h | h <;> linarith, by rcases hx' with h | h <;> linarith⟩
  have hS : (0 < x → 0 < Real.sin x) ∧ (x < 0 → Real.sin x < 0) := by
    constructor
    · intro h
      apply Real.sin_pos_of_pos_of_lt_pi h
      rcases hx' with h' | h' <;> linarith
    · intro h
      apply Real.sin_neg_of_neg_of_neg_pi_lt h
      rcases hx' with h' | h' <;> linarith
  have hS0 : Real.sin x ≠ 0 := by
    rcases hx' with h | h
    · exact (hS.1 h.1).ne'
    · exact (hS.2 h.2).ne
  have hcs := Real.sin_sq_add_cos_sq x
  have hm : (d2 - d1).magnitude = 2 * |Real.sin x| := by
    rw [Vec.magnitude_eq_iff _ _ (by positivity)]
    have hm1 := Vec.magnitude_mul_self d1
    rw [h1] at hm1
    simp only [Vec.magnitudeSquare] at hm1 ⊢
    rw [hd]
    simp only [Vec.sub_x, Vec.sub_y, Vec.rotate, if_true, Vec.radians_degrees, Real.cos_two_mul, Real.sin_two_mul]
    rw [mul_pow, sq_abs]
    linear_combination (-4 * Real.sin x ^ 2) * hm1 +
      (d1.x ^ 2 + d1.y ^ 2) * (4 * Real.cos x ^ 2) * hcs - (d1.x ^ 2 + d1.y ^ 2) * 4 * hcs
  have hhalf : halfBulgeAngle d1 d2 = .ok (if 0 < x then Real.pi / 2 - x else -(Real.pi / 2 + x)) := by
    unfold halfBulgeAngle
    rw [hb]
    dsimp only [bind, Except.bind, pure, Except.pure]
    congr 1
    split <;> ring
  have hsin : Real.sin |if 0 < x then Real.pi / 2 - x else -(Real.pi / 2 + x)| = Real.cos x := by
    split
    · rename_i h
      rw [abs_of_pos (by rcases hx' with h' | h' <;> linarith), Real.sin_pi_div_two_sub]
    · rename_i h
      rw [abs_neg, abs_of_pos (by rcases hx' with h' | h' <;> linarith), add_comm, Real.sin_add_pi_div_two]
  have hs2 : |Real.sin (2 * x)| = 2 * |Real.sin x| * Real.cos x := by
    rw [Real.sin_two_mul, abs_mul, abs_mul, abs_of_pos hC]; norm_num
  -- the sign of the half angle times the inverse of its tangent
  have htan : sign (if 0 < x then Real.pi / 2 - x else -(Real.pi / 2 + x)) *
      (1 / Real.tan (if 0 < x then Real.pi / 2 - x else -(Real.pi / 2 + x))) = |Real.tan x| := by
    split
    · rename_i h
      unfold sign
      rw [if_pos (by rcases hx' with h' | h' <;> linarith), Real.tan_pi_div_two_sub, one_div, inv_inv, one_mul, abs_of_pos]
      rw [Real.tan_eq_sin_div_cos]
      exact div_pos (hS.1 h) hC
    · rename_i h
      have hx0 : x < 0 := by rcases hx' with h' | h' <;> linarith
      unfold sign
      rw [if_neg (by rcases hx' with h' | h' <;> linarith), Real.tan_neg]
      have : Real.pi / 2 + x = Real.pi / 2 - (-x) := by ring
      rw [this, Real.tan_pi_div_two_sub, Real.tan_neg, abs_of_neg]
      · rw [one_div, inv_neg, inv_inv]; ring
      · rw [Real.tan_eq_sin_div_cos]
        exact div_neg_of_neg_of_pos (hS.2 hx0) hC
  refine ⟨x, hx', hd, hb, ?_, ?_, ?_⟩
  · unfold bulgeCenter
    rw [hhalf]
    dsimp only [bind, Except.bind, pure, Except.pure]
    rw [hsin]
    congr 2
    have ha := abs_pos.2 hS0
    unfold bissector normalise
    rw [hm, hs2]
    ext <;> simp only [Vec.sdiv, Vec.smul_x, Vec.smul_y] <;> field_simp
  · unfold bulgeStart
    rw [hhalf]
    dsimp only [bind, Except.bind, pure, Except.pure]
    rw [← htan]
    congr 2
    ext <;> simp only [Vec.sdiv, Vec.smul_x, Vec.smul_y] <;> ring
  · unfold bulgeStop
    rw [hhalf]
    dsimp only [bind, Except.bind, pure, Except.pure]
    rw [← htan]
    congr 2
    ext <;> simp only [Vec.sdiv, Vec.smul_x, Vec.smul_y] <;> ring

/-- The points where the arc meets the parts, from its centre. -/
theorem bulge_normals (corner d1 d2 : Vec ℝ) (radius : ℝ) (h1 : d1.magnitude = 1) (h2 : d2.magnitude = 1) (hx : d1.cross d2 ≠ 0) :
    ∃ x c p q, (0 < x ∧ x < Real.pi / 2 ∨ -(Real.pi / 2) < x ∧ x < 0) ∧ d2 = d1.rotate (Vec.degrees (2 * x)) ∧
      bulgeAngleRad d1 d2 = .ok (if 0 < x then Real.pi - 2 * x else -(Real.pi + 2 * x)) ∧
      bulgeCenter corner d1 d2 radius = .ok c ∧ bulgeStart corner d1 d2 radius = .ok p ∧ bulgeStop corner d1 d2 radius = .ok q ∧
      p = corner - d1.smul (radius * |Real.tan x|) ∧ q = corner + d2.smul (radius * |Real.tan x|) ∧
      c - p = d1.normal.smul (radius * sign x) ∧ c - q = d2.normal.smul (radius * sign x) := by
  obtain ⟨x, hx', hd, hb, hc, hp, hq⟩ := bulge_values corner d1 d2 radius h1 h2 hx
  have hpi := Real.pi_pos
  refine ⟨x, _, _, _, hx', hd, hb, hc, hp, hq, rfl, rfl, ?_⟩
  have hC : 0 < Real.cos x := Real.cos_pos_of_mem_Ioo ⟨by rcases hx' with h | h <;> linarith, by rcases hx' with h | h <;> linarith⟩
  have hcs := Real.sin_sq_add_cos_sq x
  have key : ∃ σ, sign x = σ ∧ σ * σ = 1 ∧ |Real.tan x| = σ * Real.tan x ∧ |Real.sin (2 * x)| = σ * Real.sin (2 * x) ∧ Real.sin x ≠ 0 := by
    rcases hx' with h | h
    · have hs : 0 < Real.sin x := Real.sin_pos_of_pos_of_lt_pi h.1 (by linarith)
      refine ⟨1, by simp [sign, h.1.le], by norm_num, ?_, ?_, hs.ne'⟩
      · rw [one_mul, abs_of_pos]; rw [Real.tan_eq_sin_div_cos]; positivity
      · rw [one_mul, abs_of_pos]; rw [Real.sin_two_mul]; positivity
    · have hs : Real.sin x < 0 := Real.sin_neg_of_neg_of_neg_pi_lt h.2 (by linarith)
      refine ⟨-1, by simp [sign, h.2], by norm_num, ?_, ?_, hs.ne⟩
      · rw [neg_one_mul, abs_of_neg]; rw [Real.tan_eq_sin_div_cos]; exact div_neg_of_neg_of_pos hs hC
      · rw [neg_one_mul, abs_of_neg]; rw [Real.sin_two_mul]; nlinarith
  obtain ⟨σ, e1, e2, e3, e4, hs0⟩ := key
  have hσ : σ ≠ 0 := by rintro rfl; simp at e2
  rw [e1, e3, e4, Real.tan_eq_sin_div_cos, Real.sin_two_mul, hd]
  constructor
  · ext <;> simp only [Vec.sub_x, Vec.sub_y, Vec.add_x, Vec.add_y, Vec.smul_x, Vec.smul_y, Vec.rotate, if_true, Vec.radians_degrees,
      Real.cos_two_mul, Real.sin_two_mul, Vec.normal_x, Vec.normal_y] <;> field_simp
    · linear_combination radius * (2 * Real.sin x * Real.cos x * d1.y + 2 * Real.sin x ^ 2 * d1.x) * e2 + 2 * radius * d1.x * hcs
    · linear_combination radius * (-2 * Real.sin x * Real.cos x * d1.x + 2 * Real.sin x ^ 2 * d1.y) * e2 + 2 * radius * d1.y * hcs
  · ext <;> simp only [Vec.sub_x, Vec.sub_y, Vec.add_x, Vec.add_y, Vec.smul_x, Vec.smul_y, Vec.rotate, if_true, Vec.radians_degrees,
      Real.cos_two_mul, Real.sin_two_mul, Vec.normal_x, Vec.normal_y] <;> field_simp
    · linear_combination radius * (-2 * Real.sin x * Real.cos x * d1.y + 4 * Real.sin x * Real.cos x ^ 3 * d1.y + 2 * Real.sin x ^ 2 * d1.x + 4 * Real.sin x ^ 3 * Real.cos x * d1.y) * e2 +
        radius * (4 * Real.sin x * Real.cos x * d1.y + 2 * d1.x) * hcs
    · linear_combination radius * (-2 * Real.sin x * Real.cos x * (-d1.x) + 4 * Real.sin x * Real.cos x ^ 3 * (-d1.x) + 2 * Real.sin x ^ 2 * d1.y + 4 * Real.sin x ^ 3 * Real.cos x * (-d1.x)) * e2 +
        radius * (4 * Real.sin x * Real.cos x * (-d1.x) + 2 * d1.y) * hcs

theorem normal_unit (d : Vec ℝ) (h : d.magnitude = 1) : d.normal.magnitude = 1 := by
  rw [← h]
  unfold Vec.magnitude
  congr 1
  simp [Vec.magnitudeSquare]; ring

theorem sign_abs (x : ℝ) : |sign x| = 1 := by
  unfold sign; split <;> norm_num

/-- C108. When the directions of two successive parts are not parallel, the corner is rounded by an arc of the given radius which is
tangent to both parts: the arc starts on the line of the previous part, at some distance before the corner, and stops on the line of the
next part, at the same distance after the corner; the radii at these points are orthogonal to the parts. -/
theorem bulge_tangent (corner d1 d2 : Vec ℝ) (radius : ℝ) (hr : 0 < radius) (h1 : d1.magnitude = 1) (h2 : d2.magnitude = 1)
    (hx : d1.cross d2 ≠ 0) :
    ∃ c p q k, bulgeCenter corner d1 d2 radius = .ok c ∧ bulgeStart corner d1 d2 radius = .ok p ∧ bulgeStop corner d1 d2 radius = .ok q ∧
      0 < k ∧ p = corner - d1.smul k ∧ q = corner + d2.smul k ∧
      distance p c = radius ∧ distance q c = radius ∧ (c - p).dot d1 = 0 ∧ (c - q).dot d2 = 0 := by
  obtain ⟨x, c, p, q, hx', hd, hb, hc, hp, hq, ep, eq, np, nq⟩ := bulge_normals corner d1 d2 radius h1 h2 hx
  have hpi := Real.pi_pos
  have ht : 0 < |Real.tan x| := by
    rw [abs_pos, Real.tan_eq_sin_div_cos]
    have hC : 0 < Real.cos x := Real.cos_pos_of_mem_Ioo ⟨by rcases hx' with h | h <;> linarith, by rcases hx' with h | h <;> linarith⟩
    apply div_ne_zero _ hC.ne'
    rcases hx' with h | h
    · exact (Real.sin_pos_of_pos_of_lt_pi h.1 (by linarith)).ne'
    · exact (Real.sin_neg_of_neg_of_neg_pi_lt h.2 (by linarith)).ne
  have hmag : ∀ d : Vec ℝ, d.magnitude = 1 → (d.normal.smul (radius * sign x)).magnitude = radius := by
    intro d h
    rw [Vec.magnitude_smul, normal_unit d h, abs_mul, sign_abs, abs_of_pos hr]; ring
  refine ⟨c, p, q, radius * |Real.tan x|, hc, hp, hq, by positivity, ep, eq, ?_, ?_, ?_, ?_⟩
  · rw [distance_symm, ← distance_eq, np, hmag d1 h1]
  · rw [distance_symm, ← distance_eq, nq, hmag d2 h2]
  · rw [np]; simp [Vec.dot]; ring
  · rw [nq]; simp [Vec.dot]; ring

/-- C108. The rounded corner keeps the side of the turn: the centre is on the left of the parts when the path turns left, on the right
otherwise. -/
theorem bulge_side (corner d1 d2 : Vec ℝ) (radius : ℝ) (hr : 0 < radius) (h1 : d1.magnitude = 1) (h2 : d2.magnitude = 1)
    (hx : d1.cross d2 ≠ 0) : ∃ c, bulgeCenter corner d1 d2 radius = .ok c ∧
      0 < d1.cross d2 * d1.cross (c - corner) ∧ 0 < d1.cross d2 * d2.cross (c - corner) := by
  obtain ⟨x, c, p, q, hx', hd, hb, hc, hp, hq, ep, eq, np, nq⟩ := bulge_normals corner d1 d2 radius h1 h2 hx
  have hpi := Real.pi_pos
  refine ⟨c, hc, ?_⟩
  have hm1 := Vec.magnitude_mul_self d1
  have hm2 := Vec.magnitude_mul_self d2
  rw [h1] at hm1
  rw [h2] at hm2
  simp only [Vec.magnitudeSquare] at hm1 hm2
  have e1 : d1.cross (c - corner) = radius * sign x := by
    have : c - corner = d1.normal.smul (radius * sign x) - d1.smul (radius * |Real.tan x|) := by
      rw [← np, ep]; ext <;> simp <;> ring
    rw [this]
    simp only [Vec.cross, Vec.sub_x, Vec.sub_y, Vec.smul_x, Vec.smul_y, Vec.normal_x, Vec.normal_y]
    linear_combination (-radius * sign x) * hm1
  have e2 : d2.cross (c - corner) = radius * sign x := by
    have : c - corner = d2.normal.smul (radius * sign x) + d2.smul (radius * |Real.tan x|) := by
      rw [← nq, eq]; ext <;> simp <;> ring
    rw [this]
    simp only [Vec.cross, Vec.add_x, Vec.add_y, Vec.smul_x, Vec.smul_y, Vec.normal_x, Vec.normal_y]
    linear_combination (-radius * sign x) * hm2
  have e3 : d1.cross d2 = Real.sin (2 * x) := by
    rw [hd]
    simp only [Vec.cross, Vec.rotate, if_true, Vec.radians_degrees]
    linear_combination (-Real.sin (2 * x)) * hm1
  have : 0 < d1.cross d2 * (radius * sign x) := by
    rw [e3]
    rcases hx' with h | h
    · have hs : 0 < Real.sin (2 * x) := Real.sin_pos_of_pos_of_lt_pi (by linarith) (by linarith)
      simp only [sign, if_pos h.1.le, mul_one]
      positivity
    · have hs : Real.sin (2 * x) < 0 := Real.sin_neg_of_neg_of_neg_pi_lt (by linarith) (by linarith)
      simp only [sign, if_neg (not_le.2 h.2)]
      nlinarith
  rw [e1, e2]
  exact ⟨this, this⟩

/-- A quarter of turn per 90 degrees: turning a point of a circle around its centre. -/
theorem onCircle_turn (c p q : Vec ℝ) (r a y : ℝ) (hp : p = onCircle c r a) (hq : q - c = (p - c).rotate (Vec.degrees y)) :
    q = onCircle c r (a + Vec.degrees y) := by
  have e : (a + Vec.degrees y) * Real.pi / 180 = a * Real.pi / 180 + y := by
    have := Real.pi_pos.ne'
    unfold Vec.degrees; field_simp
  have hx := congrArg Vec.x hq
  have hy := congrArg Vec.y hq
  rw [hp] at hx hy
  simp only [Vec.sub_x, Vec.sub_y, Vec.rotate, if_true, Vec.radians_degrees, onCircle] at hx hy
  unfold onCircle
  rw [e, Real.cos_add, Real.sin_add]
  ext
  · dsimp only; linear_combination hx
  · dsimp only; linear_combination hy

/-- The domain between the angles of two points, the second after a turn by less than 360 degrees. -/
theorem arc_sweep (c : Circle ℝ) (hr : 0 < c.radius) (p q : Vec ℝ) (y : ℝ) (h0 : 0 ≤ y) (h1 : y < 2 * Real.pi)
    (hp : distance p c.center = c.radius) (hq : q - c.center = (p - c.center).rotate (Vec.degrees y)) :
    (⟨c.angleForPoint p, c.angleForPoint q⟩ : Domain ℝ).sweep = Vec.degrees y ∧
      p = onCircle c.center c.radius (c.angleForPoint p) ∧ q = onCircle c.center c.radius (c.angleForPoint p + Vec.degrees y) := by
  have hpi := Real.pi_pos
  obtain ⟨a1, a2, a3⟩ := angleForPoint_spec c p
  rw [hp] at a3
  have hq' := onCircle_turn c.center p q c.radius _ y a3 hq
  refine ⟨?_, a3, hq'⟩
  have hy0 : 0 ≤ Vec.degrees y := by unfold Vec.degrees; positivity
  have hy1 : Vec.degrees y < 360 := by
    unfold Vec.degrees
    have : y * (180 / Real.pi) < 2 * Real.pi * (180 / Real.pi) := mul_lt_mul_of_pos_right h1 (by positivity)
    have h3 : 2 * Real.pi * (180 / Real.pi) = 360 := by field_simp; norm_num
    linarith
  by_cases hlt : c.angleForPoint p + Vec.degrees y < 360
  · have : c.angleForPoint q = c.angleForPoint p + Vec.degrees y := by
      conv_lhs => rw [hq', ← pointAtAngle_eq]
      exact angle_roundtrip c hr _ (by linarith) hlt
    unfold Domain.sweep
    dsimp only
    rw [if_pos (by linarith), this]; ring
  · have : c.angleForPoint q = c.angleForPoint p + Vec.degrees y - 360 := by
      have e : q = c.pointAtAngle (c.angleForPoint p + Vec.degrees y - 360) := by
        rw [pointAtAngle_eq, hq', ← onCircle_period c.center c.radius (c.angleForPoint p + Vec.degrees y - 360) 1]
        congr 1
        push_cast; ring
      conv_lhs => rw [e]
      exact angle_roundtrip c hr _ (by linarith) (by linarith)
    unfold Domain.sweep
    dsimp only
    rw [if_neg (by linarith), this]; ring

/-- C108. The arc of the corner, drawn counter-clockwise over its domain, joins the two points where it is tangent to the parts, over the
angle between the directions, which is less than a half turn: from the first point to the second one when the path turns left, the other
way round otherwise. -/
theorem bulge_arc (corner d1 d2 : Vec ℝ) (radius : ℝ) (hr : 0 < radius) (h1 : d1.magnitude = 1) (h2 : d2.magnitude = 1)
    (hx : d1.cross d2 ≠ 0) :
    ∃ arc d p q a, bulgeGeometry corner d1 d2 radius = .ok arc ∧ arc.domain = some d ∧ arc.radius = radius ∧
      bulgeCenter corner d1 d2 radius = .ok arc.center ∧ bulgeStart corner d1 d2 radius = .ok p ∧ bulgeStop corner d1 d2 radius = .ok q ∧
      d.sweep = a ∧ 0 < a ∧ a < 180 ∧ Real.cos (Vec.radians a) = d1.dot d2 ∧
      (0 < d1.cross d2 → p = onCircle arc.center radius d.start ∧ q = onCircle arc.center radius (d.start + a)) ∧
      (d1.cross d2 < 0 → q = onCircle arc.center radius d.start ∧ p = onCircle arc.center radius (d.start + a)) := by
  obtain ⟨x, c, p, q, hx', hd, hb, hc, hp, hq, ep, eq, np, nq⟩ := bulge_normals corner d1 d2 radius h1 h2 hx
  obtain ⟨c', p', q', k, hc', hp', hq', _, _, _, dp, dq, _, _⟩ := bulge_tangent corner d1 d2 radius hr h1 h2 hx
  rw [hc] at hc'; cases hc'
  rw [hp] at hp'; cases hp'
  rw [hq] at hq'; cases hq'
  have hpi := Real.pi_pos
  have hm1 := Vec.magnitude_mul_self d1
  rw [h1] at hm1
  simp only [Vec.magnitudeSquare] at hm1
  have e3 : d1.cross d2 = Real.sin (2 * x) := by
    rw [hd]
    simp only [Vec.cross, Vec.rotate, if_true, Vec.radians_degrees]
    linear_combination (-Real.sin (2 * x)) * hm1
  have e4 : d1.dot d2 = Real.cos (2 * x) := by
    rw [hd]
    simp only [Vec.dot, Vec.rotate, if_true, Vec.radians_degrees]
    linear_combination (-Real.cos (2 * x)) * hm1
  have hcs := Real.sin_sq_add_cos_sq (2 * x)
  have npx := congrArg Vec.x np
  have npy := congrArg Vec.y np
  have nqx := congrArg Vec.x nq
  have nqy := congrArg Vec.y nq
  rw [hd] at nqx nqy
  simp only [Vec.sub_x, Vec.sub_y, Vec.smul_x, Vec.smul_y, Vec.normal_x, Vec.normal_y, Vec.rotate, if_true, Vec.radians_degrees] at npx npy nqx nqy
  have hdeg : ∀ y : ℝ, 0 < y → y < Real.pi → 0 < Vec.degrees y ∧ Vec.degrees y < 180 := by
    intro y h0 h1
    unfold Vec.degrees
    refine ⟨by positivity, ?_⟩
    have : y * (180 / Real.pi) < Real.pi * (180 / Real.pi) := mul_lt_mul_of_pos_right h1 (by positivity)
    have h3 : Real.pi * (180 / Real.pi) = 180 := by field_simp
    linarith
  have hgeo : bulgeGeometry corner d1 d2 radius = .ok ⟨c, radius, some (if 0 < x
      then ⟨(⟨c, radius, none⟩ : Circle ℝ).angleForPoint p, (⟨c, radius, none⟩ : Circle ℝ).angleForPoint q⟩
      else ⟨(⟨c, radius, none⟩ : Circle ℝ).angleForPoint q, (⟨c, radius, none⟩ : Circle ℝ).angleForPoint p⟩)⟩ := by
    unfold bulgeGeometry
    rw [hc, hp, hq, hb]
    dsimp only [bind, Except.bind, pure, Except.pure]
    congr 3
    by_cases h : 0 < x
    · rw [if_pos h, if_pos h, if_neg]
      have := (hdeg (Real.pi - 2 * x) (by rcases hx' with h' | h' <;> linarith) (by linarith)).1
      linarith
    · have h' : -(Real.pi / 2) < x ∧ x < 0 := by
        rcases hx' with h' | h'
        · exact absurd h'.1 h
        · exact h'
      rw [if_neg h, if_neg h, if_pos]
      have := (hdeg (Real.pi + 2 * x) (by linarith) (by linarith)).1
      have e : Vec.degrees (-(Real.pi + 2 * x)) = -Vec.degrees (Real.pi + 2 * x) := by unfold Vec.degrees; ring
      linarith
  rcases hx' with h | h
  · have hy : q - c = (p - c).rotate (Vec.degrees (2 * x)) := by
      have hs : sign x = 1 := by simp [sign, h.1.le]
      rw [hs] at npx npy nqx nqy
      have px : p.x - c.x = radius * d1.y := by linear_combination -npx
      have py : p.y - c.y = -(radius * d1.x) := by linear_combination -npy
      ext
      · simp only [Vec.sub_x, Vec.sub_y, Vec.rotate, if_true, Vec.radians_degrees, px, py]
        linear_combination -nqx
      · simp only [Vec.sub_x, Vec.sub_y, Vec.rotate, if_true, Vec.radians_degrees, px, py]
        linear_combination -nqy
    obtain ⟨s1, s2, s3⟩ := arc_sweep ⟨c, radius, none⟩ hr p q (2 * x) (by linarith) (by linarith) dp hy
    obtain ⟨b1, b2⟩ := hdeg (2 * x) (by linarith) (by linarith)
    rw [if_pos h.1] at hgeo
    refine ⟨_, _, p, q, _, hgeo, rfl, rfl, hc, hp, hq, s1, b1, b2, ?_, fun _ => ⟨s2, s3⟩, ?_⟩
    · rw [Vec.radians_degrees, e4]
    · intro hneg
      rw [e3] at hneg
      have := Real.sin_pos_of_pos_of_lt_pi (x := 2 * x) (by linarith) (by linarith)
      linarith
  · have hy : p - c = (q - c).rotate (Vec.degrees (-(2 * x))) := by
      have hs : sign x = -1 := by simp [sign, h.2]
      rw [hs] at npx npy nqx nqy
      have qx : q.x - c.x = -radius * (d1.x * Real.sin (2 * x) + d1.y * Real.cos (2 * x)) := by linear_combination -nqx
      have qy : q.y - c.y = radius * (d1.x * Real.cos (2 * x) - d1.y * Real.sin (2 * x)) := by linear_combination -nqy
      ext
      · simp only [Vec.sub_x, Vec.sub_y, Vec.rotate, if_true, Vec.radians_degrees, Real.cos_neg, Real.sin_neg, qx, qy]
        linear_combination -npx + (radius * d1.y) * hcs
      · simp only [Vec.sub_x, Vec.sub_y, Vec.rotate, if_true, Vec.radians_degrees, Real.cos_neg, Real.sin_neg, qx, qy]
        linear_combination -npy - (radius * d1.x) * hcs
    obtain ⟨s1, s2, s3⟩ := arc_sweep ⟨c, radius, none⟩ hr q p (-(2 * x)) (by linarith) (by linarith) dq hy
    obtain ⟨b1, b2⟩ := hdeg (-(2 * x)) (by linarith) (by linarith)
    rw [if_neg (by linarith)] at hgeo
    refine ⟨_, _, p, q, _, hgeo, rfl, rfl, hc, hp, hq, s1, b1, b2, ?_, ?_, fun _ => ⟨s2, s3⟩⟩
    · rw [Vec.radians_degrees, e4, Real.cos_neg]
    · intro hpos
      rw [e3] at hpos
      have := Real.sin_neg_of_neg_of_neg_pi_lt (x := 2 * x) (by linarith) (by linarith)
      linarith

/-- A corner which meets the hypotheses. -/
example : (⟨1, 0⟩ : Vec ℝ).magnitude = 1 ∧ (⟨0, 1⟩ : Vec ℝ).magnitude = 1 ∧ (⟨1, 0⟩ : Vec ℝ).cross ⟨0, 1⟩ ≠ 0 := by
  simp [Vec.magnitude, Vec.magnitudeSquare, Vec.cross]

/-- The direction of a part of non-null length is a unit vector. -/
theorem direction_unit (a b : Vec ℝ) (h : a ≠ b) : (direction a b).magnitude = 1 := by
  have hn : b - a ≠ 0 := by
    intro e
    apply h
    have hx := congrArg Vec.x e
    have hy := congrArg Vec.y e
    simp at hx hy
    ext <;> linarith
  obtain ⟨u, h1, h2⟩ : ∃ u, (b - a).toNormalised = some u ∧ u.magnitude = 1 := by
    unfold Vec.toNormalised
    have hm := (Vec.magnitude_pos _ hn).ne'
    refine ⟨_, if_neg hm, ?_⟩
    have : (b - a).sdiv (b - a).magnitude = (b - a).smul (1 / (b - a).magnitude) := by
      ext <;> simp [Vec.sdiv] <;> ring
    rw [this, Vec.magnitude_smul, abs_of_pos (by have := Vec.magnitude_pos _ hn; positivity)]
    field_simp
  unfold Vec.toNormalised at h1
  rw [if_neg (Vec.magnitude_pos _ hn).ne'] at h1
  unfold direction normalise
  rw [Option.some.inj h1]
  exact h2

/-- C108 is not checked against the length of the parts: when the radius multiplied by the tangent of half the turn is longer than the part,
the arc starts before the start of the part, which is then drawn backwards. The turn is given by its sine and its cosine. -/
theorem bulge_length_wrong (a d1 d2 : Vec ℝ) (length radius : ℝ) (h1 : d1.magnitude = 1) (h2 : d2.magnitude = 1) (hx : d1.cross d2 ≠ 0)
    (hr : 0 < radius) :
    ∃ p, bulgeStart (a + d1.smul length) d1 d2 radius = .ok p ∧
      ((p - a).dot d1 < 0 ↔ length * (1 + d1.dot d2) < radius * |d1.cross d2|) := by
  obtain ⟨x, c, p, q, hx', hd, hb, hc, hp, hq, ep, eq, np, nq⟩ := bulge_normals (a + d1.smul length) d1 d2 radius h1 h2 hx
  have hpi := Real.pi_pos
  have hC : 0 < Real.cos x := Real.cos_pos_of_mem_Ioo ⟨by rcases hx' with h | h <;> linarith, by rcases hx' with h | h <;> linarith⟩
  have hm1 := Vec.magnitude_mul_self d1
  rw [h1] at hm1
  simp only [Vec.magnitudeSquare] at hm1
  have e3 : d1.cross d2 = Real.sin (2 * x) := by
    rw [hd]
    simp only [Vec.cross, Vec.rotate, if_true, Vec.radians_degrees]
    linear_combination (-Real.sin (2 * x)) * hm1
  have e4 : d1.dot d2 = Real.cos (2 * x) := by
    rw [hd]
    simp only [Vec.dot, Vec.rotate, if_true, Vec.radians_degrees]
    linear_combination (-Real.cos (2 * x)) * hm1
  refine ⟨p, hp, ?_⟩
  have e5 : (p - a).dot d1 = length - radius * |Real.tan x| := by
    rw [ep]
    simp only [Vec.dot, Vec.sub_x, Vec.sub_y, Vec.add_x, Vec.add_y, Vec.smul_x, Vec.smul_y]
    linear_combination (-(length - radius * |Real.tan x|)) * hm1
  have e6 : |Real.sin (2 * x)| = 2 * Real.cos x * Real.cos x * |Real.tan x| := by
    rw [Real.sin_two_mul, Real.tan_eq_sin_div_cos, abs_mul, abs_mul, abs_div, abs_of_pos hC]
    rw [abs_of_pos (by norm_num : (0 : ℝ) < 2)]
    field_simp
  have e7 : 1 + Real.cos (2 * x) = 2 * Real.cos x * Real.cos x := by
    rw [Real.cos_two_mul]; ring
  have hpos : 0 < 2 * Real.cos x * Real.cos x := by positivity
  rw [e5, e3, e4, e6, e7, show radius * (2 * Real.cos x * Real.cos x * |Real.tan x|) = radius * |Real.tan x| * (2 * Real.cos x * Real.cos x) by ring,
    mul_lt_mul_iff_left₀ hpos]
  constructor <;> intro h <;> linarith

/-- The corner (0, 0), (1, 0), (1, 1) with the radius 2. -/
example : (⟨1, 0⟩ : Vec ℝ).magnitude = 1 ∧ (⟨0, 1⟩ : Vec ℝ).magnitude = 1 ∧ (⟨1, 0⟩ : Vec ℝ).cross ⟨0, 1⟩ ≠ 0 ∧
    (1 : ℝ) * (1 + (⟨1, 0⟩ : Vec ℝ).dot ⟨0, 1⟩) < 2 * |(⟨1, 0⟩ : Vec ℝ).cross ⟨0, 1⟩| := by
  simp [Vec.magnitude, Vec.magnitudeSquare, Vec.cross, Vec.dot]

/-! ## The cache of the directions -/

/-- C109. The direction of a part of a path whose directions were not asked before is the one of its points, also after a
transformation. -/
theorem direction_fresh (c : Cached) (i : Nat) (h : c.direction i = none) (a b : Vec ℝ) (ha : c.path.startPoint i = .ok a)
    (hb : c.path.stopPoint i = .ok b) : (c.getDirection i).1 = .ok (direction a b) := by
  unfold Cached.getDirection
  rw [h, ha, hb]
  rfl

theorem transform_fresh (c : Cached) (t : Transf ℝ) (i : Nat) (h : c.direction i = none) : (c.applyTransformation t).2.direction i = none := by
  unfold Cached.applyTransformation
  dsimp only
  split
  · exact h
  · rfl

/-- C109. The parts by direction have a fresh direction after a transformation, whatever was asked before. -/
theorem transform_dir_fresh (c : Cached) (t : Transf ℝ) (i : Nat) (part : Part ℝ) (hp : c.path.parts[i]? = some part)
    (h : ∀ p a r k b, part ≠ .line p a r k b) : (c.applyTransformation t).2.direction i = none := by
  unfold Cached.applyTransformation
  dsimp only
  rw [hp]
  cases part with
  | line p a r k b => exact absurd rfl (h p a r k b)
  | _ => rfl

/-- C109. A translation, and a scaling by a positive factor, do not change the directions: the cached ones are right after them. -/
theorem direction_translation_partial (a b v : Vec ℝ) (k : ℝ) (hk : 0 < k) :
    direction ((Aff.translation v).apply a) ((Aff.translation v).apply b) = direction a b ∧
    direction (a.smul k) (b.smul k) = direction a b := by
  constructor
  · unfold direction
    congr 1
    ext <;> simp [Aff.apply, Aff.translation]
  · have e : b.smul k - a.smul k = (b - a).smul k := by ext <;> simp <;> ring
    unfold direction normalise
    rw [e, Vec.magnitude_smul, abs_of_pos hk]
    ext <;> simp only [Vec.sdiv, Vec.smul_x, Vec.smul_y] <;> exact mul_div_mul_left _ _ hk.ne'

/-- A rotation which is not a whole number of turns changes the directions. -/
theorem direction_rotation (a b : Vec ℝ) (h : a ≠ b) (angle : ℝ) (ha : Real.cos (Vec.radians angle) ≠ 1) :
    direction ((Lin.rotation angle).apply a) ((Lin.rotation angle).apply b) ≠ direction a b := by
  have hn : b - a ≠ 0 := by
    intro e
    apply h
    have hx := congrArg Vec.x e
    have hy := congrArg Vec.y e
    simp at hx hy
    ext <;> linarith
  have hm := Vec.magnitude_pos _ hn
  have hcs := Real.sin_sq_add_cos_sq (Vec.radians angle)
  set k := Real.cos (Vec.radians angle) with hk
  set n := Real.sin (Vec.radians angle) with hs
  have e : (Lin.rotation angle).apply b - (Lin.rotation angle).apply a =
      ⟨k * (b - a).x - n * (b - a).y, n * (b - a).x + k * (b - a).y⟩ := by
    ext <;> simp [Lin.apply, Lin.rotation] <;> ring
  have hmag : (Vec.magnitude ⟨k * (b - a).x - n * (b - a).y, n * (b - a).x + k * (b - a).y⟩) = (b - a).magnitude := by
    unfold Vec.magnitude
    congr 1
    simp only [Vec.magnitudeSquare]
    linear_combination ((b - a).x * (b - a).x + (b - a).y * (b - a).y) * hcs
  intro hd
  unfold direction normalise at hd
  rw [e, hmag] at hd
  have hx := congrArg Vec.x hd
  have hy := congrArg Vec.y hd
  simp only [Vec.sdiv] at hx hy
  rw [div_left_inj' hm.ne'] at hx hy
  have hq : (b - a).x * (b - a).x + (b - a).y * (b - a).y ≠ 0 := by
    have := Vec.magnitude_mul_self (b - a)
    simp only [Vec.magnitudeSquare] at this
    rw [← this]
    positivity
  apply ha
  have : (k - 1) * ((b - a).x * (b - a).x + (b - a).y * (b - a).y) = 0 := by
    linear_combination (b - a).x * hx + (b - a).y * hy
  rcases mul_eq_zero.1 this with h' | h'
  · linarith
  · exact absurd h' hq

/-- C109 is false: once the direction of a segment was asked, by drawing a rounded corner for instance, it is not computed again after the
path is transformed. The segment goes from the image of its start to the image of its end, and its direction is still the one of before;
the two differ for every rotation which is not a whole number of turns. -/
theorem direction_stale_wrong (c : Cached) (h : Reach c.path) (i : Nat) (hi : ∃ p a r k b, c.path.parts[i]? = some (.line p a r k b))
    (hc : c.direction i = none) (a b : Vec ℝ) (hp : c.path.points i = .ok [a, b]) (t : Transf ℝ) (ht : t.Sound)
    (ho : (c.path.applyTransformation t).1 = .ok ()) :
    let c' := (c.getDirection i).2
    let c'' := (c'.applyTransformation t).2
    (c.getDirection i).1 = .ok (direction a b) ∧ (c'.applyTransformation t).1 = .ok () ∧
    c''.path.points i = .ok [t.point a, t.point b] ∧ (c''.getDirection i).1 = .ok (direction a b) ∧
    (a ≠ b → ∀ angle, t = ofLin (Lin.rotation angle) → Real.cos (Vec.radians angle) ≠ 1 → direction (t.point a) (t.point b) ≠ direction a b) := by
  obtain ⟨p, ab, r, k, bl, hi⟩ := hi
  have hlt := mem_range_length c.path i _ hi
  rw [List.mem_range] at hlt
  have hse : c.path.startPoint i = .ok a ∧ c.path.stopPoint i = .ok b := by
    unfold Path.points at hp
    rw [hi] at hp
    simp only [bind, Except.bind, pure, Except.pure] at hp
    cases h1 : c.path.startPoint i with
    | error e => rw [h1] at hp; cases hp
    | ok u =>
      rw [h1] at hp
      cases h2 : c.path.stopPoint i with
      | error e => rw [h2] at hp; cases hp
      | ok v => rw [h2] at hp; simp at hp; simp [hp]
  have hget : c.getDirection i = (.ok (direction a b), { c with direction := fun j => if j = i then some (direction a b) else c.direction j }) := by
    unfold Cached.getDirection
    rw [hc, hse.1, hse.2]
    rfl
  intro c' c''
  have hc' : c' = { c with direction := fun j => if j = i then some (direction a b) else c.direction j } := by
    show (c.getDirection i).2 = _
    rw [hget]
  obtain ⟨pts, e1, e2⟩ := transform_points c.path h t ht ho i hlt
  rw [hp] at e1
  cases e1
  have hpath : c''.path = (c.path.applyTransformation t).2 := by
    show (c'.applyTransformation t).2.path = _
    rw [hc']
    rfl
  have hdir : c''.direction i = some (direction a b) := by
    show (c'.applyTransformation t).2.direction i = _
    rw [hc']
    unfold Cached.applyTransformation
    dsimp only
    rw [hi]
    simp
  refine ⟨by rw [hget], ?_, by rw [hpath]; exact e2, ?_, ?_⟩
  · rw [hc']
    exact ho
  · unfold Cached.getDirection
    rw [hdir]
  · rintro hab angle rfl hcos
    exact direction_rotation a b hab angle hcos

/-- The segment from (0, 0) to (1, 0) and a quarter of turn. -/
example : ∃ c : Cached, Reach c.path ∧ (∃ p a r k b, c.path.parts[0]? = some (.line p a r k b)) ∧ c.direction 0 = none ∧
    c.path.points 0 = .ok [⟨0, 0⟩, ⟨1, 0⟩] ∧ (c.path.applyTransformation (ofLin (Lin.rotation 90))).1 = .ok () ∧
    Real.cos (Vec.radians 90) ≠ 1 := by
  have hpath : ((Path.new ⟨0, 0⟩).lineTo ⟨1, 0⟩).2 = (⟨⟨0, 0⟩, [.line ⟨1, 0⟩ false none false false], false⟩ : Path ℝ) := by
    simp [Path.lineTo, Path.new, Path.addPart, setRadius, Part.radius]
  have hreach : Reach ((Path.new (⟨0, 0⟩ : Vec ℝ)).lineTo ⟨1, 0⟩).2 := .line _ _ _ _ (.new _)
  have hrad : Vec.radians 90 = Real.pi / 2 := by unfold Vec.radians; ring
  rw [hpath] at hreach
  refine ⟨⟨⟨⟨0, 0⟩, [.line ⟨1, 0⟩ false none false false], false⟩, fun _ => none⟩, hreach, ⟨_, _, _, _, _, rfl⟩, rfl, ?_, ?_, ?_⟩
  · simp [Path.points, Path.startPoint, Path.stopPoint, Path.stopPointFuel, Path.prevIndex, Part.stopFrom, Part.startBulge, Except.map,
      bind, Except.bind, pure, Except.pure]
    ext <;> simp
  · apply transform_no_radius _ hreach
    intro part hp
    simp at hp
    subst hp
    exact ⟨rfl, rfl⟩
  · rw [hrad, Real.cos_pi_div_two]
    norm_num

end Patro.Path
