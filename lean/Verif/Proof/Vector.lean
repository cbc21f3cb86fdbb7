import Verif.Spec.Vector
import Mathlib.Tactic.Ring
import Mathlib.Tactic.LinearCombination
import Mathlib.Tactic.Linarith
import Mathlib.Tactic.FieldSimp
import Mathlib.Tactic.Positivity
/-! # Lemmas on vectors -/

namespace Patro.Vec

open MathFunctions (trignometricClamp sign)

section Ring
variable {K : Type _} [CommRing K]

theorem eq_iff (v w : Vec K) : v = w ↔ v.x = w.x ∧ v.y = w.y := Vec.ext_iff

@[simp] theorem normal_x (v : Vec K) : v.normal.x = -v.y := rfl
@[simp] theorem normal_y (v : Vec K) : v.normal.y = v.x := rfl

theorem add_sub_cancel_vec (p v : Vec K) : p + (v - p) = v := by
  ext <;> simp

end Ring

section Ordered
variable {K : Type _} [Field K] [LinearOrder K] [IsStrictOrderedRing K]

theorem magnitudeSquare_nonneg (v : Vec K) : 0 ≤ v.magnitudeSquare :=
  add_nonneg (mul_self_nonneg _) (mul_self_nonneg _)

theorem magnitudeSquare_eq_zero (v : Vec K) : v.magnitudeSquare = 0 ↔ v = 0 := by
  constructor
  · intro h
    unfold magnitudeSquare at h
    have hx : v.x * v.x = 0 := by nlinarith [mul_self_nonneg v.x, mul_self_nonneg v.y]
    have hy : v.y * v.y = 0 := by nlinarith [mul_self_nonneg v.x, mul_self_nonneg v.y]
    ext
    · exact mul_self_eq_zero.1 hx
    · exact mul_self_eq_zero.1 hy
  · rintro rfl; simp [magnitudeSquare]

theorem magnitudeSquare_pos (v : Vec K) (h : v ≠ 0) : 0 < v.magnitudeSquare :=
  lt_of_le_of_ne (magnitudeSquare_nonneg v) (fun e => h ((magnitudeSquare_eq_zero v).1 e.symm))

end Ordered

theorem magnitude_nonneg (v : Vec ℝ) : 0 ≤ v.magnitude := Real.sqrt_nonneg _

theorem magnitude_sq (v : Vec ℝ) : v.magnitude ^ 2 = v.magnitudeSquare :=
  Real.sq_sqrt (magnitudeSquare_nonneg v)

theorem magnitude_mul_self (v : Vec ℝ) : v.magnitude * v.magnitude = v.magnitudeSquare := by
  rw [← magnitude_sq]; ring

theorem magnitude_eq_zero (v : Vec ℝ) : v.magnitude = 0 ↔ v = 0 := by
  unfold magnitude
  rw [Real.sqrt_eq_zero (magnitudeSquare_nonneg v), magnitudeSquare_eq_zero]

theorem magnitude_pos (v : Vec ℝ) (h : v ≠ 0) : 0 < v.magnitude :=
  lt_of_le_of_ne (magnitude_nonneg v) (fun e => h ((magnitude_eq_zero v).1 e.symm))

theorem magnitude_eq_iff (v : Vec ℝ) (d : ℝ) (h : 0 ≤ d) : v.magnitude = d ↔ v.magnitudeSquare = d ^ 2 := by
  constructor
  · rintro rfl; exact (magnitude_sq v).symm
  · intro e; unfold magnitude; rw [e]; exact Real.sqrt_sq h

theorem magnitude_eq_norm (v : Vec ℝ) : v.magnitude = ‖v.toComplex‖ := by
  rw [Complex.norm_def, Complex.normSq_apply]; rfl

theorem magnitude_smul (v : Vec ℝ) (s : ℝ) : (v.smul s).magnitude = |s| * v.magnitude := by
  rw [magnitude_eq_iff _ _ (mul_nonneg (abs_nonneg _) (magnitude_nonneg _)), mul_pow, sq_abs, magnitude_sq]
  simp only [magnitudeSquare, smul_x, smul_y]; ring

theorem degrees_radians (a : ℝ) : degrees (radians a) = a := by
  unfold degrees radians
  have := Real.pi_pos
  field_simp

theorem radians_degrees (a : ℝ) : radians (degrees a) = a := by
  unfold degrees radians
  have := Real.pi_pos
  field_simp

theorem clamp_of_mem (x : ℝ) (h1 : -1 ≤ x) (h2 : x ≤ 1) : trignometricClamp x = x := by
  unfold trignometricClamp
  rw [if_neg (not_lt.2 h2), if_neg (not_lt.2 h1)]

theorem lagrange {K : Type _} [CommRing K] (v w : Vec K) :
    v.dot w ^ 2 + v.cross w ^ 2 = v.magnitudeSquare * w.magnitudeSquare := by
  unfold dot cross magnitudeSquare; ring

theorem abs_dot_le (v w : Vec ℝ) : |v.dot w| ≤ v.magnitude * w.magnitude := by
  apply abs_le_of_sq_le_sq
  · rw [mul_pow, magnitude_sq, magnitude_sq, ← lagrange v w]
    have := sq_nonneg (v.cross w); linarith
  · exact mul_nonneg (magnitude_nonneg _) (magnitude_nonneg _)

theorem abs_cross_le (v w : Vec ℝ) : |v.cross w| ≤ v.magnitude * w.magnitude := by
  apply abs_le_of_sq_le_sq
  · rw [mul_pow, magnitude_sq, magnitude_sq, ← lagrange v w]
    have := sq_nonneg (v.dot w); linarith
  · exact mul_nonneg (magnitude_nonneg _) (magnitude_nonneg _)

theorem triangle (v w : Vec ℝ) : (v + w).magnitude ≤ v.magnitude + w.magnitude := by
  have h : (v + w).magnitudeSquare ≤ (v.magnitude + w.magnitude) ^ 2 := by
    have h1 := (abs_le.1 (abs_dot_le v w)).2
    have h2 : (v + w).magnitudeSquare = v.magnitudeSquare + w.magnitudeSquare + 2 * v.dot w := by
      simp only [magnitudeSquare, dot, add_x, add_y]; ring
    rw [h2, ← magnitude_sq, ← magnitude_sq]
    nlinarith
  unfold magnitude at *
  exact Real.sqrt_le_iff.2 ⟨add_nonneg (Real.sqrt_nonneg _) (Real.sqrt_nonneg _), h⟩

theorem pyDiv_ok (a b : ℝ) (h : b ≠ 0) : pyDiv a b = .ok (a / b) := if_neg h

theorem cosWith_ok (v d : Vec ℝ) (hv : v ≠ 0) (hd : d ≠ 0) :
    v.cosWith d = .ok (d.dot v / (d.magnitude * v.magnitude)) := by
  have hp := mul_pos (magnitude_pos d hd) (magnitude_pos v hv)
  unfold cosWith
  rw [pyDiv_ok _ _ hp.ne']
  have h := abs_le.1 (abs_dot_le d v)
  simp only [Except.map]
  rw [clamp_of_mem]
  · rw [le_div_iff₀ hp]; linarith
  · rw [div_le_iff₀ hp]; linarith

theorem sinWith_ok (v d : Vec ℝ) (hv : v ≠ 0) (hd : d ≠ 0) :
    v.sinWith d = .ok (d.cross v / (d.magnitude * v.magnitude)) := by
  have hp := mul_pos (magnitude_pos d hd) (magnitude_pos v hv)
  unfold sinWith
  rw [pyDiv_ok _ _ hp.ne']
  have h := abs_le.1 (abs_cross_le d v)
  simp only [Except.map]
  rw [clamp_of_mem]
  · rw [le_div_iff₀ hp]; linarith
  · rw [div_le_iff₀ hp]; linarith

end Patro.Vec
