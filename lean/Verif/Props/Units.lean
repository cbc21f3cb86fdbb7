import Verif.Spec.Units
import Mathlib.Tactic.FieldSimp
import Mathlib.Tactic.Ring
import Mathlib.Tactic.NormNum
import Mathlib.Tactic.LinearCombination
import Mathlib.Data.Rat.Defs
import Mathlib.Algebra.Field.Rat
/-! # C69, C70: units -/

namespace Patro.Units

variable {K : Type} [Field K] [CharZero K]

/-- C69. The conversions to millimetres from any unit, and to points from millimetres, keep the length; a conversion to the own unit of a
length changes nothing. -/
theorem conversions_right (v : K) (l : Length K) :
    Converts l l.toMm .mm ∧ Converts (.mm v) (Length.mm v).toPoint .point ∧
      (Length.mm v).toMm = .mm v ∧ (Length.inch v).toInch = .inch v ∧ (Length.point v).toPoint = .point v := by
  refine ⟨?_, ⟨rfl, ?_⟩, rfl, rfl, rfl⟩
  · cases l with
    | mm v => exact ⟨rfl, rfl⟩
    | inch v => exact ⟨rfl, rfl⟩
    | point v =>
      refine ⟨rfl, ?_⟩
      simp only [Length.toMm, Length.inMm, point2mm, inch2mm, point2inch]
      ring
  · simp only [Length.toPoint, Length.inMm, mm2point, point2mm, inch2mm, point2inch]
    field_simp
    ring

/-- C69. Millimetres to points and back. -/
theorem mm_point_round_trip (v : K) : (Length.mm v).toPoint.toMm = .mm v ∧ (Length.point v).toMm.toPoint = .point v := by
  have h : (point2mm : K) ≠ 0 := by simp only [point2mm, inch2mm, point2inch]; norm_num
  simp only [Length.toPoint, Length.toMm, mm2point]
  constructor
  · congr 1; field_simp
  · congr 1; field_simp

/-- C69. The factor of the conversion of millimetres to inches is defined, and right, but another one is used: multiplying by it keeps the length. -/
theorem unused_factor_wrong (v : K) : Converts (.mm v) (.inch (v * mm2inch)) .inch ∧ ((Length.mm v).toInch = .inch (v * mm2inch) ↔ v = 0) := by
  constructor
  · refine ⟨rfl, ?_⟩
    simp only [Length.inMm, mm2inch, inch2mm]
    field_simp
  · simp only [Length.toInch, Length.inch.injEq, mm2point, mm2inch, point2mm, inch2mm, point2inch]
    constructor
    · intro h
      field_simp at h
      have : (71 : K) * v = 0 := by linear_combination h
      exact (mul_eq_zero.1 this).resolve_left (by norm_num)
    · rintro rfl
      simp

/-- C69. The other conversions are wrong: millimetres to inches, inches to points and points to inches give the right unit but keep the
length of zero only. Millimetres are multiplied by 72/25.4 instead of 1/25.4, inches divided by 72 and points multiplied by 72. -/
theorem conversions_wrong (v : K) :
    ((Length.mm v).toInch.inMm = (Length.mm v).inMm ↔ v = 0) ∧ ((Length.inch v).toPoint.inMm = (Length.inch v).inMm ↔ v = 0) ∧
      ((Length.point v).toInch.inMm = (Length.point v).inMm ↔ v = 0) ∧
      (Length.mm v).toInch.inMm = 72 * v ∧ (Length.inch v).toPoint.inMm * 5184 = (Length.inch v).inMm ∧
      (Length.point v).toInch.inMm = 5184 * (Length.point v).inMm := by
  have h1 : (Length.mm v).toInch.inMm = 72 * v := by
    simp only [Length.toInch, Length.inMm, mm2point, point2mm, inch2mm, point2inch]
    field_simp
  have h2 : (Length.inch v).toPoint.inMm * 5184 = (Length.inch v).inMm := by
    simp only [Length.toPoint, Length.inMm, inch2point, point2inch]
    field_simp
    ring
  have h3 : (Length.point v).toInch.inMm = 5184 * (Length.point v).inMm := by
    simp only [Length.toInch, Length.inMm, point2inch]
    ring
  refine ⟨?_, ?_, ?_, h1, h2, h3⟩
  · rw [h1]
    constructor
    · intro h
      have : (71 : K) * v = 0 := by simp only [Length.inMm] at h; linear_combination h
      exact (mul_eq_zero.1 this).resolve_left (by norm_num)
    · rintro rfl; simp [Length.inMm]
  · constructor
    · intro h
      rw [h] at h2
      simp only [Length.inMm] at h2
      have : v * ((254 / 10) * 5183 : K) = 0 := by linear_combination h2
      exact (mul_eq_zero.1 this).resolve_right (by norm_num)
    · rintro rfl; simp [Length.inMm, Length.toPoint]
  · rw [h3]
    constructor
    · intro h
      simp only [Length.inMm] at h
      have : v * ((254 / 720) * 5183 : K) = 0 := by linear_combination h
      exact (mul_eq_zero.1 this).resolve_right (by norm_num)
    · rintro rfl; simp [Length.inMm]

/-- C69. Inches to points and back is nevertheless right, the errors cancel. -/
theorem inch_point_round_trip (v : K) : (Length.inch v).toPoint.toInch = .inch v ∧ (Length.point v).toInch.toPoint = .point v := by
  simp only [Length.toPoint, Length.toInch, inch2point, point2inch]
  constructor
  · congr 1; field_simp
  · congr 1; field_simp

example : (Length.inch (1 : ℚ)).toMm = .mm (127 / 5) ∧ (Length.inch (1 : ℚ)).toPoint = .point (1 / 72) ∧
    (Length.mm (127 / 5 : ℚ)).toInch = .inch 72 := by decide +kernel

/-! ## Yarn counts -/

variable [DecidableEq K]

omit [DecidableEq K] in
/-- C70. The denier count of a yarn given in tex is the one of the same linear density. -/
theorem tex_to_den (x : K) : denDensity (tex2den x) = texDensity x := by
  simp only [denDensity, tex2den, texDensity]; field_simp; ring

/-- C70. The metric number of a yarn given in tex is the one of the same linear density; it does not exist for a weightless yarn. -/
theorem tex_to_nm (x : K) : (x ≠ 0 → ∃ n, tex2nm x = .ok n ∧ nmDensity n = texDensity x) ∧ (tex2nm (0 : K) = .error .zeroDivisionError) := by
  refine ⟨fun h => ⟨1000 / x, if_neg h, ?_⟩, if_pos rfl⟩
  simp only [nmDensity, texDensity]; field_simp

omit [DecidableEq K] in
/-- C70. The conversion from denier is wrong for every count but zero: it gives ten times the linear density. -/
theorem den_to_tex_wrong (x : K) : texDensity (den2tex x) = 10 * denDensity x ∧ (texDensity (den2tex x) = denDensity x ↔ x = 0) := by
  have h : texDensity (den2tex x) = 10 * denDensity x := by
    simp only [texDensity, den2tex, denDensity]; field_simp; ring
  refine ⟨h, ?_⟩
  rw [h]
  constructor
  · intro e
    simp only [denDensity] at e
    have : x * (9 / 9000 : K) = 0 := by linear_combination e
    exact (mul_eq_zero.1 this).resolve_right (by norm_num)
  · rintro rfl; simp [denDensity]

omit [DecidableEq K] in
/-- C70. The conversion from the metric number multiplies instead of dividing: it is right only for the counts one and minus one. -/
theorem nm_to_tex_wrong (x : K) (hx : x ≠ 0) : texDensity (nm2tex x) = x ∧ (texDensity (nm2tex x) = nmDensity x ↔ x = 1 ∨ x = -1) := by
  have h : texDensity (nm2tex x) = x := by simp only [texDensity, nm2tex]; field_simp
  refine ⟨h, ?_⟩
  rw [h, nmDensity, eq_div_iff hx]
  exact mul_self_eq_one_iff

/-- C122. Without a twist type no yarn can be made, although it is optional. -/
theorem yarn_default_wrong (tex : K) : Yarn.new tex = .error .valueError := rfl

/-- C122. With a twist type of the enumeration a yarn is made, with this twist, its count, and the denier and metric counts of the same
linear density. -/
theorem yarn_new (tex : K) (t : TwistType) (h : tex ≠ 0) :
    ∃ y, Yarn.new tex (.twist t) = .ok y ∧ y.tex = tex ∧ y.twistType = t ∧ denDensity y.denier = texDensity tex ∧
      ∃ n, y.nm = .ok n ∧ nmDensity n = texDensity tex :=
  ⟨⟨tex, t⟩, rfl, rfl, rfl, tex_to_den tex, (tex_to_nm tex).1 h⟩

/-- C122. The numbers 1 and 2 stand for the twists S and Z, and the others are refused. -/
theorem yarn_number (tex : K) (i : Int) :
    (Yarn.new tex (.int i)).map Yarn.twistType =
      if i = 1 then .ok .S else if i = 2 then .ok .Z else .error .valueError := by
  unfold Yarn.new castTwist
  split_ifs <;> simp_all [bind, Except.bind, pure, Except.pure, Except.map]

example : tex2den (10 : ℚ) = 90 ∧ den2tex (90 : ℚ) = 100 ∧ tex2nm (20 : ℚ) = .ok 50 ∧ nm2tex (50 : ℚ) = 50000 := by
  refine ⟨by decide +kernel, by decide +kernel, by decide +kernel, by decide +kernel⟩

end Patro.Units
