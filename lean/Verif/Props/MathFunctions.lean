import Verif.Model.MathFunctions
import Mathlib.Tactic.Linarith
import Mathlib.Tactic.Ring
import Mathlib.Tactic.FieldSimp
import Mathlib.Tactic.NormNum
import Mathlib.Tactic.LinearCombination
/-! # C13, C14: clamp and quadratic solver -/

namespace Patro.MathFunctions

section Ordered

variable {K : Type _} [Field K] [LinearOrder K] [IsStrictOrderedRing K]

/-- C13. The clamped value lies in `[-1, 1]` and no value of `[-1, 1]` is nearer to `x`. -/
theorem trignometricClamp_nearest (x : K) :
    (-1 ≤ trignometricClamp x ∧ trignometricClamp x ≤ 1) ∧
    ∀ y : K, -1 ≤ y → y ≤ 1 → |x - trignometricClamp x| ≤ |x - y| := by
  unfold trignometricClamp
  split_ifs with h1 h2
  · refine ⟨⟨by linarith, le_refl _⟩, fun y _ hy => ?_⟩
    rw [abs_of_pos (by linarith), abs_of_nonneg (by linarith)]
    linarith
  · refine ⟨⟨le_refl _, by linarith⟩, fun y hy _ => ?_⟩
    rw [abs_of_neg (by linarith), abs_of_nonpos (by linarith)]
    linarith
  · refine ⟨⟨not_lt.1 h2, not_lt.1 h1⟩, fun y _ _ => ?_⟩
    rw [sub_self, abs_zero]
    exact abs_nonneg _

/-- C13. The clamp changes exactly the values outside of `[-1, 1]`. -/
theorem trignometricClamp_eq_self_iff (x : K) : trignometricClamp x = x ↔ -1 ≤ x ∧ x ≤ 1 := by
  unfold trignometricClamp
  split_ifs with h1 h2
  · constructor
    · intro h; rw [← h]; exact ⟨by linarith, le_refl _⟩
    · rintro ⟨_, h⟩; linarith
  · constructor
    · intro h; rw [← h]; exact ⟨le_refl _, by linarith⟩
    · rintro ⟨h, _⟩; linarith
  · exact ⟨fun _ => ⟨not_lt.1 h2, not_lt.1 h1⟩, fun _ => rfl⟩

/-- C13. The clamp is monotone. -/
theorem trignometricClamp_mono (x y : K) (h : x ≤ y) : trignometricClamp x ≤ trignometricClamp y := by
  unfold trignometricClamp
  split_ifs <;> linarith

/-- C13. `is_in_trignometric_range` decides membership of `[-1, 1]`. -/
theorem isInTrignometricRange_iff (x : K) : isInTrignometricRange x = true ↔ -1 ≤ x ∧ x ≤ 1 := by
  simp [isInTrignometricRange]

example : trignometricClamp (5 / 2 : ℚ) = 1 ∧ trignometricClamp (-3 : ℚ) = -1 ∧
    trignometricClamp (1 / 3 : ℚ) = 1 / 3 := by
  norm_num [trignometricClamp]

/-- C74. `cmp` is a three way comparison. -/
theorem cmp_spec (a b : K) :
    (cmp a b = 1 ↔ a > b) ∧ (cmp a b = 0 ↔ a = b) ∧ (cmp a b = -1 ↔ a < b) ∧ cmp b a = - cmp a b := by
  unfold cmp
  rcases lt_trichotomy a b with h | h | h
  · have h1 : ¬ a > b := not_lt.2 h.le
    simp [h, h1, h.ne]
  · subst h; simp
  · have h1 : ¬ a < b := not_lt.2 h.le
    simp [h, h1, h.ne']

/-- C74. `epsilon_float` is reflexive for a non negative tolerance and symmetric. -/
theorem epsilonFloat_spec (a b e : K) :
    (epsilonFloat a b e = true ↔ a - e ≤ b ∧ b ≤ a + e) ∧ epsilonFloat a b e = epsilonFloat b a e := by
  unfold epsilonFloat
  refine ⟨?_, by rw [abs_sub_comm]⟩
  simp only [decide_eq_true_eq, abs_le]
  constructor
  · rintro ⟨h1, h2⟩; constructor <;> linarith
  · rintro ⟨h1, h2⟩; constructor <;> linarith

/-- C74. `sign(x) * |x| = x` and `sign(x)` is 1 or -1. -/
theorem sign_spec (x : K) : (sign x = 1 ∨ sign x = -1) ∧ sign x * |x| = x := by
  unfold sign
  split_ifs with h
  · exact ⟨Or.inl rfl, by rw [abs_of_nonneg h, one_mul]⟩
  · exact ⟨Or.inr rfl, by rw [abs_of_neg (not_le.1 h)]; ring⟩

/-- C74. `middle` is half way. -/
theorem middle_spec (a b : K) : middle a b - a = b - middle a b := by
  unfold middle; ring

example : cmp (1 : ℚ) 2 = -1 ∧ epsilonFloat (1 : ℚ) (5 / 4) (1 / 2) = true := by
  constructor
  · norm_num [cmp]
  · rw [(epsilonFloat_spec _ _ _).1]; norm_num

end Ordered

/-- C14. Unless `a = b = 0`, the numbers returned are exactly the real solutions of `a x² + b x + c = 0`. -/
theorem quadraticRoot_exact (a b c : ℝ) (h : ¬ (a = 0 ∧ b = 0)) (x : ℝ) :
    x ∈ (quadraticRoot a b c).toList ↔ a * x ^ 2 + b * x + c = 0 := by
  unfold quadraticRoot
  rw [if_neg h]
  by_cases ha : a = 0
  · have hb : b ≠ 0 := fun hb => h ⟨ha, hb⟩
    rw [if_pos ha, ha]
    simp only [Roots.toList, List.mem_singleton]
    constructor
    · rintro rfl; field_simp; ring
    · intro hx; field_simp; linarith
  · rw [if_neg ha]
    have key : a * x ^ 2 + b * x + c = 0 ↔ (2 * a * x + b) ^ 2 = b ^ 2 - 4 * a * c := by
      constructor
      · intro hx; linear_combination (4 * a) * hx
      · intro hx
        have : (4 * a) * (a * x ^ 2 + b * x + c) = 0 := by linear_combination hx
        rcases mul_eq_zero.1 this with h | h
        · exact absurd h (mul_ne_zero (by norm_num) ha)
        · exact h
    rw [key]
    simp only
    split_ifs with hD hD'
    · simp only [Roots.toList, List.not_mem_nil, false_iff]
      intro hx
      have := sq_nonneg (2 * a * x + b)
      linarith
    · have hs : Real.sqrt (b ^ 2 - 4 * a * c) ^ 2 = b ^ 2 - 4 * a * c := Real.sq_sqrt hD'.le
      generalize Real.sqrt (b ^ 2 - 4 * a * c) = s at hs
      rw [← hs]
      simp only [Roots.toList, List.mem_cons, List.not_mem_nil, or_false]
      constructor
      · rintro (rfl | rfl) <;> field_simp <;> ring
      · intro hx
        have : (2 * a * x + b - s) * (2 * a * x + b + s) = 0 := by linear_combination hx
        rcases mul_eq_zero.1 this with h | h
        · right; field_simp; linarith
        · left; field_simp; linarith
    · have h0 : b ^ 2 - 4 * a * c = 0 := le_antisymm (not_lt.1 hD') (not_lt.1 hD)
      rw [h0]
      simp only [Roots.toList, List.mem_singleton]
      constructor
      · rintro rfl; field_simp; ring
      · intro hx
        have : 2 * a * x + b = 0 := by simpa using hx
        field_simp; linarith

/-- C14. `None` is returned exactly when `a = b = 0` or the equation has no real solution. -/
theorem quadraticRoot_none_iff (a b c : ℝ) :
    quadraticRoot a b c = .none ↔ (a = 0 ∧ b = 0) ∨ ∀ x : ℝ, a * x ^ 2 + b * x + c ≠ 0 := by
  by_cases h : a = 0 ∧ b = 0
  · simp [quadraticRoot, h]
  · constructor
    · intro hn
      right
      intro x hx
      have := (quadraticRoot_exact a b c h x).2 hx
      rw [hn] at this
      simp [Roots.toList] at this
    · rintro (h' | hx)
      · exact absurd h' h
      · cases hq : quadraticRoot a b c with
        | none => rfl
        | one r =>
          exact absurd ((quadraticRoot_exact a b c h r).1 (by simp [hq, Roots.toList])) (hx r)
        | two r s =>
          exact absurd ((quadraticRoot_exact a b c h r).1 (by simp [hq, Roots.toList])) (hx r)

/-- C14. A pair is returned only for two different solutions, the smaller one first when `a > 0` and last when
`a < 0`. -/
theorem quadraticRoot_two_order (a b c r1 r2 : ℝ) (h : quadraticRoot a b c = .two r1 r2) :
    (0 < a ∧ r1 < r2) ∨ (a < 0 ∧ r2 < r1) := by
  unfold quadraticRoot at h
  split_ifs at h with h1 h2
  simp only at h
  split_ifs at h with h3 h4
  simp only [Roots.two.injEq] at h
  obtain ⟨rfl, rfl⟩ := h
  have hs : 0 < Real.sqrt (b ^ 2 - 4 * a * c) := Real.sqrt_pos.2 h4
  rcases lt_or_gt_of_ne h2 with ha | ha
  · right
    refine ⟨ha, ?_⟩
    have : 1 / (2 * a) < 0 := div_neg_of_pos_of_neg one_pos (by linarith)
    nlinarith
  · left
    refine ⟨ha, ?_⟩
    have : 0 < 1 / (2 * a) := by positivity
    nlinarith

example : (quadraticRoot 1 (-3) 2).toList = [1, 2] := by
  have h4 : Real.sqrt ((-3) ^ 2 - 4 * 1 * 2) = 1 := by
    rw [show ((-3 : ℝ) ^ 2 - 4 * 1 * 2) = 1 by norm_num, Real.sqrt_one]
  unfold quadraticRoot
  norm_num [Roots.toList]

/-- C75. When the discriminant of a cubic (`a ≠ 0`) vanishes, the numbers returned by `_cubic_root` are
exactly the real solutions. -/
theorem cubicRootDegenerate_exact (a b c d : ℝ) (ha : a ≠ 0) (r : Roots ℝ)
    (h : cubicRootDegenerate a b c d = some r) (x : ℝ) :
    x ∈ r.toList ↔ a * x ^ 3 + b * x ^ 2 + c * x + d = 0 := by
  unfold cubicRootDegenerate at h
  simp only at h
  split_ifs at h with hD hD0
  · have hr := Option.some.inj h
    subst hr
    simp only [Roots.toList, List.mem_singleton]
    have hc : c = b ^ 2 / (3 * a) := by field_simp; linarith
    have hd : d = b ^ 3 / (27 * a ^ 2) := by
      rw [hc] at hD
      have h0 : (27 * a ^ 2 * d - b ^ 3) ^ 2 = 0 := by
        field_simp at hD
        nlinarith [hD]
      have h1 : 27 * a ^ 2 * d - b ^ 3 = 0 := by simpa using h0
      field_simp
      linarith
    have key : a * x ^ 3 + b * x ^ 2 + c * x + d = a * (x + b / (3 * a)) ^ 3 := by
      rw [hc, hd]; field_simp; ring
    rw [key]
    constructor
    · rintro rfl
      have : -b / (3 * a) + b / (3 * a) = 0 := by ring
      rw [this]; ring
    · intro hx
      have : (x + b / (3 * a)) ^ 3 = 0 := by
        rcases mul_eq_zero.1 hx with h | h
        · exact absurd h ha
        · exact h
      have := pow_eq_zero_iff (n := 3) (by norm_num) |>.1 this
      rw [neg_div]; linarith
  · have hr := Option.some.inj h
    subst hr
    simp only [Roots.toList, List.mem_cons, List.not_mem_nil, or_false]
    have hp' : 2 * (b ^ 2 - 3 * a * c) * ((9 * a * d - b * c) / (2 * (b ^ 2 - 3 * a * c)))
        = 9 * a * d - b * c := mul_div_cancel₀ _ (mul_ne_zero two_ne_zero hD0)
    have hq' : a * (b ^ 2 - 3 * a * c) * ((4 * a * b * c - 9 * a ^ 2 * d - b ^ 3) / (a * (b ^ 2 - 3 * a * c)))
        = 4 * a * b * c - 9 * a ^ 2 * d - b ^ 3 := mul_div_cancel₀ _ (mul_ne_zero ha hD0)
    generalize (9 * a * d - b * c) / (2 * (b ^ 2 - 3 * a * c)) = p at hp' ⊢
    generalize (4 * a * b * c - 9 * a ^ 2 * d - b ^ 3) / (a * (b ^ 2 - 3 * a * c)) = q at hq' ⊢
    generalize hD0' : b ^ 2 - 3 * a * c = D0 at hp' hq' hD0
    have e1 : b = -a * (2 * p + q) := by
      apply mul_left_cancel₀ hD0
      linear_combination a * hp' + hq' - b * hD0'
    have hpp : (2 * D0 * p) ^ 2 = (9 * a * d - b * c) ^ 2 := by rw [hp']
    have hpq : (2 * D0 * p) * (a * D0 * q) = (9 * a * d - b * c) * (4 * a * b * c - 9 * a ^ 2 * d - b ^ 3) := by
      rw [hp', hq']
    have hppq : (2 * D0 * p) ^ 2 * (a * D0 * q)
        = (9 * a * d - b * c) ^ 2 * (4 * a * b * c - 9 * a ^ 2 * d - b ^ 3) := by rw [hp', hq']
    have e2 : c = a * (p ^ 2 + 2 * p * q) := by
      have h4 : 4 * D0 ^ 2 ≠ 0 := mul_ne_zero four_ne_zero (pow_ne_zero _ hD0)
      apply mul_left_cancel₀ h4
      rw [show (4 * D0 ^ 2) * (a * (p ^ 2 + 2 * p * q))
        = a * (2 * D0 * p) ^ 2 + 4 * ((2 * D0 * p) * (a * D0 * q)) by ring, hpp, hpq, ← hD0']
      linear_combination (-9 * a) * hD
    have e3 : d = -(a * p ^ 2 * q) := by
      have h4 : 4 * D0 ^ 3 ≠ 0 := mul_ne_zero four_ne_zero (pow_ne_zero _ hD0)
      apply mul_left_cancel₀ h4
      rw [show (4 * D0 ^ 3) * (-(a * p ^ 2 * q)) = - ((2 * D0 * p) ^ 2 * (a * D0 * q)) by ring, hppq, ← hD0']
      linear_combination (27 * a ^ 2 * d - b ^ 3) * hD
    have key : a * x ^ 3 + b * x ^ 2 + c * x + d = a * ((x - p) ^ 2 * (x - q)) := by
      rw [e2, e3]
      linear_combination x ^ 2 * e1
    rw [key]
    constructor
    · rintro (rfl | rfl) <;> ring
    · intro hx
      rcases mul_eq_zero.1 hx with h | h
      · exact absurd h ha
      rcases mul_eq_zero.1 h with h | h
      · left
        have := pow_eq_zero_iff (n := 2) (by norm_num) |>.1 h
        linarith
      · right; linarith

example : cubicRootDegenerate 1 (-4) 5 (-2) = some (.two 1 2) := by
  unfold cubicRootDegenerate; norm_num

end Patro.MathFunctions
