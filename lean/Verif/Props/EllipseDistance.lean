import Verif.Props.Ellipse
import Mathlib.Topology.Order.IntermediateValue
import Mathlib.Topology.ContinuousOn
/-! # C138 and C139: distance to an ellipse, points inside, intersection with a line -/

namespace Patro.Conic

open Classical MathFunctions Transformation

/-! ## The bisection -/

/-- The function whose root the bisection looks for. -/
noncomputable def bisected (r0 n0 z1 s : ℝ) : ℝ := (n0 / (s + r0)) ^ 2 + (z1 / (s + 1)) ^ 2 - 1

theorem bisected_lt (r0 n0 z1 : ℝ) (hr : 1 ≤ r0) (hn : 0 < n0) (hz : 0 < z1) (s t : ℝ) (hs : -1 < s) (hst : s < t) :
    bisected r0 n0 z1 t < bisected r0 n0 z1 s := by
  unfold bisected
  have h1 : n0 / (t + r0) < n0 / (s + r0) := by
    apply div_lt_div_of_pos_left hn <;> linarith
  have h2 : z1 / (t + 1) < z1 / (s + 1) := by
    apply div_lt_div_of_pos_left hz <;> linarith
  have h3 : 0 < n0 / (t + r0) := div_pos hn (by linarith)
  have h4 : 0 < z1 / (t + 1) := div_pos hz (by linarith)
  nlinarith

theorem bisected_root (r0 n0 z1 s0 s1 : ℝ) (hr : 1 ≤ r0) (h0 : -1 < s0) (h01 : s0 ≤ s1) (hf0 : 0 ≤ bisected r0 n0 z1 s0)
    (hf1 : bisected r0 n0 z1 s1 ≤ 0) : ∃ s, s0 ≤ s ∧ s ≤ s1 ∧ bisected r0 n0 z1 s = 0 := by
  have hc : ContinuousOn (bisected r0 n0 z1) (Set.Icc s0 s1) := by
    unfold bisected
    have a1 : ∀ x ∈ Set.Icc s0 s1, x + r0 ≠ 0 := by intro x hx; have := hx.1; linarith
    have a2 : ∀ x ∈ Set.Icc s0 s1, x + 1 ≠ 0 := by intro x hx; have := hx.1; linarith
    refine ((ContinuousOn.pow ?_ 2).add (ContinuousOn.pow ?_ 2)).sub continuousOn_const
    · exact continuousOn_const.div (continuousOn_id.add continuousOn_const) a1
    · exact continuousOn_const.div (continuousOn_id.add continuousOn_const) a2
  obtain ⟨s, hs, e⟩ := intermediate_value_Icc' h01 hc ⟨hf1, hf0⟩
  exact ⟨s, hs.1, hs.2, e⟩

/-- The loop keeps the root between the bounds, and halves the interval. -/
theorem bisectLoop_spec (r0 n0 z1 root : ℝ) (hr : 1 ≤ r0) (hn : 0 < n0) (hz : 0 < z1) (hroot : -1 < root)
    (hf : bisected r0 n0 z1 root = 0) (i : Nat) : ∀ s0 s1 s, -1 < s0 → s0 ≤ root → root ≤ s1 → s0 ≤ s → s ≤ s1 →
      s0 ≤ Ellipse.bisectLoop r0 n0 z1 i s0 s1 s ∧ Ellipse.bisectLoop r0 n0 z1 i s0 s1 s ≤ s1 ∧
      |Ellipse.bisectLoop r0 n0 z1 i s0 s1 s - root| ≤ (s1 - s0) / 2 ^ i := by
  induction i with
  | zero =>
    intro s0 s1 s _ h1 h2 h3 h4
    refine ⟨h3, h4, ?_⟩
    simp only [Ellipse.bisectLoop, pow_zero, div_one]
    rw [abs_le]; constructor <;> linarith
  | succ i ih =>
    intro s0 s1 s h0 h1 h2 _ _
    have hp : (0 : ℝ) < 2 ^ i := by positivity
    unfold Ellipse.bisectLoop
    simp only
    have hexact : ∀ m : ℝ, m = root → |m - root| ≤ (s1 - s0) / 2 ^ (i + 1) := by
      intro m hm
      rw [hm, sub_self, abs_zero]
      exact div_nonneg (by linarith) (by positivity)
    by_cases hb : (s0 + s1) / 2 = s0 ∨ (s0 + s1) / 2 = s1
    · rw [if_pos hb]
      have : s0 = s1 := by rcases hb with h | h <;> linarith
      exact ⟨by linarith, by linarith, hexact _ (by linarith)⟩
    · rw [if_neg hb]
      have hg : (n0 / ((s0 + s1) / 2 + r0)) ^ 2 + (z1 / ((s0 + s1) / 2 + 1)) ^ 2 - 1 = bisected r0 n0 z1 ((s0 + s1) / 2) := rfl
      rw [hg]
      have hm : -1 < (s0 + s1) / 2 := by linarith
      have hw : ∀ a b : ℝ, b - a = (s1 - s0) / 2 → (b - a) / 2 ^ i = (s1 - s0) / 2 ^ (i + 1) := by
        intro a b h; rw [h, pow_succ]; field_simp
      by_cases g1 : bisected r0 n0 z1 ((s0 + s1) / 2) > 0
      · rw [if_pos g1]
        have hlt : (s0 + s1) / 2 < root := by
          by_contra hc
          rcases (not_lt.1 hc).lt_or_eq with hc | hc
          · have := bisected_lt r0 n0 z1 hr hn hz root _ hroot hc; linarith
          · rw [← hc, hf] at g1; exact lt_irrefl _ g1
        obtain ⟨b1, b2, b3⟩ := ih ((s0 + s1) / 2) s1 ((s0 + s1) / 2) hm hlt.le h2 le_rfl (by linarith)
        exact ⟨by linarith, b2, by rw [← hw _ _ (by ring : s1 - (s0 + s1) / 2 = (s1 - s0) / 2)]; exact b3⟩
      · rw [if_neg g1]
        by_cases g2 : bisected r0 n0 z1 ((s0 + s1) / 2) < 0
        · rw [if_pos g2]
          have hlt : root < (s0 + s1) / 2 := by
            by_contra hc
            rcases (not_lt.1 hc).lt_or_eq with hc | hc
            · have := bisected_lt r0 n0 z1 hr hn hz _ _ hm hc; linarith
            · rw [hc, hf] at g2; exact lt_irrefl _ g2
          obtain ⟨b1, b2, b3⟩ := ih s0 ((s0 + s1) / 2) ((s0 + s1) / 2) h0 h1 hlt.le (by linarith) le_rfl
          exact ⟨b1, by linarith, by rw [← hw _ _ (by ring : (s0 + s1) / 2 - s0 = (s1 - s0) / 2)]; exact b3⟩
        · rw [if_neg g2]
          have heq : (s0 + s1) / 2 = root := by
            rcases lt_trichotomy ((s0 + s1) / 2) root with h | h | h
            · have := bisected_lt r0 n0 z1 hr hn hz _ _ hm h; linarith
            · exact h
            · have := bisected_lt r0 n0 z1 hr hn hz _ _ hroot h; linarith
          exact ⟨by linarith, by linarith, hexact _ heq⟩

theorem robustLength_eq (x y : ℝ) (hx : 0 < x) (hy : 0 < y) : Ellipse.robustLength x y = Real.sqrt (x ^ 2 + y ^ 2) := by
  unfold Ellipse.robustLength
  split
  · rw [abs_of_pos hy]
    rw [eq_comm, Real.sqrt_eq_iff_mul_self_eq (by positivity) (by positivity)]
    have := Real.mul_self_sqrt (show (0 : ℝ) ≤ 1 + (x / y) ^ 2 by positivity)
    have h2 : y ^ 2 * (1 + (x / y) ^ 2) = x ^ 2 + y ^ 2 := by field_simp; ring
    linear_combination -y ^ 2 * this - h2
  · rw [abs_of_pos hx]
    rw [eq_comm, Real.sqrt_eq_iff_mul_self_eq (by positivity) (by positivity)]
    have := Real.mul_self_sqrt (show (0 : ℝ) ≤ 1 + (y / x) ^ 2 by positivity)
    have h2 : x ^ 2 * (1 + (y / x) ^ 2) = x ^ 2 + y ^ 2 := by field_simp
    linear_combination -x ^ 2 * this - h2

/-- What the bisection returns: close to the root of the function, on the same side of 0 when the point is inside. -/
theorem bisection_spec (r0 z0 z1 : ℝ) (hr : 1 ≤ r0) (h0 : 0 < z0) (h1 : 0 < z1) (hg : z0 ^ 2 + z1 ^ 2 - 1 ≠ 0) :
    let s := Ellipse.distancePointBisection r0 z0 z1 (z0 ^ 2 + z1 ^ 2 - 1)
    ∃ root, bisected r0 (r0 * z0) z1 root = 0 ∧ z1 - 1 ≤ root ∧ z1 - 1 ≤ s ∧ |s - root| ≤ (1 + r0 * z0) / 2 ^ 1074 ∧
      (z0 ^ 2 + z1 ^ 2 - 1 < 0 → s ≤ 0 ∧ root ≤ 0) := by
  intro s
  set g := z0 ^ 2 + z1 ^ 2 - 1 with hgd
  have hn : 0 < r0 * z0 := by positivity
  have hf0 : 0 ≤ bisected r0 (r0 * z0) z1 (z1 - 1) := by
    unfold bisected
    have : z1 / (z1 - 1 + 1) = 1 := by rw [sub_add_cancel, div_self h1.ne']
    rw [this]
    nlinarith [sq_nonneg (r0 * z0 / (z1 - 1 + r0))]
  have hr0 : r0 ≠ 0 := by positivity
  have main : ∀ s1, z1 - 1 ≤ s1 → bisected r0 (r0 * z0) z1 s1 ≤ 0 → s1 - (z1 - 1) ≤ 1 + r0 * z0 →
      s = Ellipse.bisectLoop r0 (r0 * z0) z1 1074 (z1 - 1) s1 0 →
      ∃ root, bisected r0 (r0 * z0) z1 root = 0 ∧ z1 - 1 ≤ root ∧ root ≤ s1 ∧ z1 - 1 ≤ s ∧ s ≤ s1 ∧
        |s - root| ≤ (1 + r0 * z0) / 2 ^ 1074 := by
    intro s1 hs hf1 hw hse
    obtain ⟨root, a1, a2, a3⟩ := bisected_root r0 (r0 * z0) z1 (z1 - 1) s1 hr (by linarith) hs hf0 hf1
    have hse' : s = Ellipse.bisectLoop r0 (r0 * z0) z1 (1073 + 1) (z1 - 1) s1 (z1 - 1) := hse
    obtain ⟨b1, b2, b3⟩ := bisectLoop_spec r0 (r0 * z0) z1 root hr hn h1 (by linarith) a3 (1073 + 1) (z1 - 1) s1 (z1 - 1)
      (by linarith) a1 a2 le_rfl hs
    rw [← hse'] at b1 b2 b3
    exact ⟨root, a3, a1, a2, b1, b2, b3.trans (div_le_div_of_nonneg_right hw (by positivity))⟩
  by_cases hneg : g < 0
  · have hz1 : z1 < 1 := by nlinarith
    obtain ⟨root, a1, a2, a3, a4, a5, a6⟩ := main 0 (by linarith) (by
        unfold bisected
        rw [zero_add, zero_add, div_one, mul_div_cancel_left₀ _ hr0]; linarith) (by nlinarith) (by
        show Ellipse.distancePointBisection r0 z0 z1 g = _
        unfold Ellipse.distancePointBisection
        dsimp only
        rw [if_pos hneg])
    exact ⟨root, a1, a2, a4, a6, fun _ => ⟨a5, a3⟩⟩
  · have hl := robustLength_eq (r0 * z0) z1 hn h1
    set l := Real.sqrt ((r0 * z0) ^ 2 + z1 ^ 2) with hld
    have hl2 : l ^ 2 = (r0 * z0) ^ 2 + z1 ^ 2 := Real.sq_sqrt (by positivity)
    have hl0 : 0 ≤ l := Real.sqrt_nonneg _
    have hlz : z1 ≤ l := by nlinarith
    have hln : l ≤ r0 * z0 + z1 := by nlinarith
    obtain ⟨root, a1, a2, a3, a4, a5, a6⟩ := main (l - 1) (by linarith) (by
        unfold bisected
        have hlp : 0 < l := by linarith
        have e1 : (z1 / (l - 1 + 1)) ^ 2 = z1 ^ 2 / l ^ 2 := by rw [sub_add_cancel, div_pow]
        have e2 : (r0 * z0 / (l - 1 + r0)) ^ 2 ≤ (r0 * z0) ^ 2 / l ^ 2 := by
          rw [div_pow]
          apply div_le_div_of_nonneg_left (by positivity) (by positivity)
          nlinarith
        have e3 : (r0 * z0) ^ 2 / l ^ 2 + z1 ^ 2 / l ^ 2 = 1 := by rw [← add_div, ← hl2, div_self (by positivity)]
        linarith) (by linarith) (by
        show Ellipse.distancePointBisection r0 z0 z1 g = _
        unfold Ellipse.distancePointBisection
        dsimp only
        rw [if_neg hneg, hl])
    exact ⟨root, a1, a2, a4, a6, fun h => absurd h hneg⟩

/-! ## The closest point -/

/-- A point of an ellipse on whose normal the given point lies, at most at the centre of curvature, is the closest one. -/
theorem closest_of_normal (e0 e1 t : ℝ) (x y q : Vec ℝ) (h0 : 0 < e0) (h1 : 0 < e1)
    (hx : (x.x / e0) ^ 2 + (x.y / e1) ^ 2 = 1) (hq : (q.x / e0) ^ 2 + (q.y / e1) ^ 2 = 1)
    (hy0 : y.x = x.x * (1 + t / e0 ^ 2)) (hy1 : y.y = x.y * (1 + t / e1 ^ 2)) (ht0 : 0 ≤ 1 + t / e0 ^ 2)
    (ht1 : 0 ≤ 1 + t / e1 ^ 2) : distance y x ≤ distance y q := by
  unfold distance
  apply Real.sqrt_le_sqrt
  have key : ((y.x - q.x) ^ 2 + (y.y - q.y) ^ 2) - ((y.x - x.x) ^ 2 + (y.y - x.y) ^ 2) =
      (q.x - x.x) ^ 2 * (1 + t / e0 ^ 2) + (q.y - x.y) ^ 2 * (1 + t / e1 ^ 2) := by
    rw [hy0, hy1]
    have a : q.x ^ 2 / e0 ^ 2 + q.y ^ 2 / e1 ^ 2 = 1 := by rw [← hq, div_pow, div_pow]
    have b : x.x ^ 2 / e0 ^ 2 + x.y ^ 2 / e1 ^ 2 = 1 := by rw [← hx, div_pow, div_pow]
    linear_combination t * b - t * a
  have p1 := mul_nonneg (sq_nonneg (q.x - x.x)) ht0
  have p2 := mul_nonneg (sq_nonneg (q.y - x.y)) ht1
  linarith

/-- `x` is a closest point of the ellipse with radii `e0` and `e1`, in its frame. -/
def IsClosest (e0 e1 : ℝ) (y x : Vec ℝ) : Prop :=
  (x.x / e0) ^ 2 + (x.y / e1) ^ 2 = 1 ∧ ∀ q : Vec ℝ, (q.x / e0) ^ 2 + (q.y / e1) ^ 2 = 1 → distance y x ≤ distance y q

theorem distance_axis_y (a b : ℝ) : distance ⟨0, a⟩ ⟨0, b⟩ = |a - b| := by
  unfold distance; simp [Real.sqrt_sq_eq_abs]

theorem distance_axis_x (a b : ℝ) : distance ⟨a, 0⟩ ⟨b, 0⟩ = |a - b| := by
  unfold distance; simp [Real.sqrt_sq_eq_abs]

/-- `_eberly_distance` for a point of the first quadrant. -/
theorem eberly_spec (e : Ellipse) (h1 : 0 < e.radiusY) (h01 : e.radiusY ≤ e.radiusX) (y : Vec ℝ) (hy0 : 0 ≤ y.x)
    (hy1 : 0 ≤ y.y) : ∃ x, IsClosest e.radiusX e.radiusY y x ∧
      (e.eberlyDistance y).1 = distance y (e.eberlyDistance y).2 ∧
      (y.x = 0 ∨ y.y = 0 ∨ (y.x / e.radiusX) ^ 2 + (y.y / e.radiusY) ^ 2 = 1 → (e.eberlyDistance y).2 = x) ∧
      distance (e.eberlyDistance y).2 x * (2 ^ 1074 * y.y) ≤
        (1 + e.radiusX * y.x / e.radiusY ^ 2) * (e.radiusX + e.radiusY) * e.radiusY := by
  have h0 : 0 < e.radiusX := h1.trans_le h01
  obtain ⟨y0, y1⟩ := y
  simp only at hy0 hy1
  unfold Ellipse.eberlyDistance
  simp only
  generalize e.radiusX = e0 at *
  generalize e.radiusY = e1 at *
  have hbound : 0 ≤ (1 + e0 * y0 / e1 ^ 2) * (e0 + e1) * e1 := by positivity
  have hsame : ∀ x : Vec ℝ, distance x x = 0 := by intro x; simp [distance]
  by_cases c1 : y1 > 0
  · rw [if_pos c1]
    by_cases c0 : y0 > 0
    · rw [if_pos c0]
      by_cases cg : (y0 / e0) ^ 2 + (y1 / e1) ^ 2 - 1 ≠ 0
      · rw [if_pos cg]
        have hr : 1 ≤ (e0 / e1) ^ 2 := by
          have : 1 ≤ e0 / e1 := (one_le_div h1).2 h01
          nlinarith
        have hz0 : 0 < y0 / e0 := by positivity
        have hz1 : 0 < y1 / e1 := by positivity
        obtain ⟨root, a1, a2, a3, a4, -⟩ := bisection_spec ((e0 / e1) ^ 2) (y0 / e0) (y1 / e1) hr hz0 hz1 cg
        generalize Ellipse.distancePointBisection ((e0 / e1) ^ 2) (y0 / e0) (y1 / e1) ((y0 / e0) ^ 2 + (y1 / e1) ^ 2 - 1) = s at *
        set r0 := (e0 / e1) ^ 2 with hr0
        have hR : 0 < root + r0 := by linarith
        have hR1 : 0 < root + 1 := by linarith
        have hS : 0 < s + r0 := by linarith
        have hS1 : 0 < s + 1 := by linarith
        have hr0' : r0 ≠ 0 := by positivity
        have hon : (r0 * y0 / (root + r0) / e0) ^ 2 + (y1 / (root + 1) / e1) ^ 2 = 1 := by
          unfold bisected at a1
          have e2 : r0 * y0 / (root + r0) / e0 = r0 * (y0 / e0) / (root + r0) := by ring
          have e3 : y1 / (root + 1) / e1 = y1 / e1 / (root + 1) := by ring
          rw [e2, e3]; linarith
        refine ⟨⟨r0 * y0 / (root + r0), y1 / (root + 1)⟩, ⟨hon, ?_⟩, ?_, ?_, ?_⟩
        · intro q hq
          have e01 : e1 ^ 2 / e0 ^ 2 = 1 / r0 := by rw [hr0]; field_simp
          have f0 : 1 + root * e1 ^ 2 / e0 ^ 2 = (root + r0) / r0 := by
            rw [mul_div_assoc, e01]; field_simp; ring
          have f1 : 1 + root * e1 ^ 2 / e1 ^ 2 = root + 1 := by field_simp; ring
          refine closest_of_normal e0 e1 (root * e1 ^ 2) _ _ q h0 h1 hon hq ?_ ?_ ?_ ?_
          · simp only; rw [f0]; field_simp
          · simp only; rw [f1]; field_simp
          · rw [f0]; positivity
          · rw [f1]; positivity
        · unfold distance
          simp only
          congr 1; ring
        · rintro (h | h | h)
          · exact absurd h c0.ne'
          · exact absurd h c1.ne'
          · exact absurd (by rw [h, sub_self]) cg
        · simp only
          have hx0 : r0 * y0 / (root + r0) ≤ e0 := by
            have : (r0 * y0 / (root + r0) / e0) ^ 2 ≤ 1 := by nlinarith [sq_nonneg (y1 / (root + 1) / e1)]
            have := (abs_le.1 ((sq_le_one_iff_abs_le_one _).1 this)).2
            rwa [div_le_one h0] at this
          have hx1 : y1 / (root + 1) ≤ e1 := by
            have : (y1 / (root + 1) / e1) ^ 2 ≤ 1 := by nlinarith [sq_nonneg (r0 * y0 / (root + r0) / e0)]
            have := (abs_le.1 ((sq_le_one_iff_abs_le_one _).1 this)).2
            rwa [div_le_one h1] at this
          have d0 : |r0 * y0 / (s + r0) - r0 * y0 / (root + r0)| ≤ |s - root| * (e0 * e1 / y1) := by
            have : r0 * y0 / (s + r0) - r0 * y0 / (root + r0) = (root - s) * (r0 * y0 / (root + r0) * (1 / (s + r0))) := by
              field_simp; ring
            rw [this, abs_mul, abs_sub_comm root s]
            apply mul_le_mul_of_nonneg_left _ (abs_nonneg _)
            rw [abs_of_nonneg (by positivity)]
            have : 1 / (s + r0) ≤ e1 / y1 := by
              rw [div_le_div_iff₀ hS c1]
              have : y1 = e1 * (y1 / e1) := by field_simp
              nlinarith
            calc r0 * y0 / (root + r0) * (1 / (s + r0)) ≤ e0 * (e1 / y1) := by
                  apply mul_le_mul hx0 this (by positivity) h0.le
              _ = e0 * e1 / y1 := by ring
          have d1 : |y1 / (s + 1) - y1 / (root + 1)| ≤ |s - root| * (e1 * e1 / y1) := by
            have : y1 / (s + 1) - y1 / (root + 1) = (root - s) * (y1 / (root + 1) * (1 / (s + 1))) := by
              field_simp; ring
            rw [this, abs_mul, abs_sub_comm root s]
            apply mul_le_mul_of_nonneg_left _ (abs_nonneg _)
            rw [abs_of_nonneg (by positivity)]
            have : 1 / (s + 1) ≤ e1 / y1 := by
              rw [div_le_div_iff₀ hS1 c1]
              have : y1 = e1 * (y1 / e1) := by field_simp
              nlinarith
            calc y1 / (root + 1) * (1 / (s + 1)) ≤ e1 * (e1 / y1) := by
                  apply mul_le_mul hx1 this (by positivity) h1.le
              _ = e1 * e1 / y1 := by ring
          have hd : ∀ a b : Vec ℝ, distance a b ≤ |a.x - b.x| + |a.y - b.y| := by
            intro a b
            unfold distance
            rw [Real.sqrt_le_left (by positivity)]
            have := mul_nonneg (abs_nonneg (a.x - b.x)) (abs_nonneg (a.y - b.y))
            nlinarith [sq_abs (a.x - b.x), sq_abs (a.y - b.y)]
          have hdd := hd ⟨r0 * y0 / (s + r0), y1 / (s + 1)⟩ ⟨r0 * y0 / (root + r0), y1 / (root + 1)⟩
          simp only at hdd
          have h5 : distance ⟨r0 * y0 / (s + r0), y1 / (s + 1)⟩ ⟨r0 * y0 / (root + r0), y1 / (root + 1)⟩ ≤
              (1 + r0 * (y0 / e0)) / 2 ^ 1074 * ((e0 + e1) * e1 / y1) := by
            calc _ ≤ |s - root| * (e0 * e1 / y1) + |s - root| * (e1 * e1 / y1) := by linarith
              _ = |s - root| * ((e0 + e1) * e1 / y1) := by ring
              _ ≤ _ := mul_le_mul_of_nonneg_right a4 (by positivity)
          have hN : (0 : ℝ) < 2 ^ 1074 := by positivity
          generalize (2 : ℝ) ^ 1074 = N at *
          calc _ ≤ (1 + r0 * (y0 / e0)) / N * ((e0 + e1) * e1 / y1) * (N * y1) :=
                mul_le_mul_of_nonneg_right h5 (by positivity)
            _ = (1 + r0 * (y0 / e0)) * (e0 + e1) * e1 := by field_simp
            _ = (1 + e0 * y0 / e1 ^ 2) * (e0 + e1) * e1 := by
                have : r0 * (y0 / e0) = e0 * y0 / e1 ^ 2 := by rw [hr0]; field_simp
                rw [this]
            _ ≤ _ := le_rfl
      · rw [if_neg cg]
        have cg := not_not.1 cg
        refine ⟨⟨y0, y1⟩, ⟨by simp only; linarith, fun q _ => ?_⟩, ?_, fun _ => rfl, ?_⟩
        · rw [hsame]; exact Real.sqrt_nonneg _
        · simp only; rw [hsame]
        · simp only; rw [hsame, zero_mul]; exact hbound
    · rw [if_neg c0]
      have hz : y0 = 0 := le_antisymm (not_lt.1 c0) hy0
      subst hz
      refine ⟨⟨0, e1⟩, ⟨by simp [h1.ne'], fun q hq => ?_⟩, ?_, fun _ => rfl, ?_⟩
      · have f1 : 1 + (y1 - e1) * e1 / e1 ^ 2 = y1 / e1 := by field_simp; ring
        refine closest_of_normal e0 e1 ((y1 - e1) * e1) _ _ q h0 h1 (by simp [h1.ne']) hq (by simp) ?_ ?_ ?_
        · simp only; rw [f1]; field_simp
        · have : 1 + (y1 - e1) * e1 / e0 ^ 2 = (e0 ^ 2 - e1 ^ 2 + y1 * e1) / e0 ^ 2 := by field_simp; ring
          rw [this]
          apply div_nonneg _ (by positivity)
          nlinarith
        · rw [f1]; positivity
      · simp only; rw [distance_axis_y]
      · simp only; rw [hsame, zero_mul]; exact hbound
  · rw [if_neg c1]
    have hz : y1 = 0 := le_antisymm (not_lt.1 c1) hy1
    subst hz
    by_cases c2 : e0 * y0 < e0 ^ 2 - e1 ^ 2
    · rw [if_pos c2]
      have hden : 0 < e0 ^ 2 - e1 ^ 2 := lt_of_le_of_lt (by positivity) c2
      have hu0 : 0 ≤ e0 * y0 / (e0 ^ 2 - e1 ^ 2) := by positivity
      have hu1 : e0 * y0 / (e0 ^ 2 - e1 ^ 2) < 1 := by rw [div_lt_one hden]; exact c2
      have hsq : Real.sqrt (1 - (e0 * y0 / (e0 ^ 2 - e1 ^ 2)) ^ 2) ^ 2 = 1 - (e0 * y0 / (e0 ^ 2 - e1 ^ 2)) ^ 2 :=
        Real.sq_sqrt (by nlinarith)
      have hu : e0 * y0 / (e0 ^ 2 - e1 ^ 2) * (e0 ^ 2 - e1 ^ 2) = e0 * y0 := by field_simp
      generalize e0 * y0 / (e0 ^ 2 - e1 ^ 2) = u at *
      generalize Real.sqrt (1 - u ^ 2) = w at *
      have hon : (e0 * u / e0) ^ 2 + (e1 * w / e1) ^ 2 = 1 := by
        rw [mul_div_cancel_left₀ _ h0.ne', mul_div_cancel_left₀ _ h1.ne', hsq]; ring
      refine ⟨⟨e0 * u, e1 * w⟩, ⟨hon, fun q hq => ?_⟩, ?_, fun _ => rfl, ?_⟩
      · refine closest_of_normal e0 e1 (-e1 ^ 2) _ _ q h0 h1 hon hq ?_ ?_ ?_ ?_
        · simp only
          have : e0 * u * (1 + -e1 ^ 2 / e0 ^ 2) = u * (e0 ^ 2 - e1 ^ 2) / e0 := by field_simp; ring
          rw [this, hu]; field_simp
        · simp only
          have : 1 + -e1 ^ 2 / e1 ^ 2 = 0 := by field_simp; ring
          rw [this, mul_zero]
        · have : 1 + -e1 ^ 2 / e0 ^ 2 = (e0 ^ 2 - e1 ^ 2) / e0 ^ 2 := by field_simp; ring
          rw [this]; positivity
        · have : 1 + -e1 ^ 2 / e1 ^ 2 = 0 := by field_simp; ring
          rw [this]
      · simp only
        unfold distance
        congr 1
        simp only
        ring
      · simp only; rw [hsame, zero_mul]; exact hbound
    · rw [if_neg c2]
      have c2 := not_lt.1 c2
      refine ⟨⟨e0, 0⟩, ⟨by simp [h0.ne'], fun q hq => ?_⟩, ?_, fun _ => rfl, ?_⟩
      · have f0 : 1 + (y0 - e0) * e0 / e0 ^ 2 = y0 / e0 := by field_simp; ring
        refine closest_of_normal e0 e1 ((y0 - e0) * e0) _ _ q h0 h1 (by simp [h0.ne']) hq ?_ (by simp) ?_ ?_
        · simp only; rw [f0]; field_simp
        · rw [f0]; positivity
        · have : 1 + (y0 - e0) * e0 / e1 ^ 2 = (e1 ^ 2 + e0 * y0 - e0 ^ 2) / e1 ^ 2 := by field_simp; ring
          rw [this]
          apply div_nonneg _ (by positivity)
          linarith
      · simp only; rw [distance_axis_x]
      · simp only; rw [hsame, zero_mul]; exact hbound

/-! ## C138 -/

theorem sign_mul_self (x : ℝ) : sign x * sign x = 1 := by unfold sign; split <;> norm_num

theorem sign_mul_abs (x : ℝ) : sign x * |x| = x := by
  unfold sign
  split
  · rename_i h; rw [one_mul, abs_of_nonneg h]
  · rename_i h; rw [abs_of_neg (not_le.1 h)]; ring

theorem distance_reflect (s t : ℝ) (hs : s * s = 1) (ht : t * t = 1) (a b : Vec ℝ) :
    distance ⟨s * a.x, t * a.y⟩ ⟨s * b.x, t * b.y⟩ = distance a b := by
  unfold distance
  congr 1
  simp only
  linear_combination (a.x - b.x) ^ 2 * hs + (a.y - b.y) ^ 2 * ht

/-- C138. For radii `radius_x ≥ radius_y > 0`, `distance_to_point` returns the distance from the point to the point that is
returned with it. The returned point is a closest point of the ellipse when the given point is on an axis or on the ellipse,
and otherwise differs from a closest point by an error that 1074 halvings make tiny (in exact arithmetic). -/
theorem ellipse_distance_partial (e : Ellipse) (h1 : 0 < e.radiusY) (h01 : e.radiusY ≤ e.radiusX) (p : Vec ℝ) :
    ∃ q ∈ e.points, (∀ q' ∈ e.points, distance p q ≤ distance p q') ∧
      (e.distanceAndPoint p).1 = e.distanceToPoint p ∧ e.distanceToPoint p = distance p (e.distanceAndPoint p).2 ∧
      (along e.center e.angle p = 0 ∨ across e.center e.angle p = 0 ∨ p ∈ e.points → (e.distanceAndPoint p).2 = q) ∧
      distance (e.distanceAndPoint p).2 q * (2 ^ 1074 * |across e.center e.angle p|) ≤
        (1 + e.radiusX * |along e.center e.angle p| / e.radiusY ^ 2) * (e.radiusX + e.radiusY) * e.radiusY := by
  obtain ⟨x, ⟨hx1, hx2⟩, hd, he, hb⟩ := eberly_spec e h1 h01 (e.absInFrame p) (abs_nonneg _) (abs_nonneg _)
  have hfx : (e.absInFrame p).x = |along e.center e.angle p| := by
    rw [← (frame_coordinates e p).1]; rfl
  have hfy : (e.absInFrame p).y = |across e.center e.angle p| := by
    rw [← (frame_coordinates e p).2]; rfl
  set σ := sign (e.pointInFrame p).x with hσ
  set τ := sign (e.pointInFrame p).y with hτ
  have hσ2 : σ * σ = 1 := sign_mul_self _
  have hτ2 : τ * τ = 1 := sign_mul_self _
  have hp : e.pointInFrame p = ⟨σ * (e.absInFrame p).x, τ * (e.absInFrame p).y⟩ := by
    ext
    · exact (sign_mul_abs _).symm
    · exact (sign_mul_abs _).symm
  have hdist : ∀ a, distance p (e.pointFromFrame ⟨σ * a.x, τ * a.y⟩) = distance (e.absInFrame p) a := by
    intro a
    rw [← (frame_isometry e p _).1, (frame_roundtrip e _).2]
    conv_lhs => rw [hp]
    exact distance_reflect σ τ hσ2 hτ2 _ _
  have hpt : (e.distanceAndPoint p).2 = e.pointFromFrame ⟨σ * (e.eberlyDistance (e.absInFrame p)).2.x,
      τ * (e.eberlyDistance (e.absInFrame p)).2.y⟩ := rfl
  have hmem : ∀ a : Vec ℝ, e.pointFromFrame ⟨σ * a.x, τ * a.y⟩ ∈ e.points ↔
      (a.x / e.radiusX) ^ 2 + (a.y / e.radiusY) ^ 2 = 1 := by
    intro a
    rw [mem_points, (frame_roundtrip e _).2]
    have : (σ * a.x / e.radiusX) ^ 2 + (τ * a.y / e.radiusY) ^ 2 = (a.x / e.radiusX) ^ 2 + (a.y / e.radiusY) ^ 2 := by
      linear_combination (a.x / e.radiusX) ^ 2 * hσ2 + (a.y / e.radiusY) ^ 2 * hτ2
    rw [this]
  refine ⟨e.pointFromFrame ⟨σ * x.x, τ * x.y⟩, (hmem x).2 hx1, ?_, rfl, ?_, ?_, ?_⟩
  · intro q' hq'
    have hq : q' = e.pointFromFrame ⟨σ * (σ * (e.pointInFrame q').x), τ * (τ * (e.pointInFrame q').y)⟩ := by
      have e1 : σ * (σ * (e.pointInFrame q').x) = (e.pointInFrame q').x := by rw [← mul_assoc, hσ2, one_mul]
      have e2 : τ * (τ * (e.pointInFrame q').y) = (e.pointInFrame q').y := by rw [← mul_assoc, hτ2, one_mul]
      rw [e1, e2]
      exact (frame_roundtrip e q').1.symm
    have hq'' := hq'
    rw [hq] at hq''
    have hm := (hmem ⟨σ * (e.pointInFrame q').x, τ * (e.pointInFrame q').y⟩).1 hq''
    have := hx2 _ hm
    rw [hdist x]
    conv_rhs => rw [hq]
    rw [hdist ⟨σ * (e.pointInFrame q').x, τ * (e.pointInFrame q').y⟩]
    exact this
  · rw [hpt, hdist]; exact hd
  · intro h
    rw [hpt, he ?_]
    rw [hfx, hfy]
    rcases h with h | h | h
    · left; rw [h, abs_zero]
    · right; left; rw [h, abs_zero]
    · right; right
      have h : ellipseValue e.center e.radiusX e.radiusY e.angle p = 1 := h
      unfold ellipseValue at h
      rw [div_pow, div_pow, sq_abs, sq_abs, ← div_pow, ← div_pow]; exact h
  · rw [hpt, ← (frame_isometry e _ _).1, (frame_roundtrip e _).2, (frame_roundtrip e _).2,
      distance_reflect σ τ hσ2 hτ2, ← hfx, ← hfy]
    exact hb

/-- C138. So the returned distance differs from the least distance to the ellipse by that error at most. -/
theorem ellipse_distance_error (e : Ellipse) (h1 : 0 < e.radiusY) (h01 : e.radiusY ≤ e.radiusX) (p : Vec ℝ) :
    ∃ m, IsLeast {l | ∃ q ∈ e.points, l = distance p q} m ∧
      (along e.center e.angle p = 0 ∨ across e.center e.angle p = 0 ∨ p ∈ e.points → e.distanceToPoint p = m) ∧
      |e.distanceToPoint p - m| * (2 ^ 1074 * |across e.center e.angle p|) ≤
        (1 + e.radiusX * |along e.center e.angle p| / e.radiusY ^ 2) * (e.radiusX + e.radiusY) * e.radiusY := by
  obtain ⟨q, hq, hmin, -, hd, he, hb⟩ := ellipse_distance_partial e h1 h01 p
  refine ⟨distance p q, ⟨⟨q, hq, rfl⟩, ?_⟩, fun h => by rw [hd, he h], ?_⟩
  · rintro l ⟨q', hq', rfl⟩; exact hmin q' hq'
  · refine le_trans (mul_le_mul_of_nonneg_right ?_ (by positivity)) hb
    rw [hd]
    have := abs_sub_le_distance p (e.distanceAndPoint p).2 q
    rwa [distance_symm _ p, distance_symm q p] at this

/-- Not vacuous: an ellipse and a point off the axes. -/
example : 0 < (Ellipse.new ⟨1, 2⟩ 5 3 30).radiusY ∧ (Ellipse.new ⟨1, 2⟩ 5 3 30).radiusY ≤ (Ellipse.new ⟨1, 2⟩ 5 3 30).radiusX := by
  norm_num [Ellipse.new]

/-- C138. But when `radius_y` is the greater radius the result is wrong: for every point of the second axis other than the center which is
nearer to the center than its centers of curvature, a nearer point is on the ellipse. -/
theorem ellipse_distance_wrong (e : Ellipse) (hx : 0 < e.radiusX) (hxy : e.radiusX < e.radiusY) (p : Vec ℝ) (h0 : along e.center e.angle p = 0)
    (h1 : across e.center e.angle p ≠ 0) (h2 : e.radiusY * |across e.center e.angle p| < e.radiusY ^ 2 - e.radiusX ^ 2) :
    ∃ q ∈ e.points, distance p q < e.distanceToPoint p := by
  have hfx := (frame_coordinates e p).1
  have hfy := (frame_coordinates e p).2
  rw [h0] at hfx
  set y := across e.center e.angle p with hy
  set D := e.radiusY ^ 2 - e.radiusX ^ 2 with hD
  have hy0 : 0 < |y| := abs_pos.2 h1
  have hry := hx.trans hxy
  have hD0 : 0 < D := lt_trans (by positivity) h2
  have hyr : |y| < e.radiusY := by nlinarith
  have hu : (e.radiusY * y / D) ^ 2 < 1 := by
    rw [sq_lt_one_iff_abs_lt_one, abs_div, abs_mul, abs_of_pos hry, abs_of_pos hD0, div_lt_one hD0]
    exact h2
  have hsq := Real.sq_sqrt (by linarith : 0 ≤ 1 - (e.radiusY * y / D) ^ 2)
  have hdist : e.distanceToPoint p = e.radiusY - |y| := by
    unfold Ellipse.distanceToPoint Ellipse.absInFrame Ellipse.eberlyDistance
    rw [hfx, hfy]
    simp only [abs_zero, gt_iff_lt, lt_irrefl, if_false, hy0, if_true]
    rw [abs_of_neg (by linarith)]
    ring
  refine ⟨e.pointFromFrame ⟨e.radiusX * Real.sqrt (1 - (e.radiusY * y / D) ^ 2), e.radiusY * (e.radiusY * y / D)⟩, ?_, ?_⟩
  · rw [mem_points, (frame_roundtrip e _).2]
    simp only
    rw [mul_div_cancel_left₀ _ hx.ne', mul_div_cancel_left₀ _ hry.ne', hsq]
    ring
  · rw [hdist, ← (frame_isometry e p _).1, (frame_roundtrip e _).2]
    unfold distance
    rw [hfx, hfy, Real.sqrt_lt' (by linarith)]
    have key : (e.radiusY - |y|) ^ 2 - ((0 - e.radiusX * Real.sqrt (1 - (e.radiusY * y / D) ^ 2)) ^ 2 +
        (y - e.radiusY * (e.radiusY * y / D)) ^ 2) = (D - e.radiusY * |y|) ^ 2 / D := by
      have e1 : (0 - e.radiusX * Real.sqrt (1 - (e.radiusY * y / D) ^ 2)) ^ 2 = e.radiusX ^ 2 * (1 - (e.radiusY * y / D) ^ 2) := by
        rw [zero_sub, neg_sq, mul_pow, hsq]
      have e2 : e.radiusX ^ 2 = e.radiusY ^ 2 - D := by rw [hD]; ring
      rw [e1, e2]
      have e3 := sq_abs y
      field_simp
      linear_combination (D ^ 2 - D * e.radiusY ^ 2) * e3
    have : 0 < (D - e.radiusY * |y|) ^ 2 / D := div_pos (pow_pos (by linarith) 2) hD0
    linarith

/-- For the radii 1 and 2 and the point (0, 1), the result is 1. -/
example :
    (Ellipse.new ⟨0, 0⟩ 1 2).distanceToPoint ⟨0, 1⟩ = 1 ∧ (⟨3 / 5, 8 / 5⟩ : Vec ℝ) ∈ (Ellipse.new ⟨0, 0⟩ 1 2).points ∧
      distance ⟨0, 1⟩ ⟨3 / 5, 8 / 5⟩ < 1 := by
  refine ⟨?_, ?_, ?_⟩
  · have h : (Ellipse.new ⟨0, 0⟩ 1 2).absInFrame ⟨0, 1⟩ = ⟨0, 1⟩ := by
      unfold Ellipse.absInFrame
      rw [(frame_coordinates _ _).1, (frame_coordinates _ _).2]
      simp [along, across, Ellipse.new]
    unfold Ellipse.distanceToPoint
    rw [h]
    unfold Ellipse.eberlyDistance Ellipse.new
    norm_num
  · show ellipseValue _ _ _ _ _ = 1
    simp [ellipseValue, along, across, Ellipse.new]; norm_num
  · unfold distance
    rw [Real.sqrt_lt' one_pos]
    norm_num

/-- The point which is returned is farther from the center than the given point when the parameter of the bisection is at
most 0, and nearer when it is positive. -/
theorem parameter_sign (r0 y0 y1 s : ℝ) (hr : 1 ≤ r0) (hy0 : 0 < y0) (hy1 : 0 < y1) (hs : -1 < s) :
    y0 * y0 + y1 * y1 ≤ r0 * y0 / (s + r0) * (r0 * y0 / (s + r0)) + y1 / (s + 1) * (y1 / (s + 1)) ↔ s ≤ 0 := by
  have p1 : 0 < s + r0 := by linarith
  have p2 : 0 < s + 1 := by linarith
  constructor
  · intro h
    by_contra hc
    have hc := not_le.1 hc
    have a1 : r0 * y0 / (s + r0) < y0 := by rw [div_lt_iff₀ p1]; nlinarith
    have a2 : y1 / (s + 1) < y1 := by rw [div_lt_iff₀ p2]; nlinarith
    have b1 : 0 < r0 * y0 / (s + r0) := by positivity
    have b2 : 0 < y1 / (s + 1) := by positivity
    nlinarith
  · intro h
    have a1 : y0 ≤ r0 * y0 / (s + r0) := by rw [le_div_iff₀ p1]; nlinarith
    have a2 : y1 ≤ y1 / (s + 1) := by rw [le_div_iff₀ p2]; nlinarith
    nlinarith

set_option maxHeartbeats 1000000 in
/-- C138. For an ellipse centred at the origin with `radius_x ≥ radius_y > 0`, `is_point_inside` holds for every point inside or
on the ellipse, and fails for every point outside, except in a layer that 1074 halvings make tiny. -/
theorem ellipse_inside_partial (e : Ellipse) (hc : e.center = ⟨0, 0⟩) (h1 : 0 < e.radiusY) (h01 : e.radiusY ≤ e.radiusX)
    (p : Vec ℝ) :
    (ellipseValue e.center e.radiusX e.radiusY e.angle p ≤ 1 → e.isPointInside p = true) ∧
    ((ellipseValue e.center e.radiusX e.radiusY e.angle p - 1) * 2 ^ 1073 >
        ellipseValue e.center e.radiusX e.radiusY e.angle p * (1 + e.radiusX * |along e.center e.angle p| / e.radiusY ^ 2) →
      e.isPointInside p = false) := by
  have h0 : 0 < e.radiusX := h1.trans_le h01
  generalize hNd : (2 : ℝ) ^ 1073 = N
  have hN : 1 ≤ N := by rw [← hNd]; exact one_le_pow₀ (by norm_num)
  have h1074 : (2 : ℝ) ^ 1074 = 2 * N := by rw [← hNd, show (1074 : ℕ) = 1073 + 1 from rfl, pow_succ]; ring
  clear hNd
  have hv : ellipseValue e.center e.radiusX e.radiusY e.angle p =
      ((e.absInFrame p).x / e.radiusX) ^ 2 + ((e.absInFrame p).y / e.radiusY) ^ 2 := by
    rw [ellipseValue_frame]
    unfold Ellipse.absInFrame
    simp only
    rw [div_pow, div_pow, div_pow, div_pow, sq_abs, sq_abs]
  have hfx : (e.absInFrame p).x = |along e.center e.angle p| := by
    rw [← (frame_coordinates e p).1]; rfl
  rw [hv, ← hfx]
  unfold Ellipse.isPointInside
  have hz : ∀ v : Vec ℝ, v - e.center = v := by intro v; rw [hc]; ext <;> simp
  rw [hz, hz]
  have hy0 : 0 ≤ (e.absInFrame p).x := abs_nonneg _
  have hy1 : 0 ≤ (e.absInFrame p).y := abs_nonneg _
  generalize e.absInFrame p = y at *
  obtain ⟨y0, y1⟩ := y
  simp only at hy0 hy1
  rw [decide_eq_true_eq, decide_eq_false_iff_not]
  unfold Ellipse.eberlyDistance
  simp only
  generalize e.radiusX = e0 at *
  generalize e.radiusY = e1 at *
  by_cases c1 : y1 > 0
  · rw [if_pos c1]
    by_cases c0 : y0 > 0
    · rw [if_pos c0]
      by_cases cg : (y0 / e0) ^ 2 + (y1 / e1) ^ 2 - 1 ≠ 0
      · rw [if_pos cg]
        have hr : 1 ≤ (e0 / e1) ^ 2 := by
          have : 1 ≤ e0 / e1 := (one_le_div h1).2 h01
          nlinarith
        have hz0 : 0 < y0 / e0 := by positivity
        have hz1 : 0 < y1 / e1 := by positivity
        obtain ⟨root, a1, a2, a3, a4, a5⟩ := bisection_spec ((e0 / e1) ^ 2) (y0 / e0) (y1 / e1) hr hz0 hz1 cg
        rw [h1074] at a4
        clear h1074
        have hrz : (e0 / e1) ^ 2 * (y0 / e0) = e0 * y0 / e1 ^ 2 := by field_simp
        generalize Ellipse.distancePointBisection ((e0 / e1) ^ 2) (y0 / e0) (y1 / e1) ((y0 / e0) ^ 2 + (y1 / e1) ^ 2 - 1) = s at *
        set r0 := (e0 / e1) ^ 2 with hr0
        have hps := parameter_sign r0 y0 y1 s hr c0 c1 (by linarith)
        unfold Vec.magnitudeSquare
        simp only
        rw [hps]
        constructor
        · intro h
          exact (a5 (lt_of_le_of_ne (by linarith) cg)).1
        · intro h hs
          have hG : 0 < (y0 / e0) ^ 2 + (y1 / e1) ^ 2 := by positivity
          have hpos : 0 ≤ ((y0 / e0) ^ 2 + (y1 / e1) ^ 2) * (1 + e0 * y0 / e1 ^ 2) := by positivity
          have hv1 : 0 < (y0 / e0) ^ 2 + (y1 / e1) ^ 2 - 1 := by
            by_contra hneg
            have := mul_nonpos_of_nonpos_of_nonneg (not_lt.1 hneg) (by linarith : 0 ≤ N)
            linarith
          -- the root is positive, and bounded below
          have hroot0 : 0 ≤ root := by
            by_contra hneg
            have := bisected_lt r0 (r0 * (y0 / e0)) (y1 / e1) hr (by positivity) hz1 root 0 (by linarith) (not_le.1 hneg)
            rw [a1] at this
            unfold bisected at this
            rw [zero_add, zero_add, div_one, mul_div_cancel_left₀ _ (by positivity)] at this
            linarith
          have hroot : (y0 / e0) ^ 2 + (y1 / e1) ^ 2 - 1 ≤ 2 * root * ((y0 / e0) ^ 2 + (y1 / e1) ^ 2) := by
            unfold bisected at a1
            have b1 : (y1 / e1) ^ 2 * (1 - 2 * root) ≤ (y1 / e1 / (root + 1)) ^ 2 := by
              rw [div_pow (y1 / e1), le_div_iff₀ (by positivity), mul_assoc]
              have : (1 - 2 * root) * (root + 1) ^ 2 ≤ 1 := by
                nlinarith [mul_nonneg hroot0 hroot0, mul_nonneg (mul_nonneg hroot0 hroot0) hroot0]
              nlinarith [sq_nonneg (y1 / e1)]
            have b2 : (y0 / e0) ^ 2 * (1 - 2 * root) ≤ (r0 * (y0 / e0) / (root + r0)) ^ 2 := by
              have hge : y0 / e0 / (root + 1) ≤ r0 * (y0 / e0) / (root + r0) := by
                rw [div_le_div_iff₀ (by linarith) (by linarith)]
                nlinarith [mul_nonneg hz0.le hroot0]
              have hge2 : (y0 / e0 / (root + 1)) ^ 2 ≤ (r0 * (y0 / e0) / (root + r0)) ^ 2 := by
                apply pow_le_pow_left₀ (by positivity) hge
              refine le_trans ?_ hge2
              rw [div_pow (y0 / e0), le_div_iff₀ (by positivity), mul_assoc]
              have : (1 - 2 * root) * (root + 1) ^ 2 ≤ 1 := by
                nlinarith [mul_nonneg hroot0 hroot0, mul_nonneg (mul_nonneg hroot0 hroot0) hroot0]
              nlinarith [sq_nonneg (y0 / e0)]
            linarith
          have hle : root ≤ (1 + r0 * (y0 / e0)) / (2 * N) := by
            have := (abs_le.1 a4).1; linarith
          rw [hrz] at hle
          rw [le_div_iff₀ (by linarith)] at hle
          have : ((y0 / e0) ^ 2 + (y1 / e1) ^ 2 - 1) * N ≤
              ((y0 / e0) ^ 2 + (y1 / e1) ^ 2) * (1 + e0 * y0 / e1 ^ 2) := by
            calc _ ≤ 2 * root * ((y0 / e0) ^ 2 + (y1 / e1) ^ 2) * N := mul_le_mul_of_nonneg_right hroot (by linarith)
              _ = root * (2 * N) * ((y0 / e0) ^ 2 + (y1 / e1) ^ 2) := by ring
              _ ≤ (1 + e0 * y0 / e1 ^ 2) * ((y0 / e0) ^ 2 + (y1 / e1) ^ 2) := mul_le_mul_of_nonneg_right hle hG.le
              _ = _ := by ring
          linarith
      · rw [if_neg cg]
        clear h1074
        have cg := not_not.1 cg
        refine ⟨fun _ => le_rfl, fun h => ?_⟩
        rw [cg, zero_mul] at h
        have : 0 ≤ ((y0 / e0) ^ 2 + (y1 / e1) ^ 2) * (1 + e0 * y0 / e1 ^ 2) := by positivity
        linarith
    · rw [if_neg c0]
      clear h1074
      have hz : y0 = 0 := le_antisymm (not_lt.1 c0) hy0
      subst hz
      unfold Vec.magnitudeSquare
      simp only [zero_div, mul_zero, zero_add, add_zero, mul_one]
      have hiff : (y1 / e1) ^ 2 ≤ 1 ↔ y1 * y1 ≤ e1 * e1 := by
        rw [div_pow, div_le_one (by positivity), sq, sq]
      refine ⟨fun h => hiff.1 (by nlinarith), fun h hc => ?_⟩
      have h2 := hiff.2 hc
      have h3 : 0 ≤ (y1 / e1) ^ 2 := sq_nonneg _
      have h4 : ((0 : ℝ) ^ 2 + (y1 / e1) ^ 2 - 1) * N ≤ 0 := mul_nonpos_of_nonpos_of_nonneg (by nlinarith) (by linarith)
      nlinarith
  · rw [if_neg c1]
    clear h1074
    have hz : y1 = 0 := le_antisymm (not_lt.1 c1) hy1
    subst hz
    by_cases c2 : e0 * y0 < e0 ^ 2 - e1 ^ 2
    · rw [if_pos c2]
      have hden : 0 < e0 ^ 2 - e1 ^ 2 := lt_of_le_of_lt (by positivity) c2
      have hu0 : 0 ≤ e0 * y0 / (e0 ^ 2 - e1 ^ 2) := by positivity
      have hx0 : y0 ≤ e0 * (e0 * y0 / (e0 ^ 2 - e1 ^ 2)) := by
        rw [← mul_div_assoc, le_div_iff₀ hden]
        nlinarith [mul_nonneg hy0 (sq_nonneg e1)]
      have hy0' : y0 < e0 := by nlinarith
      have hval : (y0 / e0) ^ 2 + ((0 : ℝ) / e1) ^ 2 < 1 := by
        rw [zero_div, div_pow]
        have : y0 ^ 2 / e0 ^ 2 < 1 := by rw [div_lt_one (by positivity)]; nlinarith
        linarith
      unfold Vec.magnitudeSquare
      simp only
      constructor
      · intro _
        nlinarith [mul_self_nonneg (e1 * Real.sqrt (1 - (e0 * y0 / (e0 ^ 2 - e1 ^ 2)) ^ 2))]
      · intro h
        have : 0 ≤ ((y0 / e0) ^ 2 + ((0 : ℝ) / e1) ^ 2) * (1 + e0 * y0 / e1 ^ 2) := by positivity
        have h4 : ((y0 / e0) ^ 2 + ((0 : ℝ) / e1) ^ 2 - 1) * N ≤ 0 :=
          mul_nonpos_of_nonpos_of_nonneg (by linarith) (by linarith)
        linarith
    · rw [if_neg c2]
      unfold Vec.magnitudeSquare
      simp only [mul_zero, add_zero]
      have hiff : (y0 / e0) ^ 2 + ((0 : ℝ) / e1) ^ 2 ≤ 1 ↔ y0 * y0 ≤ e0 * e0 := by
        rw [zero_div, div_pow, zero_pow two_ne_zero, add_zero, div_le_one (by positivity), sq, sq]
      refine ⟨fun h => hiff.1 h, fun h hc => ?_⟩
      have h2 := hiff.2 hc
      have : 0 ≤ ((y0 / e0) ^ 2 + ((0 : ℝ) / e1) ^ 2) * (1 + e0 * y0 / e1 ^ 2) := by positivity
      have h4 : ((y0 / e0) ^ 2 + ((0 : ℝ) / e1) ^ 2 - 1) * N ≤ 0 :=
        mul_nonpos_of_nonpos_of_nonneg (by linarith) (by linarith)
      linarith

/-- C138. The points of the frame are compared with the center as if it were in the frame too: for an ellipse whose center is at least
`radius_y` above the axis, all the points inside the ellipse on its second axis, but the center, are found outside, and the points of this axis
which are outside are found inside, up to twice the ordinate of the center. -/
theorem ellipse_inside_wrong (e : Ellipse) (hry : 0 < e.radiusY) (hc : e.radiusY ≤ e.center.y) (p : Vec ℝ)
    (h0 : along e.center e.angle p = 0) (h1 : across e.center e.angle p ≠ 0) :
    (ellipseValue e.center e.radiusX e.radiusY e.angle p < 1 → e.isPointInside p = false) ∧
    (1 < ellipseValue e.center e.radiusX e.radiusY e.angle p → |across e.center e.angle p| + e.radiusY ≤ 2 * e.center.y →
      e.isPointInside p = true) := by
  have hfx := (frame_coordinates e p).1
  have hfy := (frame_coordinates e p).2
  rw [h0] at hfx
  have hv : ellipseValue e.center e.radiusX e.radiusY e.angle p = (across e.center e.angle p / e.radiusY) ^ 2 := by
    unfold ellipseValue
    rw [h0]
    ring
  rw [hv]
  set y := across e.center e.angle p with hy
  have hy0 : 0 < |y| := abs_pos.2 h1
  have hin : e.isPointInside p = decide ((|y| - e.center.y) ^ 2 ≤ (e.radiusY - e.center.y) ^ 2) := by
    unfold Ellipse.isPointInside Ellipse.absInFrame Ellipse.eberlyDistance Vec.magnitudeSquare
    rw [hfx, hfy]
    simp only [abs_zero, gt_iff_lt, lt_irrefl, if_false, hy0, if_true, Vec.sub_x, Vec.sub_y]
    congr 1
    rw [eq_iff_iff]
    constructor <;> intro h <;> nlinarith
  rw [hin, decide_eq_false_iff_not, decide_eq_true_eq, sq_lt_one_iff_abs_lt_one, one_lt_sq_iff_one_lt_abs, abs_div, abs_of_pos hry,
    div_lt_one hry, one_lt_div hry]
  constructor
  · intro h
    rw [not_le]
    nlinarith
  · intro h h'
    nlinarith

/-- For the center (10, 0) and the radii 2 and 1 the point (11, 0), which is inside, is found outside too. -/
example :
    ellipseValue ⟨10, 0⟩ 2 1 0 ⟨11, 0⟩ < 1 ∧ (Ellipse.new ⟨10, 0⟩ 2 1).isPointInside ⟨11, 0⟩ = false := by
  constructor
  · simp [ellipseValue, along, across]; norm_num
  · have h : (Ellipse.new ⟨10, 0⟩ 2 1).absInFrame ⟨11, 0⟩ = ⟨1, 0⟩ := by
      unfold Ellipse.absInFrame
      rw [(frame_coordinates _ _).1, (frame_coordinates _ _).2]
      simp [along, across, Ellipse.new]; norm_num
    unfold Ellipse.isPointInside
    rw [h, decide_eq_false_iff_not]
    unfold Ellipse.eberlyDistance Ellipse.new Vec.magnitudeSquare
    norm_num
    have h5 : Real.sqrt 5 * Real.sqrt 5 = 5 := Real.mul_self_sqrt (by norm_num)
    have h9 : Real.sqrt 9 = 3 := by rw [show (9 : ℝ) = 3 ^ 2 by norm_num]; exact Real.sqrt_sq (by norm_num)
    rw [h9]
    linarith

/-- Not vacuous: points inside and outside of the ellipse with radii 2 and 1. -/
example : ellipseValue ⟨0, 0⟩ 2 1 0 ⟨1, 1 / 2⟩ ≤ 1 ∧
    (ellipseValue ⟨0, 0⟩ 2 1 0 ⟨1, 1⟩ - 1) * 2 ^ 1073 > ellipseValue ⟨0, 0⟩ 2 1 0 ⟨1, 1⟩ * (1 + 2 * |along ⟨0, 0⟩ 0 ⟨1, 1⟩| / 1 ^ 2) := by
  have h : ellipseValue ⟨0, 0⟩ 2 1 0 ⟨1, 1⟩ = 5 / 4 := by simp [ellipseValue, along, across]; norm_num
  have h2 : along ⟨0, 0⟩ 0 ⟨1, 1⟩ = 1 := by simp [along]
  constructor
  · simp [ellipseValue, along, across]; norm_num
  · rw [h, h2]
    have : (2 : ℝ) ^ 4 < 2 ^ 1073 := pow_lt_pow_right₀ (by norm_num) (by norm_num)
    generalize (2 : ℝ) ^ 1073 = N at *
    norm_num at this ⊢
    linarith

/-! ## C139 -/

/-- C139. `intersect_segment` of an ellipse with positive radii: when the line meets the ellipse twice it returns exactly the
two common points; but when the line is tangent it raises `AttributeError`, and when it misses the ellipse `TypeError`. -/
theorem ellipse_intersect (e : Ellipse) (hx : 0 < e.radiusX) (hy : 0 < e.radiusY) (seg : Segment ℝ) (hne : seg.p0 ≠ seg.p1) :
    (∃ p0 p1, e.intersectSegment seg = .ok [p0, p1] ∧ p0 ≠ p1 ∧
      ∀ q, (seg.toLine.Contains q ∧ q ∈ e.points) ↔ q = p0 ∨ q = p1) ∨
    (e.intersectSegment seg = .error .attributeError ∧ ∃ p, ∀ q, (seg.toLine.Contains q ∧ q ∈ e.points) ↔ q = p) ∨
    (e.intersectSegment seg = .error .typeError ∧ ∀ q, ¬ (seg.toLine.Contains q ∧ q ∈ e.points)) := by
  set k := e.radiusX / e.radiusY with hk
  have hk0 : 0 < k := by positivity
  set f := fun p : Vec ℝ => (⟨(e.pointInFrame p).x, (e.pointInFrame p).y * k⟩ : Vec ℝ) with hf
  set g := fun p : Vec ℝ => e.pointFromFrame ⟨p.x, p.y / k⟩ with hg
  have hgf : ∀ p, g (f p) = p := by
    intro p
    simp only [hf, hg]
    rw [mul_div_cancel_right₀ _ hk0.ne']
    exact (frame_roundtrip e p).1
  have hfg : ∀ p, f (g p) = p := by
    intro p
    simp only [hf, hg]
    rw [(frame_roundtrip e _).2]
    ext
    · rfl
    · simp only; field_simp
  have hmem : ∀ q, q ∈ e.points ↔ f q ∈ circlePoints ⟨0, 0⟩ e.radiusX := by
    intro q
    rw [mem_points]
    show _ ↔ distance _ _ = _
    unfold distance
    rw [Real.sqrt_eq_iff_mul_self_eq (by positivity) hx.le]
    simp only [hf, sub_zero]
    have : (e.pointInFrame q).x ^ 2 + ((e.pointInFrame q).y * k) ^ 2 =
        e.radiusX ^ 2 * (((e.pointInFrame q).x / e.radiusX) ^ 2 + ((e.pointInFrame q).y / e.radiusY) ^ 2) := by
      rw [hk]; field_simp
    rw [this]
    constructor
    · intro h; rw [h]; ring
    · intro h
      have h2 : e.radiusX ^ 2 ≠ 0 := by positivity
      apply mul_left_cancel₀ h2
      linarith
  have haff : ∀ (a b : Vec ℝ) (s : ℝ), f ⟨a.x + s * (b.x - a.x), a.y + s * (b.y - a.y)⟩ =
      ⟨(f a).x + s * ((f b).x - (f a).x), (f a).y + s * ((f b).y - (f a).y)⟩ := by
    intro a b s
    simp only [hf, Ellipse.pointInFrame, Vec.rotate]
    ext
    · simp; ring
    · simp; ring
  have hline : ∀ q, seg.toLine.Contains q ↔ (⟨f seg.p0, f seg.p1⟩ : Segment ℝ).toLine.Contains (f q) := by
    intro q
    unfold Line.Contains Segment.toLine Line.fromTwoPoints
    simp only [Vec.sub_x, Vec.sub_y]
    constructor
    · rintro ⟨s, rfl⟩; exact ⟨s, haff _ _ _⟩
    · rintro ⟨s, hs⟩
      refine ⟨s, ?_⟩
      rw [← haff] at hs
      rw [← hgf q, hs, hgf]
  have hne' : f seg.p0 ≠ f seg.p1 := fun h => hne (by rw [← hgf seg.p0, h, hgf])
  have hboth : ∀ q, (seg.toLine.Contains q ∧ q ∈ e.points) ↔
      ((⟨f seg.p0, f seg.p1⟩ : Segment ℝ).toLine.Contains (f q) ∧ f q ∈ circlePoints ⟨0, 0⟩ e.radiusX) := by
    intro q; rw [hline, hmem]
  have hfeq : ∀ q p, f q = p ↔ q = g p := by
    intro q p
    constructor
    · intro h; rw [← h, hgf]
    · intro h; rw [h, hfg]
  have hstart : e.intersectSegment seg = (do
      match ← (⟨⟨0, 0⟩, e.radiusX, none⟩ : Circle ℝ).intersectSegment ⟨f seg.p0, f seg.p1⟩ with
      | .none => .error .typeError
      | .one _ => .error .attributeError
      | .two p0 p1 =>
        let y0 ← Vec.pyDiv p0.y k
        let y1 ← Vec.pyDiv p1.y k
        return [e.pointFromFrame ⟨p0.x, y0⟩, e.pointFromFrame ⟨p1.x, y1⟩]) := by
    unfold Ellipse.intersectSegment
    rw [show Vec.pyDiv e.radiusX e.radiusY = .ok k by unfold Vec.pyDiv; rw [if_neg hy.ne']]
    rfl
  rcases intersectSegment_spec ⟨⟨0, 0⟩, e.radiusX, none⟩ hx.le ⟨f seg.p0, f seg.p1⟩ hne' with ⟨h, hq⟩ | ⟨p, h, hq⟩ | ⟨p0, p1, h, hd, hq⟩
  · right; right
    refine ⟨by rw [hstart, h]; rfl, fun q => ?_⟩
    rw [hboth]; exact hq (f q)
  · right; left
    refine ⟨by rw [hstart, h]; rfl, g p, fun q => ?_⟩
    rw [hboth, hq (f q), hfeq]
  · left
    refine ⟨g p0, g p1, ?_, ?_, fun q => ?_⟩
    · rw [hstart, h]
      simp only [bind, Except.bind, Vec.pyDiv, if_neg hk0.ne']
      rfl
    · intro hc; exact hd (by rw [← hfg p0, hc, hfg])
    · rw [hboth, hq (f q), hfeq, hfeq]

/-- Not vacuous: the x axis meets the ellipse with radii 2 and 1 at two points. -/
example : ∃ p0 p1, (Ellipse.new ⟨0, 0⟩ 2 1).intersectSegment ⟨⟨0, 0⟩, ⟨1, 0⟩⟩ = .ok [p0, p1] := by
  have hc : (⟨⟨0, 0⟩, ⟨1, 0⟩⟩ : Segment ℝ).toLine.Contains ⟨2, 0⟩ ∧ (⟨2, 0⟩ : Vec ℝ) ∈ (Ellipse.new ⟨0, 0⟩ 2 1).points := by
    refine ⟨⟨2, by simp [Segment.toLine, Line.fromTwoPoints]⟩, ?_⟩
    show ellipseValue _ _ _ _ _ = 1
    simp [ellipseValue, along, across, Ellipse.new]
  have hc' : (⟨⟨0, 0⟩, ⟨1, 0⟩⟩ : Segment ℝ).toLine.Contains ⟨-2, 0⟩ ∧ (⟨-2, 0⟩ : Vec ℝ) ∈ (Ellipse.new ⟨0, 0⟩ 2 1).points := by
    refine ⟨⟨-2, by simp [Segment.toLine, Line.fromTwoPoints]⟩, ?_⟩
    show ellipseValue _ _ _ _ _ = 1
    simp [ellipseValue, along, across, Ellipse.new]
  rcases ellipse_intersect (Ellipse.new ⟨0, 0⟩ 2 1) (by norm_num [Ellipse.new]) (by norm_num [Ellipse.new]) ⟨⟨0, 0⟩, ⟨1, 0⟩⟩
    (by simp) with ⟨p0, p1, h, -⟩ | ⟨-, p, h⟩ | ⟨-, h⟩
  · exact ⟨p0, p1, h⟩
  · have := ((h _).1 hc).trans ((h _).1 hc').symm
    simp at this; norm_num at this
  · exact absurd hc (h _)

/-- C139. A segment whose ends coincide raises `ZeroDivisionError`, and so does a null `radius_y`. -/
theorem ellipse_intersect_null (e : Ellipse) (p : Vec ℝ) (seg : Segment ℝ) :
    (e.radiusY ≠ 0 → e.intersectSegment ⟨p, p⟩ = .error .zeroDivisionError) ∧
    (e.radiusY = 0 → e.intersectSegment seg = .error .zeroDivisionError) := by
  unfold Ellipse.intersectSegment Vec.pyDiv
  constructor
  · intro h
    simp only [if_neg h, bind, Except.bind, intersectSegment_null]
  · intro h
    simp only [if_pos h, bind, Except.bind]

end Patro.Conic
