import Verif.Spec.Line
import Verif.Proof.Vector
import Mathlib.Tactic.Linarith
import Mathlib.Tactic.Ring
import Mathlib.Tactic.LinearCombination
import Mathlib.Tactic.FieldSimp
import Mathlib.Tactic.Positivity
/-! # Lines and segments -/

namespace Patro

open Triangle

variable {K : Type _} [Field K] [LinearOrder K] [IsStrictOrderedRing K]

theorem between_symm {a b q : Vec K} (h : Between a b q) : Between b a q := by
  obtain ⟨t, h0, h1, rfl⟩ := h
  refine ⟨1 - t, by linarith, by linarith, ?_⟩
  ext <;> simp only <;> ring

theorem distance_eq (a b : Vec ℝ) : (a - b).magnitude = distance a b := by
  unfold Vec.magnitude distance Vec.magnitudeSquare
  congr 1
  simp only [Vec.sub_x, Vec.sub_y]; ring

/-- A vector collinear with a non null one is a multiple of it. -/
theorem multiple_of_cross (dx1 dy1 dx2 dy2 : K) (h : dx1 * dy2 = dx2 * dy1) (hn : dx1 ≠ 0 ∨ dy1 ≠ 0) :
    dx2 = (dx1 * dx2 + dy1 * dy2) / (dx1 * dx1 + dy1 * dy1) * dx1 ∧
    dy2 = (dx1 * dx2 + dy1 * dy2) / (dx1 * dx1 + dy1 * dy1) * dy1 := by
  have hpos : 0 < dx1 * dx1 + dy1 * dy1 := by
    rcases hn with hn | hn
    · have := mul_self_pos.2 hn
      have := mul_self_nonneg dy1; linarith
    · have := mul_self_pos.2 hn
      have := mul_self_nonneg dx1; linarith
  have h0 := hpos.ne'
  constructor
  · rw [div_mul_eq_mul_div, eq_div_iff h0]
    linear_combination (-dy1) * h
  · rw [div_mul_eq_mul_div, eq_div_iff h0]
    linear_combination dx1 * h

/-- `triangle_orientation` is null exactly when the third point is on the segment joining the first two. -/
theorem orientation_zero_iff (a b c : Vec K) : triangleOrientation a b c = 0 ↔ Between a b c := by
  unfold triangleOrientation
  simp only
  generalize hx1 : b.x - a.x = dx1
  generalize hy1 : b.y - a.y = dy1
  generalize hx2 : c.x - a.x = dx2
  generalize hy2 : c.y - a.y = dy2
  have hb : Between a b c ↔ ∃ t, 0 ≤ t ∧ t ≤ 1 ∧ dx2 = t * dx1 ∧ dy2 = t * dy1 := by
    unfold Between
    refine exists_congr fun t => and_congr_right fun _ => and_congr_right fun _ => ?_
    rw [Vec.ext_iff]
    simp only
    rw [← hx1, ← hy1, ← hx2, ← hy2]
    constructor
    · rintro ⟨h1, h2⟩; exact ⟨by linear_combination h1, by linear_combination h2⟩
    · rintro ⟨h1, h2⟩; exact ⟨by linear_combination h1, by linear_combination h2⟩
  rw [hb]
  constructor
  · intro h
    split at h
    · cases h
    · split at h
      · cases h
      · split at h
        · cases h
        · split at h
          · rename_i h1 h2 h3 h4
            push Not at h3
            have hc : dx1 * dy2 = dx2 * dy1 := le_antisymm (not_lt.1 h1) (not_lt.1 h2)
            by_cases hn : dx1 ≠ 0 ∨ dy1 ≠ 0
            · obtain ⟨e1, e2⟩ := multiple_of_cross dx1 dy1 dx2 dy2 hc hn
              have hpos : 0 < dx1 * dx1 + dy1 * dy1 := by
                rcases hn with hn | hn
                · have := mul_self_pos.2 hn
                  have := mul_self_nonneg dy1; linarith
                · have := mul_self_pos.2 hn
                  have := mul_self_nonneg dx1; linarith
              refine ⟨_, ?_, ?_, e1, e2⟩
              · exact div_nonneg (by linarith [h3.1, h3.2]) hpos.le
              · generalize (dx1 * dx2 + dy1 * dy2) / (dx1 * dx1 + dy1 * dy1) = t at e1 e2
                by_contra ht
                push Not at ht
                have : dx2 * dx2 + dy2 * dy2 = t * t * (dx1 * dx1 + dy1 * dy1) := by rw [e1, e2]; ring
                rw [this] at h4
                have : 1 < t * t := by nlinarith
                nlinarith
            · push Not at hn
              obtain ⟨rfl, rfl⟩ := hn
              have h5 : dx2 * dx2 + dy2 * dy2 ≤ 0 := by simpa using h4
              have h6 := mul_self_nonneg dx2
              have h7 := mul_self_nonneg dy2
              refine ⟨0, le_refl _, zero_le_one, ?_, ?_⟩
              · rw [mul_zero]; exact mul_self_eq_zero.1 (by linarith)
              · rw [mul_zero]; exact mul_self_eq_zero.1 (by linarith)
          · cases h
  · rintro ⟨t, h0, h1, rfl, rfl⟩
    have hs1 := mul_self_nonneg dx1
    have hs2 := mul_self_nonneg dy1
    rw [if_neg (by rw [not_lt]; apply le_of_eq; ring), if_neg (by rw [not_lt]; apply le_of_eq; ring), if_neg, if_pos]
    · have : t * t ≤ 1 := by nlinarith
      nlinarith
    · push Not
      constructor
      · have : dx1 * (t * dx1) = t * (dx1 * dx1) := by ring
        rw [this]; exact mul_nonneg h0 hs1
      · have : dy1 * (t * dy1) = t * (dy1 * dy1) := by ring
        rw [this]; exact mul_nonneg h0 hs2

/-- The values of `triangle_orientation` bound the cross product. -/
theorem orientation_cases (a b c : Vec K) :
    (triangleOrientation a b c = 1 ∨ triangleOrientation a b c = -1 ∨ triangleOrientation a b c = 0) ∧
    (triangleOrientation a b c = 1 → 0 ≤ (b - a).cross (c - a) ∧
      ((b - a).cross (c - a) = 0 → 0 ≤ (b - a).dot (c - a))) ∧
    (triangleOrientation a b c = -1 → (b - a).cross (c - a) ≤ 0 ∧
      ((b - a).cross (c - a) = 0 → (b - a).dot (c - a) < 0)) ∧
    (0 < (b - a).cross (c - a) → triangleOrientation a b c = 1) ∧
    ((b - a).cross (c - a) < 0 → triangleOrientation a b c = -1) := by
  unfold triangleOrientation Vec.cross Vec.dot
  simp only [Vec.sub_x, Vec.sub_y]
  generalize hx1 : b.x - a.x = dx1
  generalize hy1 : b.y - a.y = dy1
  generalize hx2 : c.x - a.x = dx2
  generalize hy2 : c.y - a.y = dy2
  refine ⟨?_, ?_, ?_, ?_, ?_⟩
  · split
    · exact Or.inl rfl
    · split
      · exact Or.inr (Or.inl rfl)
      · split
        · exact Or.inr (Or.inl rfl)
        · split
          · exact Or.inr (Or.inr rfl)
          · exact Or.inl rfl
  · intro h
    split at h
    · rename_i h1
      refine ⟨by linarith [mul_comm dx2 dy1], fun e => ?_⟩
      exfalso; linarith [mul_comm dx2 dy1]
    · split at h
      · cases h
      · split at h
        · cases h
        · rename_i h1 h2 h3
          push Not at h3
          exact ⟨by linarith [mul_comm dx2 dy1], fun _ => by linarith [h3.1, h3.2]⟩
  · intro h
    split at h
    · cases h
    · split at h
      · rename_i h1 h2
        refine ⟨by linarith [mul_comm dx2 dy1], fun e => ?_⟩
        exfalso; linarith [mul_comm dx2 dy1]
      · split at h
        · rename_i h1 h2 h3
          refine ⟨by linarith [mul_comm dx2 dy1], fun e => ?_⟩
          have hc : dx1 * dy2 = dx2 * dy1 := by linear_combination e
          have hn : dx1 ≠ 0 ∨ dy1 ≠ 0 := by
            rcases h3 with h3 | h3
            · left; rintro rfl; simp at h3
            · right; rintro rfl; simp at h3
          obtain ⟨e1, e2⟩ := multiple_of_cross dx1 dy1 dx2 dy2 hc hn
          generalize (dx1 * dx2 + dy1 * dy2) / (dx1 * dx1 + dy1 * dy1) = t at e1 e2
          have hs1 := mul_self_nonneg dx1
          have hs2 := mul_self_nonneg dy1
          have ht : t < 0 := by
            by_contra ht
            push Not at ht
            rcases h3 with h3 | h3
            · rw [e1] at h3
              have : dx1 * (t * dx1) = t * (dx1 * dx1) := by ring
              rw [this] at h3
              exact absurd h3 (not_lt.2 (mul_nonneg ht hs1))
            · rw [e2] at h3
              have : dy1 * (t * dy1) = t * (dy1 * dy1) := by ring
              rw [this] at h3
              exact absurd h3 (not_lt.2 (mul_nonneg ht hs2))
          have hpos : 0 < dx1 * dx1 + dy1 * dy1 := by
            rcases hn with hn | hn
            · have := mul_self_pos.2 hn; linarith
            · have := mul_self_pos.2 hn; linarith
          have : dx1 * dx2 + dy1 * dy2 = t * (dx1 * dx1 + dy1 * dy1) := by rw [e1, e2]; ring
          rw [this]
          exact mul_neg_of_neg_of_pos ht hpos
        · split at h <;> cases h
  · intro h
    rw [if_pos (by linarith [mul_comm dx2 dy1])]
  · intro h
    rw [if_neg (by linarith [mul_comm dx2 dy1]), if_pos (by linarith [mul_comm dx2 dy1])]

/-- Weak sign condition from the product of two orientations. -/
theorem cross_mul_nonpos {a b c d : Vec K} (h : triangleOrientation a b c * triangleOrientation a b d < 0) :
    (b - a).cross (c - a) * (b - a).cross (d - a) ≤ 0 ∧
    ((b - a).cross (c - a) = 0 → (b - a).cross (d - a) = 0 →
      ((0 ≤ (b - a).dot (c - a) ∧ (b - a).dot (d - a) < 0) ∨ ((b - a).dot (c - a) < 0 ∧ 0 ≤ (b - a).dot (d - a)))) := by
  obtain ⟨hc0, hc1, hc2, _, _⟩ := orientation_cases a b c
  obtain ⟨hd0, hd1, hd2, _, _⟩ := orientation_cases a b d
  rcases hc0 with hc | hc | hc <;> rcases hd0 with hd | hd | hd <;> rw [hc, hd] at h <;> try (norm_num at h)
  · have h1 := hc1 hc
    have h2 := hd2 hd
    exact ⟨mul_nonpos_of_nonneg_of_nonpos h1.1 h2.1, fun e1 e2 => Or.inl ⟨h1.2 e1, h2.2 e2⟩⟩
  · have h1 := hc2 hc
    have h2 := hd1 hd
    exact ⟨mul_nonpos_of_nonpos_of_nonneg h1.1 h2.1, fun e1 e2 => Or.inr ⟨h1.2 e1, h2.2 e2⟩⟩

/-- A value of an interval seen from its parameter. -/
theorem mem_of_mul_nonneg {s : K} (h : 0 ≤ s * (1 - s)) : 0 ≤ s ∧ s ≤ 1 := by
  constructor
  · by_contra hs; push Not at hs; nlinarith
  · by_contra hs; push Not at hs; nlinarith

theorem cross_ne {p0 p1 q0 q1 : Vec K} (h1 : triangleOrientation p0 p1 q0 * triangleOrientation p0 p1 q1 < 0)
    (h2 : triangleOrientation q0 q1 p0 * triangleOrientation q0 q1 p1 < 0)
    (hD : (p1 - p0).cross (q1 - q0) ≠ 0) : ∃ q, Between p0 p1 q ∧ Between q0 q1 q := by
  obtain ⟨hx, _⟩ := cross_mul_nonpos h1
  obtain ⟨hy, _⟩ := cross_mul_nonpos h2
  generalize hDe : (p1 - p0).cross (q1 - q0) = D at hD
  unfold Vec.cross at hx hy hDe
  simp only [Vec.sub_x, Vec.sub_y] at hx hy hDe
  have hD2 : 0 < D * D := mul_self_pos.2 hD
  generalize hs : ((q1.x - q0.x) * (p0.y - q0.y) - (q1.y - q0.y) * (p0.x - q0.x)) / D = s
  generalize hu : -((p1.x - p0.x) * (q0.y - p0.y) - (p1.y - p0.y) * (q0.x - p0.x)) / D = u
  rw [div_eq_iff hD] at hs hu
  have es : 0 ≤ s * (1 - s) := by
    have : D * D * (s * (1 - s)) = -(((q1.x - q0.x) * (p0.y - q0.y) - (q1.y - q0.y) * (p0.x - q0.x)) *
        ((q1.x - q0.x) * (p1.y - q0.y) - (q1.y - q0.y) * (p1.x - q0.x))) := by
      have e2 : (q1.x - q0.x) * (p1.y - q0.y) - (q1.y - q0.y) * (p1.x - q0.x) = s * D - D := by
        linear_combination hs - hDe
      rw [e2, hs]; ring
    by_contra hneg
    push Not at hneg
    nlinarith
  have eu : 0 ≤ u * (1 - u) := by
    have : D * D * (u * (1 - u)) = -(((p1.x - p0.x) * (q0.y - p0.y) - (p1.y - p0.y) * (q0.x - p0.x)) *
        ((p1.x - p0.x) * (q1.y - p0.y) - (p1.y - p0.y) * (q1.x - p0.x))) := by
      have e1 : (p1.x - p0.x) * (q0.y - p0.y) - (p1.y - p0.y) * (q0.x - p0.x) = -(u * D) := by
        linear_combination -hu
      have e2 : (p1.x - p0.x) * (q1.y - p0.y) - (p1.y - p0.y) * (q1.x - p0.x) = D - u * D := by
        linear_combination e1 + hDe
      rw [e1, e2]; ring
    by_contra hneg
    push Not at hneg
    nlinarith
  obtain ⟨s0, s1⟩ := mem_of_mul_nonneg es
  obtain ⟨u0, u1⟩ := mem_of_mul_nonneg eu
  refine ⟨_, ⟨s, s0, s1, rfl⟩, u, u0, u1, ?_⟩
  ext <;> simp only
  · apply mul_left_cancel₀ hD
    linear_combination (-p0.x + p1.x) * (-1) * hs - (-q0.x + q1.x) * (-1) * hu + (p0.x - q0.x) * hDe * (-1)
  · apply mul_left_cancel₀ hD
    linear_combination (-p0.y + p1.y) * (-1) * hs - (-q0.y + q1.y) * (-1) * hu + (p0.y - q0.y) * hDe * (-1)

/-- Opposite orientations on both sides mean a common point. -/
theorem share_of_opposite {p0 p1 q0 q1 : Vec K}
    (h1 : triangleOrientation p0 p1 q0 * triangleOrientation p0 p1 q1 < 0)
    (h2 : triangleOrientation q0 q1 p0 * triangleOrientation q0 q1 p1 < 0) :
    ∃ q, Between p0 p1 q ∧ Between q0 q1 q := by
  by_cases hD : (p1 - p0).cross (q1 - q0) = 0
  · obtain ⟨hx, hx0⟩ := cross_mul_nonpos h1
    have e : (p1 - p0).cross (q1 - p0) = (p1 - p0).cross (q0 - p0) := by
      unfold Vec.cross at hD ⊢
      simp only [Vec.sub_x, Vec.sub_y] at hD ⊢
      linear_combination hD
    have hz : (p1 - p0).cross (q0 - p0) = 0 := by
      rw [e] at hx
      exact mul_self_eq_zero.1 (le_antisymm hx (mul_self_nonneg _))
    have hz' : (p1 - p0).cross (q1 - p0) = 0 := by rw [e, hz]
    have hdot := hx0 hz hz'
    unfold Vec.cross Vec.dot at *
    simp only [Vec.sub_x, Vec.sub_y] at *
    have hn : p1.x - p0.x ≠ 0 ∨ p1.y - p0.y ≠ 0 := by
      by_contra hcon
      push Not at hcon
      rw [hcon.1, hcon.2] at hdot
      simp at hdot
    obtain ⟨a1, a2⟩ := multiple_of_cross _ _ (q0.x - p0.x) (q0.y - p0.y) (by linear_combination hz) hn
    obtain ⟨b1, b2⟩ := multiple_of_cross _ _ (q1.x - p0.x) (q1.y - p0.y) (by linear_combination hz') hn
    have hpos : 0 < (p1.x - p0.x) * (p1.x - p0.x) + (p1.y - p0.y) * (p1.y - p0.y) := by
      have := mul_self_nonneg (p1.x - p0.x)
      have := mul_self_nonneg (p1.y - p0.y)
      rcases hn with hn | hn
      · have := mul_self_pos.2 hn; linarith
      · have := mul_self_pos.2 hn; linarith
    generalize hτ : ((p1.x - p0.x) * (q0.x - p0.x) + (p1.y - p0.y) * (q0.y - p0.y)) /
      ((p1.x - p0.x) * (p1.x - p0.x) + (p1.y - p0.y) * (p1.y - p0.y)) = τ at a1 a2
    generalize hσ : ((p1.x - p0.x) * (q1.x - p0.x) + (p1.y - p0.y) * (q1.y - p0.y)) /
      ((p1.x - p0.x) * (p1.x - p0.x) + (p1.y - p0.y) * (p1.y - p0.y)) = σ at b1 b2
    have hp0 : Between p0 p1 p0 := ⟨0, le_refl _, zero_le_one, by ext <;> simp⟩
    refine ⟨p0, hp0, ?_⟩
    have key : ∃ w, 0 ≤ w ∧ w ≤ 1 ∧ (1 - w) * τ + w * σ = 0 := by
      rcases hdot with ⟨g1, g2⟩ | ⟨g1, g2⟩
      · have ht : 0 ≤ τ := by rw [← hτ]; exact div_nonneg g1 hpos.le
        have hs : σ < 0 := by rw [← hσ]; exact div_neg_of_neg_of_pos g2 hpos
        have hd : 0 < τ - σ := by linarith
        refine ⟨τ / (τ - σ), div_nonneg ht hd.le, (div_le_one hd).2 (by linarith), ?_⟩
        field_simp; ring
      · have ht : τ < 0 := by rw [← hτ]; exact div_neg_of_neg_of_pos g1 hpos
        have hs : 0 ≤ σ := by rw [← hσ]; exact div_nonneg g2 hpos.le
        have hd : 0 < σ - τ := by linarith
        refine ⟨-τ / (σ - τ), div_nonneg (by linarith) hd.le, (div_le_one hd).2 (by linarith), ?_⟩
        field_simp; ring
    obtain ⟨w, w0, w1, hw⟩ := key
    refine ⟨w, w0, w1, ?_⟩
    ext <;> simp only
    · linear_combination -(1 - w) * a1 - w * b1 - (p1.x - p0.x) * hw
    · linear_combination -(1 - w) * a2 - w * b2 - (p1.y - p0.y) * hw
  · exact cross_ne h1 h2 hD

/-- A common point that is an end point of neither means opposite orientations. -/
theorem opposite_of_share {p0 p1 q0 q1 q : Vec K} (hp : Between p0 p1 q) (hq : Between q0 q1 q)
    (n1 : ¬ Between p0 p1 q0) (n2 : ¬ Between p0 p1 q1) (n3 : ¬ Between q0 q1 p0) (n4 : ¬ Between q0 q1 p1) :
    triangleOrientation p0 p1 q0 * triangleOrientation p0 p1 q1 < 0 := by
  obtain ⟨s, s0, s1, rfl⟩ := hp
  obtain ⟨u, u0, u1, hu⟩ := hq
  rw [Vec.ext_iff] at hu
  simp only at hu
  obtain ⟨hux, huy⟩ := hu
  -- the parameters are strictly inside
  have s0' : 0 < s := by
    rcases s0.lt_or_eq with h | h
    · exact h
    · exfalso; apply n3
      subst h
      exact ⟨u, u0, u1, by ext <;> simp only <;> linarith⟩
  have s1' : s < 1 := by
    rcases s1.lt_or_eq with h | h
    · exact h
    · exfalso; apply n4
      subst h
      exact ⟨u, u0, u1, by ext <;> simp only <;> linarith⟩
  have u0' : 0 < u := by
    rcases u0.lt_or_eq with h | h
    · exact h
    · exfalso; apply n1
      subst h
      exact ⟨s, s0, s1, by ext <;> simp only <;> linarith⟩
  have u1' : u < 1 := by
    rcases u1.lt_or_eq with h | h
    · exact h
    · exfalso; apply n2
      subst h
      exact ⟨s, s0, s1, by ext <;> simp only <;> linarith⟩
  obtain ⟨_, _, _, c3, c4⟩ := orientation_cases p0 p1 q0
  obtain ⟨_, _, _, d3, d4⟩ := orientation_cases p0 p1 q1
  have e1 : (p1 - p0).cross (q0 - p0) = -(u * (p1 - p0).cross (q1 - q0)) := by
    unfold Vec.cross
    simp only [Vec.sub_x, Vec.sub_y]
    linear_combination (p1.y - p0.y) * hux - (p1.x - p0.x) * huy
  have e2 : (p1 - p0).cross (q1 - p0) = (1 - u) * (p1 - p0).cross (q1 - q0) := by
    have : (p1 - p0).cross (q1 - p0) = (p1 - p0).cross (q0 - p0) + (p1 - p0).cross (q1 - q0) := by
      unfold Vec.cross; simp only [Vec.sub_x, Vec.sub_y]; ring
    rw [this, e1]; ring
  rcases lt_trichotomy ((p1 - p0).cross (q1 - q0)) 0 with hD | hD | hD
  · have h1 : 0 < (p1 - p0).cross (q0 - p0) := by rw [e1]; nlinarith
    have h2 : (p1 - p0).cross (q1 - p0) < 0 := by rw [e2]; nlinarith
    rw [c3 h1, d4 h2]; norm_num
  · exfalso
    unfold Vec.cross at hD
    simp only [Vec.sub_x, Vec.sub_y] at hD
    by_cases hn : p1.x - p0.x ≠ 0 ∨ p1.y - p0.y ≠ 0
    · obtain ⟨l1, l2⟩ := multiple_of_cross _ _ (q1.x - q0.x) (q1.y - q0.y) (by linear_combination hD) hn
      generalize ((p1.x - p0.x) * (q1.x - q0.x) + (p1.y - p0.y) * (q1.y - q0.y)) /
        ((p1.x - p0.x) * (p1.x - p0.x) + (p1.y - p0.y) * (p1.y - p0.y)) = l at l1 l2
      -- the parameters of the end points of the second segment on the first line
      have m1 : ¬ (0 ≤ s - u * l ∧ s - u * l ≤ 1) := by
        rintro ⟨a, b⟩
        exact n1 ⟨s - u * l, a, b, by ext <;> simp only <;> [linear_combination -hux - u * l1; linear_combination -huy - u * l2]⟩
      have m2 : ¬ (0 ≤ s + (1 - u) * l ∧ s + (1 - u) * l ≤ 1) := by
        rintro ⟨a, b⟩
        exact n2 ⟨s + (1 - u) * l, a, b, by
          ext <;> simp only <;> [linear_combination -hux + (1 - u) * l1; linear_combination -huy + (1 - u) * l2]⟩
      apply n3
      have hl : l ≠ 0 := by
        rintro rfl
        apply m1; constructor <;> linarith
      refine ⟨u - s / l, ?_, ?_, ?_⟩
      · rcases lt_or_gt_of_ne hl with hl | hl
        · have := div_neg_of_pos_of_neg s0' hl
          linarith
        · rw [sub_nonneg, div_le_iff₀ hl]
          by_contra hc
          push Not at hc
          exact m1 ⟨by linarith, by nlinarith⟩
      · rcases lt_or_gt_of_ne hl with hl | hl
        · rw [sub_le_iff_le_add, ← sub_le_iff_le_add', le_div_iff_of_neg hl]
          by_contra hc
          push Not at hc
          exact m2 ⟨by nlinarith, by nlinarith⟩
        · have := div_pos s0' hl
          linarith
      · ext <;> simp only
        · field_simp
          have := l1
          linear_combination l * hux + s * l1
        · field_simp
          linear_combination l * huy + s * l2
    · push Not at hn
      apply n3
      refine ⟨u, u0, u1, ?_⟩
      ext <;> simp only
      · linear_combination hux - s * hn.1
      · linear_combination huy - s * hn.2
  · have h1 : (p1 - p0).cross (q0 - p0) < 0 := by rw [e1]; nlinarith
    have h2 : 0 < (p1 - p0).cross (q1 - p0) := by rw [e2]; nlinarith
    rw [c4 h1, d3 h2]; norm_num

end Patro
