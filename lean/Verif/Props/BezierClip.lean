import Verif.Spec.BezierClip
import Verif.Props.Line
import Mathlib.Tactic.Linarith
import Mathlib.Tactic.FieldSimp
/-! # Clipping a convex hull (C215) -/

namespace Patro.BezierClip

open Bezier (Cubic)

section Field

variable {K : Type _} [Field K] [LinearOrder K] [IsStrictOrderedRing K]

omit [IsStrictOrderedRing K] in
theorem On.cons {p : Vec K} {part : List (Vec K)} {x y : K} (h : On part x y) : On (p :: part) x y := by
  obtain ⟨i, a, b, ha, hb, hs⟩ := h
  exact ⟨i + 1, a, b, by simpa using ha, by simpa using hb, hs⟩

omit [IsStrictOrderedRing K] in
theorem on_cons_cons {p q : Vec K} {rest : List (Vec K)} {x y : K} (h : On (p :: q :: rest) x y) :
    (∃ s : K, 0 ≤ s ∧ s ≤ 1 ∧ x = p.x + s * (q.x - p.x) ∧ y = p.y + s * (q.y - p.y)) ∨ On (q :: rest) x y := by
  obtain ⟨i, a, b, ha, hb, hs⟩ := h
  cases i with
  | zero =>
    simp only [List.getElem?_cons_zero, Option.some.injEq, Nat.zero_add, List.getElem?_cons_succ] at ha hb
    subst ha hb
    exact .inl hs
  | succ i => exact .inr ⟨i, a, b, by simpa using ha, by simpa using hb, hs⟩

/-- On an edge between two ordinates that are not beyond the threshold, no ordinate is. -/
theorem edge_not {top : Bool} {threshold a b s : K} (ha : ¬ Beyond top threshold a) (hb : ¬ Beyond top threshold b) (h0 : 0 ≤ s)
    (h1 : s ≤ 1) : ¬ Beyond top threshold (a + s * (b - a)) := by
  unfold Beyond at *
  cases top <;> simp only [if_true, not_le, Bool.false_eq_true, if_false] at *
  · rcases lt_or_eq_of_le h1 with h1 | rfl
    · have := mul_nonneg h0 (sub_nonneg.2 hb.le); nlinarith
    · linarith
  · rcases lt_or_eq_of_le h1 with h1 | rfl
    · have := mul_nonneg h0 (sub_nonneg.2 hb.le); nlinarith
    · linarith

theorem walk_spec (top : Bool) (threshold : K) (rest : List (Vec K)) : ∀ (p : Vec K), ¬ Beyond top threshold p.y →
    (walk top threshold p rest = .ok none ∧ ∀ x y, On (p :: rest) x y → ¬ Beyond top threshold y) ∨
    (∃ t, walk top threshold p rest = .ok (some t) ∧ On (p :: rest) t threshold ∧
      ((p :: rest).Pairwise (fun a b => a.x ≤ b.x) → p.x ≤ t ∧ ∀ x y, On (p :: rest) x y → Beyond top threshold y → t ≤ x)) := by
  induction rest with
  | nil =>
    intro p hp
    refine .inl ⟨rfl, ?_⟩
    rintro x y ⟨i, a, b, -, hb, -⟩
    simp at hb
  | cons q rest ih =>
    intro p hp
    have e : walk top threshold p (q :: rest) = if past top threshold q then
      if q.y - p.y = 0 then .error .zeroDivisionError
      else .ok (some (p.x + (threshold - p.y) * (q.x - p.x) / (q.y - p.y)))
      else walk top threshold q rest := rfl
    by_cases hq : Beyond top threshold q.y
    · have hq' : past top threshold q := hq
      have hne : q.y - p.y ≠ 0 := by
        intro h
        rw [sub_eq_zero.1 h] at hq
        exact hp hq
      rw [if_pos hq', if_neg hne] at e
      refine .inr ⟨_, e, ?_, ?_⟩
      · refine ⟨0, p, q, rfl, rfl, (threshold - p.y) / (q.y - p.y), ?_, ?_, ?_, ?_⟩
        · unfold Beyond at hp hq
          cases top <;> simp only [if_true, not_le, Bool.false_eq_true, if_false] at hp hq
          · exact div_nonneg_of_nonpos (by linarith) (by linarith)
          · exact div_nonneg (by linarith) (by linarith)
        · unfold Beyond at hp hq
          cases top <;> simp only [if_true, not_le, Bool.false_eq_true, if_false] at hp hq
          · rw [div_le_one_of_neg (by linarith)]; linarith
          · rw [div_le_one (by linarith)]; linarith
        · ring
        · field_simp
          ring
      · intro hx
        have hpq : p.x ≤ q.x := (List.pairwise_cons.1 hx).1 q (by simp)
        -- the parameter of the crossing
        have key : ∀ s : K, 0 ≤ s → s ≤ 1 → Beyond top threshold (p.y + s * (q.y - p.y)) →
            (threshold - p.y) / (q.y - p.y) ≤ s := by
          intro s _ _ hs
          unfold Beyond at hp hq hs
          cases top <;> simp only [if_true, not_le, Bool.false_eq_true, if_false] at hp hq hs
          · rw [div_le_iff_of_neg (by linarith)]; linarith
          · rw [div_le_iff₀ (by linarith)]; linarith
        have hr : (threshold - p.y) * (q.x - p.x) / (q.y - p.y) = (threshold - p.y) / (q.y - p.y) * (q.x - p.x) := by ring
        have hr0 : 0 ≤ (threshold - p.y) / (q.y - p.y) := by
          unfold Beyond at hp hq
          cases top <;> simp only [if_true, not_le, Bool.false_eq_true, if_false] at hp hq
          · exact div_nonneg_of_nonpos (by linarith) (by linarith)
          · exact div_nonneg (by linarith) (by linarith)
        have hr1 := key 1 zero_le_one le_rfl (by rw [one_mul, add_sub_cancel]; exact hq)
        rw [hr]
        refine ⟨by have := mul_nonneg hr0 (sub_nonneg.2 hpq); linarith, ?_⟩
        intro x y hon hy
        rcases on_cons_cons hon with ⟨s, h0, h1, rfl, rfl⟩ | hon
        · have := mul_le_mul_of_nonneg_right (key s h0 h1 hy) (sub_nonneg.2 hpq)
          linarith
        · have h2 : p.x + (threshold - p.y) / (q.y - p.y) * (q.x - p.x) ≤ q.x := by
            have := mul_le_mul_of_nonneg_right hr1 (sub_nonneg.2 hpq)
            linarith
          refine h2.trans ?_
          obtain ⟨i, a, b, ha, hb, s, h0, h1, rfl, rfl⟩ := hon
          have hx' := (List.pairwise_cons.1 hx).2
          have hqa : q.x ≤ a.x := by
            cases i with
            | zero => simp at ha; rw [ha]
            | succ i =>
              simp only [List.getElem?_cons_succ] at ha
              exact (List.pairwise_cons.1 hx').1 a (List.mem_of_getElem? ha)
          have hab : a.x ≤ b.x := by
            rw [List.getElem?_eq_some_iff] at ha hb
            obtain ⟨h1, rfl⟩ := ha
            obtain ⟨h2, rfl⟩ := hb
            exact List.pairwise_iff_getElem.1 hx' i (i + 1) h1 h2 (by omega)
          have := mul_nonneg h0 (sub_nonneg.2 hab)
          linarith
    · have hq' : ¬ past top threshold q := hq
      rw [if_neg hq'] at e
      rw [e]
      rcases ih q hq with ⟨h1, h2⟩ | ⟨t, h1, h2, h3⟩
      · refine .inl ⟨h1, fun x y hon => ?_⟩
        rcases on_cons_cons hon with ⟨s, h0, h1, rfl, rfl⟩ | hon
        · exact edge_not hp hq h0 h1
        · exact h2 x y hon
      · refine .inr ⟨t, h1, h2.cons, fun hx => ?_⟩
        obtain ⟨h4, h5⟩ := h3 (List.pairwise_cons.1 hx).2
        refine ⟨((List.pairwise_cons.1 hx).1 q (by simp)).trans h4, fun x y hon hy => ?_⟩
        rcases on_cons_cons hon with ⟨s, h0, h1, rfl, rfl⟩ | hon
        · exact absurd hy (edge_not hp hq h0 h1)
        · exact h5 x y hon hy

/-- C215, what holds: the walk on one part of a hull which begins before the threshold returns nothing when the whole part is before the
threshold; otherwise it returns the abscissa of a point of the part which is on the threshold, and, when the abscissae of the part do
not decrease, no point of the part beyond the threshold is on its left. -/
theorem clip_part_partial (p : Vec K) (rest : List (Vec K)) (top : Bool) (threshold : K) (h : ¬ Beyond top threshold p.y) :
    (clipPart (p :: rest) top threshold = .ok none ↔ ∀ x y, On (p :: rest) x y → ¬ Beyond top threshold y) ∧
    (∀ t, clipPart (p :: rest) top threshold = .ok (some t) → On (p :: rest) t threshold ∧
      ((p :: rest).Pairwise (fun a b => a.x ≤ b.x) → ∀ x y, On (p :: rest) x y → Beyond top threshold y → t ≤ x)) ∧
    (∃ r, clipPart (p :: rest) top threshold = .ok r) ∧ clipPart [] top threshold = .error .indexError := by
  have hth : Beyond top threshold threshold := by unfold Beyond; split <;> exact le_rfl
  have e : clipPart (p :: rest) top threshold = walk top threshold p rest := rfl
  rw [e]
  rcases walk_spec top threshold rest p h with ⟨h1, h2⟩ | ⟨t, h1, h2, h3⟩
  · rw [h1]
    exact ⟨⟨fun _ => h2, fun _ => rfl⟩, by intro t ht; simp at ht, ⟨_, rfl⟩, rfl⟩
  · rw [h1]
    refine ⟨⟨by intro h; simp at h, fun h => absurd hth (h t threshold h2)⟩, ?_, ⟨_, rfl⟩, rfl⟩
    intro t' ht
    simp only [Except.ok.injEq, Option.some.injEq] at ht
    subst ht
    exact ⟨h2, fun hx => (h3 hx).2⟩

/-- C215 is false of the whole hull: as soon as its left is outside of the band, and there is something to clip, `NameError` is raised. -/
theorem clip_hull_wrong (t b : Vec K) (top bottom : List (Vec K)) (dMin dMax : K) (h : t.y < dMin ∨ dMax < b.y) :
    clipHull (t :: top) (b :: bottom) dMin dMax = .error .nameError := by
  unfold clipHull
  rcases h with h | h
  · simp [h]
  · by_cases h' : t.y < dMin <;> simp [h, h']

/-- C215, what holds: a hull whose left is in the band is not clipped, its first abscissa is returned. -/
theorem clip_hull_partial (t b : Vec K) (top bottom : List (Vec K)) (dMin dMax : K) (h : dMin ≤ t.y) (h' : b.y ≤ dMax) :
    clipHull (t :: top) (b :: bottom) dMin dMax = .ok t.x := by
  simp [clipHull, not_lt.2 h, not_lt.2 h']

end Field

/-- The hull of the curve is divided by the vector from its start which has the coordinates of its end. -/
theorem clippingHull_eq (c : Cubic ℝ) (h : c.p3 ≠ 0) :
    clippingHull c =
      if (c.p3.cross (c.p1 - c.p0)) * (c.p3.cross (c.p2 - c.p0)) < 0 then
        if c.p3.cross (c.p1 - c.p0) < 0 then .ok ([c.p0, c.p2, c.p3], [c.p0, c.p1, c.p3])
        else .ok ([c.p0, c.p1, c.p3], [c.p0, c.p2, c.p3])
      else .error .nameError := by
  have hm := Vec.magnitude_pos _ h
  have e : ∀ q, (⟨c.p0, c.p3⟩ : Line ℝ).distanceToLine q = .ok (c.p3.cross (q - c.p0) / c.p3.magnitude) := fun q =>
    Vec.pyDiv_ok _ _ hm.ne'
  unfold clippingHull
  simp only [e, bind, Except.bind, pure, Except.pure]
  have h1 : ∀ a b : ℝ, a / c.p3.magnitude * (b / c.p3.magnitude) < 0 ↔ a * b < 0 := by
    intro a b
    rw [div_mul_div_comm, div_lt_iff₀ (by positivity), zero_mul]
  have h2 : ∀ a : ℝ, a / c.p3.magnitude < 0 ↔ a < 0 := by
    intro a
    rw [div_lt_iff₀ hm, zero_mul]
  simp only [h1, h2]

/-- C215 is false of a curve whose control points are on the same side of the chord from the origin, as a convex arc: `NameError` is raised
for all of them. -/
theorem same_side_wrong (c : Cubic ℝ) (h0 : c.p0 = 0) (h3 : c.p3 ≠ 0)
    (h : 0 ≤ (c.p3 - c.p0).cross (c.p1 - c.p0) * (c.p3 - c.p0).cross (c.p2 - c.p0)) : clippingHull c = .error .nameError := by
  rw [clippingHull_eq c h3, h0]
  rw [h0] at h
  have e : ∀ v : Vec ℝ, v - 0 = v := by intro v; ext <;> simp
  simp only [e] at h ⊢
  rw [if_neg (not_lt.2 h)]

/-- C215, what holds: when the curve begins at the origin and its control points are on both sides of its chord, the hull has two parts from
the start to the end of the curve, the top with the control point on the left of the chord and the bottom with the one on its right. -/
theorem opposite_sides_partial (c : Cubic ℝ) (h0 : c.p0 = 0) (h3 : c.p3 ≠ 0) :
    (0 < (c.p3 - c.p0).cross (c.p1 - c.p0) → (c.p3 - c.p0).cross (c.p2 - c.p0) < 0 →
      clippingHull c = .ok ([c.p0, c.p1, c.p3], [c.p0, c.p2, c.p3])) ∧
    ((c.p3 - c.p0).cross (c.p1 - c.p0) < 0 → 0 < (c.p3 - c.p0).cross (c.p2 - c.p0) →
      clippingHull c = .ok ([c.p0, c.p2, c.p3], [c.p0, c.p1, c.p3])) := by
  rw [clippingHull_eq c h3, h0]
  have e : ∀ v : Vec ℝ, v - 0 = v := by intro v; ext <;> simp
  simp only [e]
  constructor
  · intro h1 h2
    rw [if_pos (mul_neg_of_pos_of_neg h1 h2), if_neg (not_lt.2 h1.le)]
  · intro h1 h2
    rw [if_pos (mul_neg_of_neg_of_pos h1 h2), if_pos h1]

/-- C215 is false of the curves which do not begin at the origin: the vector of the line is the end of the curve instead of the one of the
chord. Between any two ends which are not aligned with the origin, there are curves whose control points are on both sides of the chord and that
cannot be divided. -/
theorem chord_wrong (p0 p3 : Vec ℝ) (h : p0.cross p3 ≠ 0) :
    ∃ p1 p2, 0 < (p3 - p0).cross (p1 - p0) ∧ (p3 - p0).cross (p2 - p0) < 0 ∧ clippingHull ⟨p0, p1, p2, p3⟩ = .error .nameError := by
  have h3 : p3 ≠ 0 := by
    rintro rfl
    simp [Vec.cross] at h
  have hk : 0 < p0.cross p3 * p0.cross p3 := mul_self_pos.2 h
  refine ⟨p0 - p3.smul (p0.cross p3), p0 + p3.smul (p0.cross p3), ?_, ?_, ?_⟩
  · have e : (p3 - p0).cross (p0 - p3.smul (p0.cross p3) - p0) = p0.cross p3 * p0.cross p3 := by
      simp only [Vec.cross, Vec.sub_x, Vec.sub_y, Vec.smul_x, Vec.smul_y]
      ring
    rw [e]
    exact hk
  · have e : (p3 - p0).cross (p0 + p3.smul (p0.cross p3) - p0) = -(p0.cross p3 * p0.cross p3) := by
      simp only [Vec.cross, Vec.sub_x, Vec.sub_y, Vec.add_x, Vec.add_y, Vec.smul_x, Vec.smul_y]
      ring
    rw [e]
    exact neg_lt_zero.2 hk
  · rw [clippingHull_eq _ h3, if_neg]
    rw [not_lt]
    have e : p3.cross (p0 - p3.smul (p0.cross p3) - p0) = 0 := by
      simp only [Vec.cross, Vec.sub_x, Vec.sub_y, Vec.smul_x, Vec.smul_y]
      ring
    simp only
    rw [e, zero_mul]

example : (⟨⟨1, 1⟩, ⟨2, 1.1⟩, ⟨3, 0.9⟩, ⟨4, 1⟩⟩ : Cubic ℝ).p0.cross ⟨4, 1⟩ ≠ 0 ∧
    clippingHull ⟨⟨1, 1⟩, ⟨2, 1.1⟩, ⟨3, 0.9⟩, ⟨4, 1⟩⟩ = .error .nameError := by
  refine ⟨by norm_num [Vec.cross], ?_⟩
  rw [clippingHull_eq _ (by intro h; have := congrArg Vec.x h; norm_num at this)]
  rw [if_neg]
  norm_num [Vec.cross]

/-- C215 is false of a curve which ends at the origin: `ZeroDivisionError` is raised. -/
theorem end_at_origin_wrong (p0 p1 p2 : Vec ℝ) : clippingHull ⟨p0, p1, p2, 0⟩ = .error .zeroDivisionError := by
  have : (⟨p0, 0⟩ : Line ℝ).distanceToLine p1 = .error .zeroDivisionError := (distanceToLine_spec ⟨p0, 0⟩ p1).2 rfl
  unfold clippingHull
  simp only [this, bind, Except.bind]

example : clipPart [⟨0, 0⟩, ⟨1, 2⟩, ⟨3, 4⟩] true (3 : ℚ) = .ok (some 2) := by decide +kernel

example : clipPart [⟨0, 5⟩, ⟨1, 2⟩, ⟨3, 1⟩] false (3 : ℚ) = .ok (some (2 / 3)) := by decide +kernel

example : ¬ Beyond true (3 : ℚ) (⟨0, 0⟩ : Vec ℚ).y := by norm_num [Beyond]

/-- A part that begins at the threshold is not before it: a division by zero. -/
example : clipPart [⟨0, 3⟩, ⟨1, 3⟩] true (3 : ℚ) = .error .zeroDivisionError := by decide +kernel

example : clippingHull ⟨0, ⟨1, 2⟩, ⟨2, -1⟩, ⟨3, 0⟩⟩ = .ok ([0, ⟨1, 2⟩, ⟨3, 0⟩], [0, ⟨2, -1⟩, ⟨3, 0⟩]) := by
  refine (opposite_sides_partial ⟨0, ⟨1, 2⟩, ⟨2, -1⟩, ⟨3, 0⟩⟩ rfl ?_).1 ?_ ?_
  · intro h; have := congrArg Vec.x h; norm_num at this
  · norm_num [Vec.cross]
  · norm_num [Vec.cross]

end Patro.BezierClip
