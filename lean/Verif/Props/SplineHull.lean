import Verif.Model.SplineObject
import Verif.Props.Spline
import Verif.Props.Shapes
/-! # C251: B-splines stay among their control points -/

namespace Patro.SplineObject

open Spline

variable {K : Type} [Field K] [LinearOrder K] [IsStrictOrderedRing K] [FloorRing K]

omit [IsStrictOrderedRing K] [FloorRing K] in
theorem weighted_linear (u : Nat → K) (p : Nat) (l : List (Vec K)) (a b t : K) :
    a * weighted u p (l.map Vec.x) t + b * weighted u p (l.map Vec.y) t =
      ∑ i ∈ Finset.range l.length, (a * (l.map Vec.x).getD i 0 + b * (l.map Vec.y).getD i 0) * N u p i t := by
  simp only [weighted, List.length_map, Finset.mul_sum, ← Finset.sum_add_distrib]
  refine Finset.sum_congr rfl fun i _ => by ring

/-- C251. At a parameter between the knots of indices `l` and `l + 1`, in its range, a spline is in every half plane that contains its control points of
indices `l - degree` to `l`: it is in their convex hull. -/
theorem spline_hull (s : BSpline K) (hv : Valid s) (t : K) (ht : InRange s t) :
    ∃ p l, s.pointAt t = .ok p ∧ s.degree ≤ l ∧ l < s.points.length ∧ knotAt s.knots l ≤ t ∧ t < knotAt s.knots (l + 1) ∧
      ∀ a b c : K, (∀ i q, l - s.degree ≤ i → i ≤ l → s.points[i]? = some q → a * q.x + b * q.y ≤ c) → a * p.x + b * p.y ≤ c := by
  have hm := knotAt_mono s.knots hv.1.sorted
  obtain ⟨l, h1, h2, h3, h4⟩ := exists_span s hv.1 t ht
  refine ⟨_, l, pointAt_curve s hv t ht, h1, h2, h3, h4, fun a b c h => ?_⟩
  simp only [curve]
  rw [weighted_linear, weighted_span (knotAt s.knots) hm s.degree l s.points.length _ t h1 h2 h3 h4]
  calc _ ≤ ∑ j ∈ Finset.range (s.degree + 1), c * N (knotAt s.knots) s.degree (l - s.degree + j) t := by
        refine Finset.sum_le_sum fun j hj => mul_le_mul_of_nonneg_right ?_ (N_nonneg _ hm t _ _)
        rw [Finset.mem_range] at hj
        have hi : l - s.degree + j < s.points.length := by omega
        have := h (l - s.degree + j) s.points[l - s.degree + j] (by omega) (by omega) (List.getElem?_eq_getElem hi)
        simpa [List.getD_eq_getElem?_getD, List.getElem?_eq_getElem hi] using this
    _ = c := by rw [← Finset.mul_sum, N_sum_span _ hm t _ _ h1 h3 h4, mul_one]

omit [FloorRing K] in
theorem hull_box (s : BSpline K) (p : Vec K) (hne : s.points ≠ [])
    (h : ∀ a b c : K, (∀ q ∈ s.points, a * q.x + b * q.y ≤ c) → a * p.x + b * p.y ≤ c) :
    ∃ b, boundingBox s = some b ∧ b.xInf ≤ p.x ∧ p.x ≤ b.xSup ∧ b.yInf ≤ p.y ∧ p.y ≤ b.ySup := by
  obtain ⟨hn, hb⟩ := boundingBox_spec s.points
  cases hbox : Box.fromPoints s.points with
  | none => exact absurd (hn.1 hbox) hne
  | some b =>
    obtain ⟨hin, -⟩ := hb b hbox
    refine ⟨b, hbox, ?_, ?_, ?_, ?_⟩
    · have := h (-1) 0 (-b.xInf) fun q hq => by have := (hin q hq).1; linarith
      linarith
    · have := h 1 0 b.xSup fun q hq => by have := (hin q hq).2.1; linarith
      linarith
    · have := h 0 (-1) (-b.yInf) fun q hq => by have := (hin q hq).2.2.1; linarith
      linarith
    · have := h 0 1 b.ySup fun q hq => by have := (hin q hq).2.2.2; linarith
      linarith

/-- C251. The point of a spline at every parameter of its range is in the bounding box of the spline. -/
theorem spline_box (s : BSpline K) (hv : Valid s) (t : K) (ht : InRange s t) :
    ∃ p b, s.pointAt t = .ok p ∧ boundingBox s = some b ∧ b.xInf ≤ p.x ∧ p.x ≤ b.xSup ∧ b.yInf ≤ p.y ∧ p.y ≤ b.ySup := by
  obtain ⟨p, l, e, -, hl, -, -, h⟩ := spline_hull s hv t ht
  obtain ⟨b, hb⟩ := hull_box s p (List.length_pos_iff.1 (by omega)) fun a b c hq =>
    h a b c fun i q _ _ hi => hq q (List.mem_of_getElem? hi)
  exact ⟨p, b, e, hb⟩

/-- C251. Every point that a spline without given knots has, at any parameter, is in its bounding box. -/
theorem spline_box_uniform (s : BSpline K) (h : IsUniform s) (t : K) (p : Vec K) (hp : s.pointAt t = .ok p) :
    ∃ b, boundingBox s = some b ∧ b.xInf ≤ p.x ∧ p.x ≤ b.xSup ∧ b.yInf ≤ p.y ∧ p.y ≤ b.ySup := by
  obtain ⟨hv, hr, -, ⟨q, hq, hlast⟩, hout⟩ := pointAt_uniform s h
  by_cases hi : InRange s t
  · obtain ⟨p', b, e, hb⟩ := spline_box s hv t hi
    rw [hp] at e; injection e with e; subst e
    exact ⟨b, hb⟩
  · by_cases he : t = (s.points.length : K) - s.degree
    · subst he
      rw [hp] at hlast; injection hlast with hlast; subst hlast
      have hm := List.mem_of_getLast? hq
      exact hull_box s p (List.ne_nil_of_mem hm) fun a b c hc => hc p hm
    · rw [hout t ?_] at hp
      · exact absurd hp (by simp)
      · rw [hr t, not_and_or, not_le, not_lt] at hi
        exact hi.imp id fun h => lt_of_le_of_ne h (Ne.symm he)

/-- C251 fails for the smallest box: the bounding box of a spline of degree 2 with three control points, the middle one above the others, has a side
which the curve never reaches. -/
theorem spline_box_wrong (p0 p1 p2 : Vec K) (h0 : p0.y < p1.y) (h2 : p2.y < p1.y) :
    ∃ s b, BSpline.new [p0, p1, p2] 2 = .ok s ∧ boundingBox s = some b ∧ b.ySup = p1.y ∧
      (∀ t, 0 ≤ t → t ≤ 1 → ∃ p, s.pointAt t = .ok p ∧ p.y < b.ySup) := by
  have hk : uniformKnots 2 3 = .ok ([0, 0, 0, 1, 1, 1] : List K) := by
    simp [uniformKnots, List.range_succ]
  have hn : BSpline.new [p0, p1, p2] 2 = .ok (⟨[p0, p1, p2], 2, false, [0, 0, 0, 1, 1, 1], true⟩ : BSpline K) := by
    simp only [BSpline.new, List.length_cons, List.length_nil, hk]; rfl
  refine ⟨_, ⟨min (min p0.x p1.x) p2.x, max (max p0.x p1.x) p2.x, min (min p0.y p1.y) p2.y, max (max p0.y p1.y) p2.y⟩, hn, rfl, ?_, ?_⟩
  · rw [max_eq_right h0.le, max_eq_left h2.le]
  · intro t ht0 ht1
    dsimp only
    rw [max_eq_right h0.le, max_eq_left h2.le]
    have hu : IsUniform (⟨[p0, p1, p2], 2, false, [0, 0, 0, 1, 1, 1], true⟩ : BSpline K) := ⟨rfl, hn⟩
    obtain ⟨hv, hr, -, ⟨q, hq, hlast⟩, -⟩ := pointAt_uniform _ hu
    have h32 : (((3 : Nat) : K) - ((2 : Nat) : K)) = 1 := by norm_num
    rcases ht1.lt_or_eq with ht1 | rfl
    · have hi := (hr t).2 ⟨ht0, by simp only [List.length_cons, List.length_nil]; rw [h32]; exact ht1⟩
      refine ⟨_, pointAt_curve _ hv t hi, ?_⟩
      simp [curve, weighted, N, knotAt, Finset.sum_range_succ, ht0, ht1]
      nlinarith [mul_pos (sub_pos.2 ht1) (sub_pos.2 ht1), mul_nonneg ht0 ht0, mul_nonneg ht0 (sub_nonneg.2 ht1.le),
        mul_pos (mul_pos (sub_pos.2 ht1) (sub_pos.2 ht1)) (sub_pos.2 h0), mul_nonneg (mul_nonneg ht0 ht0) (sub_pos.2 h2).le]
    · simp only [List.length_cons, List.length_nil] at hlast
      rw [h32] at hlast
      refine ⟨q, hlast, ?_⟩
      simp at hq
      rw [← hq]; exact h2

/-- A spline of degree 2 with given knots. -/
def given : BSpline Rat := ⟨[⟨0, 0⟩, ⟨1, 2⟩, ⟨3, 2⟩, ⟨4, 0⟩], 2, false, [0, 0, 0, 1, 2, 2, 2], false⟩

example : Valid given ∧ InRange given (1 / 2) ∧ given.pointAt (1 / 2) = .ok ⟨1, 3 / 2⟩ ∧ boundingBox given = some ⟨0, 4, 0, 2⟩ := by
  refine ⟨⟨⟨by decide +kernel, by decide +kernel, by decide +kernel⟩, fun h => absurd h (by decide)⟩, ?_, by decide +kernel, by decide +kernel⟩
  unfold InRange; decide +kernel
example : (0 : Rat) < (⟨1, 2⟩ : Vec Rat).y := by decide +kernel

end Patro.SplineObject
