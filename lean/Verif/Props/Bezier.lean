import Verif.Spec.Bezier
import Verif.Props.Line
import Verif.Props.Transformation
import Mathlib.Tactic.FinCases
import Mathlib.LinearAlgebra.Matrix.Notation
/-! # C45–C49: Bezier curves -/

namespace Patro.Bezier

section Field

variable {K : Type _} [Field K]

theorem quad_bernstein (c : Quad K) (t : K) : c.pointAt t = bernstein2 c.p0 c.p1 c.p2 t := by
  ext <;> simp [Quad.pointAt, bernstein2] <;> ring

theorem cubic_bernstein (c : Cubic K) (t : K) : c.pointAt t = bernstein3 c.p0 c.p1 c.p2 c.p3 t := by
  ext <;> simp [Cubic.pointAt, bernstein3] <;> ring

/-! ## C45 -/

/-- C45. The parts of a cubic curve split at `t` are the curve from 0 to `t` and from `t` to 1, for every `t`; they join at the point
of parameter `t`, and share the end points of the curve. -/
theorem cubic_split (c : Cubic K) (t : K) :
    IsPart c.pointAt (c.splitAt t).1.pointAt 0 t ∧ IsPart c.pointAt (c.splitAt t).2.pointAt t 1 ∧
    (c.splitAt t).1.p3 = c.pointAt t ∧ (c.splitAt t).2.p0 = c.pointAt t ∧
    (c.splitAt t).1.p0 = c.p0 ∧ (c.splitAt t).2.p3 = c.p3 := by
  refine ⟨fun s => ?_, fun s => ?_, ?_, ?_, rfl, rfl⟩
  all_goals
    ext <;> simp only [Cubic.splitAt, interpolate, cubic_bernstein, bernstein3, Vec.add_x, Vec.add_y, Vec.smul_x, Vec.smul_y] <;> ring

/-- C45. The parts of a quadratic curve split at `t` between 0 and 1 are the curve from 0 to `t` and from `t` to 1, which join at the
point of parameter `t`. For `t ≤ 0` and `1 ≤ t` one part is `None` and the other is the curve. -/
theorem quad_split [LinearOrder K] [IsStrictOrderedRing K] (c : Quad K) (t : K) :
    (0 < t → t < 1 → ∃ a b, c.splitAt t = (some a, some b) ∧ IsPart c.pointAt a.pointAt 0 t ∧ IsPart c.pointAt b.pointAt t 1 ∧
      a.p2 = c.pointAt t ∧ b.p0 = c.pointAt t ∧ a.p0 = c.p0 ∧ b.p2 = c.p2) ∧
    (t ≤ 0 → c.splitAt t = (none, some c)) ∧ (1 ≤ t → c.splitAt t = (some c, none)) := by
  refine ⟨fun h0 h1 => ?_, fun h => by simp [Quad.splitAt, h], fun h => ?_⟩
  · unfold Quad.splitAt
    rw [if_neg (not_le.2 h0), if_neg (not_le.2 h1)]
    refine ⟨_, _, rfl, fun s => ?_, fun s => ?_, ?_, ?_, rfl, rfl⟩
    all_goals
      ext <;> simp only [interpolate, quad_bernstein, bernstein2, Vec.add_x, Vec.add_y, Vec.smul_x, Vec.smul_y] <;> ring
  · unfold Quad.splitAt
    rw [if_neg (not_le.2 (lt_of_lt_of_le one_pos h)), if_pos h]

example : (⟨⟨0, 0⟩, ⟨1, 2⟩, ⟨2, 0⟩⟩ : Quad ℚ).splitAt (1 / 2) =
    (some ⟨⟨0, 0⟩, ⟨1 / 2, 1⟩, ⟨1, 1⟩⟩, some ⟨⟨1, 1⟩, ⟨3 / 2, 1⟩, ⟨2, 0⟩⟩) := by decide +kernel

/-! ## C99 -/

section Ordered

variable [LinearOrder K] [IsStrictOrderedRing K]

/-- C99. `split_at_two_t` of a cubic curve gives the part of the curve between the two parameters, whatever their order, when the
larger one is at most 1; for equal parameters it gives the point, and for a larger parameter above 1 the curve is cut at 1. -/
theorem cubic_splitTwo (c : Cubic K) (t1 t2 : K) :
    (t1 = t2 → c.splitAtTwo t1 t2 = .point (c.pointAt t1)) ∧
    (t1 ≠ t2 → ∃ d, c.splitAtTwo t1 t2 = .curve d ∧ IsPart c.pointAt d.pointAt (min t1 t2) (min (max t1 t2) 1)) := by
  constructor
  · intro h; simp [Cubic.splitAtTwo, h]
  · intro h
    have key : ∀ a b : K, a < b → ∃ d, (if b < 1 then Part.curve (K := K) ((c.splitAt a).2.splitAt ((b - a) / (1 - a))).1
        else .curve (c.splitAt a).2) = .curve d ∧ IsPart c.pointAt d.pointAt a (min b 1) := by
      intro a b hab
      split
      · rename_i hb
        refine ⟨_, rfl, fun s => ?_⟩
        rw [min_eq_left hb.le, (cubic_split _ _).1 s, (cubic_split c a).2.1]
        congr 1
        have : 1 - a ≠ 0 := by linarith [hab.trans hb]
        field_simp
        ring
      · rename_i hb
        refine ⟨_, rfl, fun s => ?_⟩
        rw [min_eq_right (not_lt.1 hb), (cubic_split c a).2.1]
    unfold Cubic.splitAtTwo
    rw [if_neg h]
    rcases lt_or_gt_of_ne h with hlt | hlt
    · rw [if_neg (not_lt.2 hlt.le), min_eq_left hlt.le, max_eq_right hlt.le]
      exact key t1 t2 hlt
    · rw [if_pos hlt, min_eq_right hlt.le, max_eq_left hlt.le]
      exact key t2 t1 hlt

/-- C99, quadratic curves. Missing: parameters out of the range from 0 to 1, for which it is false (`quad_splitTwo_wrong`). -/
theorem quad_splitTwo_partial (c : Quad K) (t1 t2 : K) (h1 : 0 ≤ min t1 t2) (h2 : max t1 t2 ≤ 1) :
    (t1 = t2 → c.splitAtTwo t1 t2 = .ok (.point (c.pointAt t1))) ∧
    (t1 ≠ t2 → ∃ d, c.splitAtTwo t1 t2 = .ok (.curve d) ∧ IsPart c.pointAt d.pointAt (min t1 t2) (max t1 t2)) := by
  constructor
  · intro h; simp [Quad.splitAtTwo, h]
  · intro h
    have right : ∀ a : K, 0 ≤ a → a < 1 → ∃ d, (c.splitAt a).2 = some d ∧ IsPart c.pointAt d.pointAt a 1 := by
      intro a ha ha1
      rcases eq_or_lt_of_le ha with rfl | ha
      · refine ⟨c, by rw [(quad_split c 0).2.1 le_rfl], fun s => ?_⟩
        congr 1; ring
      · obtain ⟨x, y, e, -, hy, -⟩ := (quad_split c a).1 ha ha1
        exact ⟨y, by rw [e], hy⟩
    have key : ∀ a b : K, 0 ≤ a → a < b → b ≤ 1 → ∃ d, (if b < 1 then
        match (c.splitAt a).2 with
        | some curve => (.ok (match (curve.splitAt ((b - a) / (1 - a))).1 with
          | some c => Part.curve (K := K) c
          | Option.none => .none) : Except PyErr (Part (Quad K) K))
        | Option.none => .error .attributeError
        else .ok (match (c.splitAt a).2 with
          | some c => .curve c
          | Option.none => .none)) = .ok (.curve d) ∧ IsPart c.pointAt d.pointAt a b := by
      intro a b ha hab hb1
      obtain ⟨d, hd, hp⟩ := right a ha (lt_of_lt_of_le hab hb1)
      rw [hd]
      split
      · rename_i hb
        have h1a : 0 < 1 - a := by linarith
        have hr0 : 0 < (b - a) / (1 - a) := div_pos (by linarith) h1a
        have hr1 : (b - a) / (1 - a) < 1 := by rw [div_lt_one h1a]; linarith
        obtain ⟨x, y, e, hx, -⟩ := (quad_split d _).1 hr0 hr1
        refine ⟨x, by simp [e], fun s => ?_⟩
        rw [hx s, hp]
        congr 1
        have : 1 - a ≠ 0 := h1a.ne'
        field_simp
        ring
      · rename_i hb
        have : b = 1 := le_antisymm hb1 (not_lt.1 hb)
        subst this
        exact ⟨d, rfl, hp⟩
    unfold Quad.splitAtTwo
    rw [if_neg h]
    rcases lt_or_gt_of_ne h with hlt | hlt
    · rw [min_eq_left hlt.le] at h1 ⊢
      rw [max_eq_right hlt.le] at h2 ⊢
      rw [if_neg (not_lt.2 hlt.le)]
      exact key t1 t2 h1 hlt h2
    · rw [min_eq_right hlt.le] at h1 ⊢
      rw [max_eq_left hlt.le] at h2 ⊢
      rw [if_pos hlt]
      exact key t2 t1 h1 hlt h2

/-- C99 fails for quadratic curves out of the range. From a negative `t1` to `t2 < 1` the part goes from 0 to `(t2 - t1) / (1 - t1)`,
which is not `t2`; up to `t2 ≥ 1` it is cut at both ends of the curve; from `t1 ≥ 1` it is `None`. -/
theorem quad_splitTwo_wrong (c : Quad K) (t1 t2 : K) (h : t1 < t2) :
    (t1 < 0 → t2 < 1 → ∃ d, c.splitAtTwo t1 t2 = .ok (.curve d) ∧ IsPart c.pointAt d.pointAt 0 ((t2 - t1) / (1 - t1)) ∧
      t2 < (t2 - t1) / (1 - t1)) ∧
    (t1 < 1 → 1 ≤ t2 → ∃ d, c.splitAtTwo t1 t2 = .ok (.curve d) ∧ IsPart c.pointAt d.pointAt (max t1 0) 1) ∧
    (1 ≤ t1 → c.splitAtTwo t1 t2 = .ok .none) ∧ c.splitAtTwo t2 t1 = c.splitAtTwo t1 t2 := by
  have e : ¬ t2 < t1 := not_lt.2 h.le
  refine ⟨fun h0 h1 => ?_, fun h0 h1 => ?_, fun h1 => ?_, ?_⟩
  · have hd : 0 < 1 - t1 := by linarith
    have hr0 : 0 < (t2 - t1) / (1 - t1) := div_pos (by linarith) hd
    have hr1 : (t2 - t1) / (1 - t1) < 1 := by rw [div_lt_one hd]; linarith
    obtain ⟨x, y, es, hx, -⟩ := (quad_split c _).1 hr0 hr1
    refine ⟨x, ?_, hx, ?_⟩
    · unfold Quad.splitAtTwo
      rw [if_neg h.ne, if_neg e]
      simp only [if_pos h1, (quad_split c t1).2.1 h0.le, es]
    · rw [lt_div_iff₀ hd]
      nlinarith
  · unfold Quad.splitAtTwo
    rw [if_neg h.ne, if_neg e]
    simp only [if_neg (not_lt.2 h1)]
    rcases le_or_gt t1 0 with hz | hz
    · rw [(quad_split c t1).2.1 hz, max_eq_right hz]
      refine ⟨c, rfl, fun s => ?_⟩
      congr 1; ring
    · obtain ⟨x, y, es, -, hy, -⟩ := (quad_split c t1).1 hz h0
      rw [es, max_eq_left hz.le]
      exact ⟨y, rfl, hy⟩
  · unfold Quad.splitAtTwo
    rw [if_neg h.ne, if_neg e]
    simp only [if_neg (not_lt.2 (h1.trans h.le)), (quad_split c t1).2.2 h1]
  · unfold Quad.splitAtTwo
    rw [if_neg h.ne, if_neg h.ne', if_neg e, if_pos h]

end Ordered

example :
    let c : Quad ℚ := ⟨⟨0, 0⟩, ⟨1, 2⟩, ⟨2, 0⟩⟩
    (∃ d, c.splitAtTwo (-1) (1 / 2) = .ok (.curve d) ∧ d.p0 = c.pointAt 0 ∧ d.p2 = c.pointAt (3 / 4) ∧
      c.pointAt (3 / 4) ≠ c.pointAt (1 / 2)) ∧ c.splitAtTwo 1 2 = .ok .none := by
  refine ⟨⟨⟨⟨0, 0⟩, ⟨3 / 4, 3 / 2⟩, ⟨3 / 2, 3 / 4⟩⟩, ?_, by decide +kernel, by decide +kernel, by decide +kernel⟩, ?_⟩
  · decide +kernel
  · decide +kernel

/-! ## C46 -/

/-- C46. Degree elevation keeps the point of every parameter, and the end points. -/
theorem toCubic_pointAt [CharZero K] (c : Quad K) (t : K) :
    c.toCubic.pointAt t = c.pointAt t ∧ c.toCubic.p0 = c.p0 ∧ c.toCubic.p3 = c.p2 := by
  refine ⟨?_, rfl, rfl⟩
  ext <;> simp [Quad.toCubic, cubic_bernstein, quad_bernstein, bernstein2, bernstein3] <;> ring

example : (⟨⟨0, 0⟩, ⟨1, 2⟩, ⟨2, 0⟩⟩ : Quad ℚ).toCubic = ⟨⟨0, 0⟩, ⟨2 / 3, 4 / 3⟩, ⟨4 / 3, 4 / 3⟩, ⟨2, 0⟩⟩ := by decide +kernel

/-! ## C47 -/

/-- C47. The curves start and stop at their end points. -/
theorem end_points (q : Quad K) (c : Cubic K) :
    q.pointAt 0 = q.p0 ∧ q.pointAt 1 = q.p2 ∧ c.pointAt 0 = c.p0 ∧ c.pointAt 1 = c.p3 := by
  refine ⟨?_, ?_, ?_, ?_⟩ <;> ext <;> simp [quad_bernstein, cubic_bernstein, bernstein2, bernstein3]

/-- C47. For a parameter from 0 to 1 the point is a convex combination of the control points. -/
theorem in_hull [LinearOrder K] [IsStrictOrderedRing K] (q : Quad K) (c : Cubic K) (t : K) (h0 : 0 ≤ t) (h1 : t ≤ 1) :
    InHull [q.p0, q.p1, q.p2] (q.pointAt t) ∧ InHull [c.p0, c.p1, c.p2, c.p3] (c.pointAt t) := by
  have hu : 0 ≤ 1 - t := by linarith
  refine ⟨⟨[(1 - t) ^ 2, 2 * (1 - t) * t, t ^ 2], rfl, ?_, ?_, ?_⟩,
    ⟨[(1 - t) ^ 3, 3 * (1 - t) ^ 2 * t, 3 * (1 - t) * t ^ 2, t ^ 3], rfl, ?_, ?_, ?_⟩⟩
  · simp only [List.mem_cons, List.not_mem_nil, or_false, forall_eq_or_imp, forall_eq]
    exact ⟨by positivity, by positivity, by positivity⟩
  · simp; ring
  · rw [quad_bernstein]
    ext <;> simp [bernstein2] <;> ring
  · simp only [List.mem_cons, List.not_mem_nil, or_false, forall_eq_or_imp, forall_eq]
    exact ⟨by positivity, by positivity, by positivity, by positivity⟩
  · simp; ring
  · rw [cubic_bernstein]
    ext <;> simp [bernstein3] <;> ring

/-- A convex combination is in every interval that contains the points. -/
theorem hull_bounds [LinearOrder K] [IsStrictOrderedRing K] (ps : List (Vec K)) (q : Vec K) (h : InHull ps q) (lo hi : Vec K)
    (hb : ∀ p ∈ ps, lo.x ≤ p.x ∧ p.x ≤ hi.x ∧ lo.y ≤ p.y ∧ p.y ≤ hi.y) :
    lo.x ≤ q.x ∧ q.x ≤ hi.x ∧ lo.y ≤ q.y ∧ q.y ≤ hi.y := by
  obtain ⟨ws, hl, hw, hs, rfl⟩ := h
  have key : ∀ (f : Vec K → K) (a b : K) (ws : List K) (ps : List (Vec K)), ws.length = ps.length → (∀ w ∈ ws, 0 ≤ w) →
      (∀ p ∈ ps, a ≤ f p ∧ f p ≤ b) → ws.sum * a ≤ (List.zipWith (fun w p => w * f p) ws ps).sum ∧
      (List.zipWith (fun w p => w * f p) ws ps).sum ≤ ws.sum * b := by
    intro f a b ws
    induction ws with
    | nil => intro ps hl; cases ps with
      | nil => simp
      | cons => simp at hl
    | cons w ws ih =>
      intro ps hl hw hp
      cases ps with
      | nil => simp at hl
      | cons p ps =>
        have hw0 := hw w (by simp)
        obtain ⟨i1, i2⟩ := ih ps (by simpa using hl) (fun x hx => hw x (by simp [hx])) (fun x hx => hp x (by simp [hx]))
        obtain ⟨p1, p2⟩ := hp p (by simp)
        have := mul_le_mul_of_nonneg_left p1 hw0
        have := mul_le_mul_of_nonneg_left p2 hw0
        simp only [List.sum_cons, List.zipWith_cons_cons, add_mul]
        constructor <;> linarith
  obtain ⟨a1, a2⟩ := key Vec.x lo.x hi.x ws ps hl hw (fun p hp => ⟨(hb p hp).1, (hb p hp).2.1⟩)
  obtain ⟨b1, b2⟩ := key Vec.y lo.y hi.y ws ps hl hw (fun p hp => ⟨(hb p hp).2.2.1, (hb p hp).2.2.2⟩)
  rw [hs, one_mul] at a1 a2 b1 b2
  exact ⟨a1, a2, b1, b2⟩

/-- C47. The curve stays in every box that contains its control points: in particular in their bounding box. -/
theorem in_box [LinearOrder K] [IsStrictOrderedRing K] (c : Cubic K) (t : K) (h0 : 0 ≤ t) (h1 : t ≤ 1) (lo hi : Vec K)
    (hb : ∀ p ∈ [c.p0, c.p1, c.p2, c.p3], lo.x ≤ p.x ∧ p.x ≤ hi.x ∧ lo.y ≤ p.y ∧ p.y ≤ hi.y) :
    lo.x ≤ (c.pointAt t).x ∧ (c.pointAt t).x ≤ hi.x ∧ lo.y ≤ (c.pointAt t).y ∧ (c.pointAt t).y ≤ hi.y :=
  hull_bounds _ _ (in_hull ⟨c.p0, c.p1, c.p2⟩ c t h0 h1).2 lo hi hb

/-- C47. In the same way for quadratic curves. -/
theorem in_box_quad [LinearOrder K] [IsStrictOrderedRing K] (q : Quad K) (t : K) (h0 : 0 ≤ t) (h1 : t ≤ 1) (lo hi : Vec K)
    (hb : ∀ p ∈ [q.p0, q.p1, q.p2], lo.x ≤ p.x ∧ p.x ≤ hi.x ∧ lo.y ≤ p.y ∧ p.y ≤ hi.y) :
    lo.x ≤ (q.pointAt t).x ∧ (q.pointAt t).x ≤ hi.x ∧ lo.y ≤ (q.pointAt t).y ∧ (q.pointAt t).y ≤ hi.y :=
  hull_bounds _ _ (in_hull q ⟨q.p0, q.p1, q.p2, q.p2⟩ t h0 h1).1 lo hi hb

/-- C47. The curve of the transformed control points is the transformed curve, for every affine map. -/
theorem affine_invariant (a b c d e f : K) (q : Quad K) (k : Cubic K) (t : K) :
    let m : Vec K → Vec K := fun v => ⟨a * v.x + b * v.y + e, c * v.x + d * v.y + f⟩
    (⟨m q.p0, m q.p1, m q.p2⟩ : Quad K).pointAt t = m (q.pointAt t) ∧
    (⟨m k.p0, m k.p1, m k.p2, m k.p3⟩ : Cubic K).pointAt t = m (k.pointAt t) := by
  constructor <;> ext <;> simp [quad_bernstein, cubic_bernstein, bernstein2, bernstein3] <;> ring

example : (⟨⟨0, 0⟩, ⟨1, 2⟩, ⟨3, 2⟩, ⟨4, 0⟩⟩ : Cubic ℚ).pointAt (1 / 2) = ⟨2, 3 / 2⟩ := by decide +kernel

/-! ## C49 -/

/-- C49. The matrices of cubic curves, and of cubic uniform splines, are inverse of each other. -/
theorem cubic_basis_inverse [CharZero K] :
    cubicBasis * cubicInverseBasis = (1 : Matrix (Fin 4) (Fin 4) K) ∧ cubicInverseBasis * cubicBasis = (1 : Matrix (Fin 4) (Fin 4) K) ∧
    cubicSplineBasis * cubicSplineInverseBasis = (1 : Matrix (Fin 4) (Fin 4) K) ∧
    cubicSplineInverseBasis * cubicSplineBasis = (1 : Matrix (Fin 4) (Fin 4) K) := by
  refine ⟨?_, ?_, ?_, ?_⟩ <;> ext i j <;> fin_cases i <;> fin_cases j <;>
    simp [cubicBasis, cubicInverseBasis, cubicSplineBasis, cubicSplineInverseBasis, Matrix.mul_apply, Fin.sum_univ_four] <;> norm_num

/-- C49. The polynomial form evaluates to the same points: the geometry matrix times the basis times `(1, t, t², t³)`; and so does
the polynomial form of the cubic uniform splines and of the quadratic curves. -/
theorem polynomial_form [CharZero K] (c : Cubic K) (s : CubicSpline K) (q : Quad K) (t : K) :
    (pointArray c.p0 c.p1 c.p2 c.p3 * (cubicBasis : Matrix (Fin 4) (Fin 4) K)).mulVec ![1, t, t ^ 2, t ^ 3] =
      ![(c.pointAt t).x, (c.pointAt t).y] ∧
    (pointArray s.p0 s.p1 s.p2 s.p3 * (cubicSplineBasis : Matrix (Fin 4) (Fin 4) K)).mulVec ![1, t, t ^ 2, t ^ 3] =
      ![(s.pointAt t).x, (s.pointAt t).y] ∧
    (!![q.p0.x, q.p1.x, q.p2.x; q.p0.y, q.p1.y, q.p2.y] * (quadBasis : Matrix (Fin 3) (Fin 3) K)).mulVec ![1, t, t ^ 2] =
      ![(q.pointAt t).x, (q.pointAt t).y] := by
  refine ⟨?_, ?_, ?_⟩ <;> ext i <;> fin_cases i <;>
    simp [pointArray, cubicBasis, cubicSplineBasis, quadBasis, Matrix.mulVec, dotProduct, Matrix.mul_apply, Fin.sum_univ_succ,
      Cubic.pointAt, CubicSpline.pointAt, Quad.pointAt] <;> ring

/-- C49. `to_spline` gives the uniform spline span with the same points. -/
theorem toSpline_pointAt [CharZero K] (c : Cubic K) (t : K) : c.toSpline.pointAt t = c.pointAt t := by
  ext <;> simp [Cubic.toSpline, column, pointArray, cubicBasis, cubicSplineInverseBasis, Matrix.mul_apply, Fin.sum_univ_four,
    CubicSpline.pointAt, Cubic.pointAt] <;> ring

end Field

/-- C49 fails for quadratic curves and quadratic uniform splines: `BASIS` times `INVERSE_BASIS` is not the identity. And the
conversion from a uniform spline to a Bezier curve always raises. -/
theorem quad_basis_wrong :
    quadBasis * quadInverseBasis ≠ (1 : Matrix (Fin 3) (Fin 3) ℚ) ∧
    quadSplineBasis * quadSplineInverseBasis ≠ (1 : Matrix (Fin 3) (Fin 3) ℚ) ∧
    quadBasis * quadInverseBasis = (!![-1, 6, -6; 0, -4, 6; -1, -1, -2] : Matrix (Fin 3) (Fin 3) ℚ) ∧
    quadSplineBasis * quadSplineInverseBasis = (!![1, 6, -6; -4, -3, 4; -1, -1, -2] : Matrix (Fin 3) (Fin 3) ℚ) ∧
    ∀ s : CubicSpline ℚ, s.toBezier = .error .attributeError := by
  refine ⟨fun h => ?_, fun h => ?_, by decide +kernel, by decide +kernel, fun _ => rfl⟩
  · have := congrFun (congrFun h 0) 0
    simp [quadBasis, quadInverseBasis, Matrix.mul_apply, Fin.sum_univ_succ] at this
    norm_num at this
  · have := congrFun (congrFun h 0) 1
    simp [quadSplineBasis, quadSplineInverseBasis, Matrix.mul_apply, Fin.sum_univ_succ] at this

end Patro.Bezier
