import Verif.Spec.Shapes
import Verif.Proof.Line
import Verif.Props.Line
/-! # Theorems about triangles, rectangles, bounding boxes and polylines -/

namespace Patro

section Field

variable {K : Type _} [Field K] [LinearOrder K] [IsStrictOrderedRing K]

/-! ## C41 -/

/-- C41. For a triangle whose vertices are not aligned, `is_point_inside` is true exactly for the points of the closed
triangle. -/
theorem isPointInside_iff (t : Triangle K) (h : ¬ Aligned t.p0 t.p1 t.p2) (q : Vec K) :
    t.isPointInside q = true ↔ InTriangle t.p0 t.p1 t.p2 q := by
  obtain ⟨⟨ax, ay⟩, ⟨bx, b_y⟩, ⟨cx, cy⟩⟩ := t
  obtain ⟨qx, qy⟩ := q
  simp only [Aligned] at h
  have hD : (bx - ax) * (cy - ay) - (b_y - ay) * (cx - ax) ≠ 0 := fun e => h (by linear_combination e)
  simp only [Triangle.isPointInside, Triangle.sameSide, Vec.cross, Vec.sub_x, Vec.sub_y, Bool.and_eq_true,
    decide_eq_true_eq, InTriangle, Vec.mk.injEq, ge_iff_le]
  obtain ⟨D, hDe⟩ : ∃ D, D = (bx - ax) * (cy - ay) - (b_y - ay) * (cx - ax) := ⟨_, rfl⟩
  rw [← hDe] at hD
  have e0 : (cx - bx) * (ay - b_y) - (cy - b_y) * (ax - bx) = D := by rw [hDe]; ring
  have e1 : (cx - ax) * (b_y - ay) - (cy - ay) * (bx - ax) = -D := by rw [hDe]; ring
  rw [e0, e1, ← hDe]
  have hD2 : 0 < D * D := mul_self_pos.2 hD
  constructor
  · rintro ⟨⟨h0, h1⟩, h2⟩
    refine ⟨((cx - bx) * (qy - b_y) - (cy - b_y) * (qx - bx)) * D / (D * D),
      ((cx - ax) * (qy - ay) - (cy - ay) * (qx - ax)) * -D / (D * D),
      ((bx - ax) * (qy - ay) - (b_y - ay) * (qx - ax)) * D / (D * D), div_nonneg h0 hD2.le, div_nonneg h1 hD2.le,
      div_nonneg h2 hD2.le, ?_, ?_, ?_⟩
    · field_simp; rw [hDe]; ring
    · field_simp; rw [hDe]; ring
    · field_simp; rw [hDe]; ring
  · rintro ⟨u, v, w, hu, hv, hw, hs, hx, hy⟩
    have hu' : u = 1 - v - w := by linear_combination hs
    refine ⟨⟨?_, ?_⟩, ?_⟩
    · have : (cx - bx) * (qy - b_y) - (cy - b_y) * (qx - bx) = u * D := by rw [hx, hy, hDe, hu']; ring
      rw [this, mul_assoc]
      exact mul_nonneg hu hD2.le
    · have : (cx - ax) * (qy - ay) - (cy - ay) * (qx - ax) = v * -D := by rw [hx, hy, hDe, hu']; ring
      rw [this, mul_assoc, neg_mul_neg]
      exact mul_nonneg hv hD2.le
    · have : (bx - ax) * (qy - ay) - (b_y - ay) * (qx - ax) = w * D := by rw [hx, hy, hDe, hu']; ring
      rw [this, mul_assoc]
      exact mul_nonneg hw hD2.le

/-- C41. The answer does not depend on the order in which the vertices are given. -/
theorem isPointInside_order (a b c q : Vec K) (h : ¬ Aligned a b c) :
    (⟨b, a, c⟩ : Triangle K).isPointInside q = (⟨a, b, c⟩ : Triangle K).isPointInside q ∧
    (⟨b, c, a⟩ : Triangle K).isPointInside q = (⟨a, b, c⟩ : Triangle K).isPointInside q := by
  have h1 : ¬ Aligned b a c := fun e => h (by unfold Aligned at *; linear_combination -e)
  have h2 : ¬ Aligned b c a := fun e => h (by unfold Aligned at *; linear_combination e)
  constructor
  · rw [Bool.eq_iff_iff, isPointInside_iff _ h1, isPointInside_iff _ h]
    constructor <;>
    · rintro ⟨u, v, w, hu, hv, hw, hs, e⟩
      exact ⟨v, u, w, hv, hu, hw, by linear_combination hs, by rw [e]; simp only [Vec.mk.injEq]; constructor <;> ring⟩
  · rw [Bool.eq_iff_iff, isPointInside_iff _ h2, isPointInside_iff _ h]
    constructor
    · rintro ⟨u, v, w, hu, hv, hw, hs, e⟩
      exact ⟨w, u, v, hw, hu, hv, by linear_combination hs, by rw [e]; simp only [Vec.mk.injEq]; constructor <;> ring⟩
    · rintro ⟨u, v, w, hu, hv, hw, hs, e⟩
      exact ⟨v, w, u, hv, hw, hu, by linear_combination hs, by rw [e]; simp only [Vec.mk.injEq]; constructor <;> ring⟩

/-- C41. The constructor raises `ValueError` exactly when twice the signed area rounds to zero at seven decimals, so that
the vertices of a new triangle are not aligned. -/
theorem create_triangle_spec (a b c : Vec K) :
    (Triangle.create a b c = .error .valueError ↔
      |(b.x - a.x) * (c.y - a.y) - (b.y - a.y) * (c.x - a.x)| ≤ 5 / 10 ^ 8) ∧
    (∀ t, Triangle.create a b c = .ok t → t = ⟨a, b, c⟩ ∧ ¬ Aligned t.p0 t.p1 t.p2) := by
  have e : (b - a).cross (c - a) = (b.x - a.x) * (c.y - a.y) - (b.y - a.y) * (c.x - a.x) := rfl
  unfold Triangle.create Vec.isParallel Vec.roundsToZero
  rw [e]
  constructor
  · split <;> simp_all
  · intro t ht
    split at ht
    · cases ht
    · rename_i hc
      cases ht
      refine ⟨rfl, fun al => hc ?_⟩
      simp only [Aligned] at al
      rw [al, sub_self, abs_zero, decide_eq_true_eq]
      positivity

/-- C41, at the point the constructor excludes: a triangle which becomes flat afterwards (its points can be set)
contains every point of the plane. -/
theorem isPointInside_flat (t : Triangle K) (h : Aligned t.p0 t.p1 t.p2) (q : Vec K) : t.isPointInside q = true := by
  obtain ⟨⟨ax, ay⟩, ⟨bx, b_y⟩, ⟨cx, cy⟩⟩ := t
  simp only [Aligned] at h
  have e0 : (cx - bx) * (ay - b_y) - (cy - b_y) * (ax - bx) = 0 := by linear_combination h
  have e1 : (cx - ax) * (b_y - ay) - (cy - ay) * (bx - ax) = 0 := by linear_combination -h
  have e2 : (bx - ax) * (cy - ay) - (b_y - ay) * (cx - ax) = 0 := by linear_combination h
  simp [Triangle.isPointInside, Triangle.sameSide, Vec.cross, e0, e1, e2]

example : ¬ Aligned (⟨0, 0⟩ : Vec ℚ) ⟨4, 0⟩ ⟨0, 4⟩ ∧ (⟨⟨0, 0⟩, ⟨4, 0⟩, ⟨0, 4⟩⟩ : Triangle ℚ).isPointInside ⟨2, 2⟩ = true ∧
    (⟨⟨0, 0⟩, ⟨4, 0⟩, ⟨0, 4⟩⟩ : Triangle ℚ).isPointInside ⟨2, 3⟩ = false := by
  unfold Aligned; decide +kernel

/-- C41. The three edges of a triangle join consecutive vertices: each starts where the previous one ends and the last one
comes back to the first vertex. -/
theorem triangle_edges (t : Triangle K) :
    ∃ a b c : Segment K, t.edges = [a, b, c] ∧ a.p0 = t.p0 ∧ b.p0 = t.p1 ∧ c.p0 = t.p2 ∧ a.p1 = b.p0 ∧ b.p1 = c.p0 ∧
      c.p1 = a.p0 :=
  ⟨_, _, _, rfl, rfl, rfl, rfl, rfl, rfl, rfl⟩

/-! ## C42 -/

/-- C42. `is_point_inside` answers for every point, and is true exactly for the points of the closed rectangle, whatever
the order of the corners. -/
theorem rectangle_isPointInside (r : Rectangle K) (q : Vec K) :
    ∃ b, r.isPointInside q = .ok b ∧ (b = true ↔ InRectangle r.p0 r.p1 q) := by
  refine ⟨_, rfl, ?_⟩
  rw [Bool.and_eq_true, decide_eq_true_eq, decide_eq_true_eq]
  simp only [Box.ofPoint, Box.union]
  have key : ∀ a b c : K, (min a b ≤ c ∧ c ≤ max a b) ↔ ∃ t : K, 0 ≤ t ∧ t ≤ 1 ∧ c = (1 - t) * a + t * b := by
    intro a b c
    constructor
    · rintro ⟨h1, h2⟩
      rcases lt_trichotomy a b with hab | hab | hab
      · rw [min_eq_left hab.le] at h1
        rw [max_eq_right hab.le] at h2
        have : 0 < b - a := sub_pos.2 hab
        refine ⟨(c - a) / (b - a), div_nonneg (by linarith) this.le, (div_le_one this).2 (by linarith), ?_⟩
        field_simp; ring
      · subst hab
        rw [min_self] at h1; rw [max_self] at h2
        exact ⟨0, le_refl _, zero_le_one, by linarith⟩
      · rw [min_eq_right hab.le] at h1
        rw [max_eq_left hab.le] at h2
        have : 0 < a - b := sub_pos.2 hab
        refine ⟨(a - c) / (a - b), div_nonneg (by linarith) this.le, (div_le_one this).2 (by linarith), ?_⟩
        field_simp; ring
    · rintro ⟨t, t0, t1, rfl⟩
      rcases le_total a b with hab | hab
      · rw [min_eq_left hab, max_eq_right hab]
        constructor <;> nlinarith
      · rw [min_eq_right hab, max_eq_left hab]
        constructor <;> nlinarith
  rw [key, key]
  constructor
  · rintro ⟨⟨s, s0, s1, hs⟩, ⟨t, t0, t1, ht⟩⟩
    exact ⟨s, t, s0, s1, t0, t1, by ext <;> assumption⟩
  · rintro ⟨s, t, s0, s1, t0, t1, rfl⟩
    exact ⟨⟨s, s0, s1, rfl⟩, ⟨t, t0, t1, rfl⟩⟩

/-- C42. The four edges join consecutive corners: each starts where the previous one ends, the last one comes back to the
first corner, consecutive edges are orthogonal and opposite corners are the two given points. -/
theorem rectangle_edges (r : Rectangle K) :
    ∃ a b c d : Segment K, r.edges = [a, b, c, d] ∧ a.p0 = r.p0 ∧ a.p1 = b.p0 ∧ b.p1 = c.p0 ∧ c.p0 = r.p1 ∧ c.p1 = d.p0 ∧
      d.p1 = a.p0 ∧ a.vector.dot b.vector = 0 ∧ b.vector.dot c.vector = 0 ∧ c.vector.dot d.vector = 0 := by
  refine ⟨_, _, _, _, rfl, rfl, rfl, rfl, rfl, rfl, rfl, ?_, ?_, ?_⟩ <;>
    simp [Segment.vector, Vec.dot, Rectangle.p01, Rectangle.p10]

end Field

/-- C42. The perimeter is the sum of the lengths of the four edges and the area the product of the lengths of two
consecutive ones. -/
theorem rectangle_perimeter_area (r : Rectangle ℝ) :
    r.perimeter = (r.edges.map Segment.length).sum ∧
    r.area = distance r.p0 r.p01 * distance r.p01 r.p1 := by
  have h1 : ∀ a b : ℝ, Real.sqrt ((a - b) * (a - b) + 0 * 0) = |a - b| := by
    intro a b; rw [zero_mul, add_zero, Real.sqrt_mul_self_eq_abs]
  have h2 : ∀ a b : ℝ, Real.sqrt (0 * 0 + (a - b) * (a - b)) = |a - b| := by
    intro a b; rw [zero_mul, zero_add, Real.sqrt_mul_self_eq_abs]
  constructor
  · simp only [Rectangle.perimeter, Rectangle.edges, Rectangle.diagonal, Segment.length, Segment.vector, Vec.magnitude,
      Vec.magnitudeSquare, Rectangle.p01, Rectangle.p10, List.map_cons, List.map_nil, List.sum_cons, List.sum_nil,
      Vec.sub_x, Vec.sub_y, sub_self, h1, h2]
    rw [abs_sub_comm r.p0.x, abs_sub_comm r.p0.y]
    ring
  · simp only [Rectangle.area, Rectangle.diagonal, distance, Rectangle.p01, Vec.sub_x, Vec.sub_y, sub_self, zero_pow two_ne_zero,
      add_zero, zero_add, Real.sqrt_sq_eq_abs]
    rw [abs_mul, abs_sub_comm r.p0.x, abs_sub_comm r.p0.y, mul_comm]

example : (⟨⟨3, 1⟩, ⟨0, 2⟩⟩ : Rectangle ℚ).isPointInside ⟨1, 2⟩ = .ok true ∧
    (⟨⟨3, 1⟩, ⟨0, 2⟩⟩ : Rectangle ℚ).isPointInside ⟨1, 3⟩ = .ok false ∧
    (⟨⟨3, 1⟩, ⟨0, 2⟩⟩ : Rectangle ℚ).area = 3 ∧ (⟨⟨3, 1⟩, ⟨0, 2⟩⟩ : Rectangle ℚ).perimeter = 8 := by decide +kernel

/-! ## C83 -/

section Triangle

variable {K : Type _} [Field K] [LinearOrder K] [IsStrictOrderedRing K]

/-- C83. The line called bisector is the median: it contains the middle of the opposite side. -/
theorem bisector_is_median (t : Triangle K) :
    t.bisectorLine0.Contains (Vec.middle t.p1 t.p2) ∧ t.bisectorLine0.Contains t.p0 ∧
    t.bisectorLine1.Contains (Vec.middle t.p0 t.p2) ∧ t.bisectorLine1.Contains t.p1 ∧
    t.bisectorLine2.Contains (Vec.middle t.p0 t.p1) ∧ t.bisectorLine2.Contains t.p2 := by
  refine ⟨⟨1 / 2, ?_⟩, ⟨0, ?_⟩, ⟨1 / 2, ?_⟩, ⟨0, ?_⟩, ⟨1 / 2, ?_⟩, ⟨0, ?_⟩⟩ <;> ext <;>
    simp only [Triangle.bisectorLine0, Triangle.bisectorLine1, Triangle.bisectorLine2, Triangle.bisectorVector0,
      Triangle.bisectorVector1, Triangle.bisectorVector2, Vec.middle, Vec.smul_x, Vec.smul_y, Vec.add_x, Vec.add_y,
      Vec.sub_x, Vec.sub_y] <;> ring

/-- C83. The area does not depend on the order of the vertices, is positive exactly for a triangle that is not flat, and
is unchanged by translation. -/
theorem triangle_area_spec (a b c v : Vec K) :
    (⟨b, a, c⟩ : Triangle K).area = (⟨a, b, c⟩ : Triangle K).area ∧
    (⟨b, c, a⟩ : Triangle K).area = (⟨a, b, c⟩ : Triangle K).area ∧
    (⟨a + v, b + v, c + v⟩ : Triangle K).area = (⟨a, b, c⟩ : Triangle K).area ∧
    (0 < (⟨a, b, c⟩ : Triangle K).area ↔ ¬ Aligned a b c) := by
  unfold Triangle.area Vec.cross
  simp only [Vec.sub_x, Vec.sub_y, Vec.add_x, Vec.add_y]
  refine ⟨?_, ?_, ?_, ?_⟩
  · congr 1; rw [← abs_neg]; congr 1; ring
  · congr 2; ring
  · congr 2; ring
  · rw [mul_pos_iff_of_pos_left (by norm_num), abs_pos, ne_eq, sub_eq_zero]
    rfl

end Triangle

/-- C83. The area is half of the product of a side by the distance of the third vertex to its line. -/
theorem triangle_area_base_height (t : Triangle ℝ) (h : t.p0 ≠ t.p1) :
    ∃ d, (Segment.toLine ⟨t.p0, t.p1⟩).distanceToLine t.p2 = .ok d ∧ t.area = 1 / 2 * distance t.p0 t.p1 * |d| := by
  have hv : (Segment.toLine ⟨t.p0, t.p1⟩).v ≠ 0 := by
    intro e
    have e' : t.p1 - t.p0 = 0 := e
    apply h
    rw [Vec.ext_iff] at e' ⊢
    simp only [Vec.sub_x, Vec.sub_y, Vec.zero_x, Vec.zero_y] at e'
    exact ⟨by linarith [e'.1], by linarith [e'.2]⟩
  have hm := Vec.magnitude_pos _ hv
  refine ⟨_, Vec.pyDiv_ok _ _ hm.ne', ?_⟩
  have hd : distance t.p0 t.p1 = (Segment.toLine ⟨t.p0, t.p1⟩).v.magnitude := by
    rw [← distance_eq]
    unfold Vec.magnitude Vec.magnitudeSquare Segment.toLine Line.fromTwoPoints
    congr 1
    simp only [Vec.sub_x, Vec.sub_y]
    ring
  rw [hd, abs_div, abs_of_pos hm, mul_assoc, mul_div_cancel₀ _ hm.ne']
  rfl

/-- C83. The line called bisector makes the same angle with the two sides at its vertex (the cosines are compared)
exactly when these sides have the same length. Missing from the claim: the other triangles, for which it is false. -/
theorem bisector_iff_partial (t : Triangle ℝ) (h : ¬ Aligned t.p0 t.p1 t.p2) :
    (t.bisectorVector0.dot (t.p1 - t.p0) / distance t.p1 t.p0 = t.bisectorVector0.dot (t.p2 - t.p0) / distance t.p2 t.p0 ↔
      distance t.p1 t.p0 = distance t.p2 t.p0) := by
  rw [← distance_eq, ← distance_eq]
  have ha : t.p1 - t.p0 ≠ 0 := by
    intro e
    rw [Vec.ext_iff] at e
    simp only [Vec.sub_x, Vec.sub_y, Vec.zero_x, Vec.zero_y] at e
    apply h; unfold Aligned; rw [e.1, e.2]; ring
  have hb : t.p2 - t.p0 ≠ 0 := by
    intro e
    rw [Vec.ext_iff] at e
    simp only [Vec.sub_x, Vec.sub_y, Vec.zero_x, Vec.zero_y] at e
    apply h; unfold Aligned; rw [e.1, e.2]; ring
  have hma := Vec.magnitude_pos _ ha
  have hmb := Vec.magnitude_pos _ hb
  have ea := Vec.magnitude_mul_self (t.p1 - t.p0)
  have eb := Vec.magnitude_mul_self (t.p2 - t.p0)
  have hc : (t.p1 - t.p0).cross (t.p2 - t.p0) ≠ 0 := by
    intro e; apply h; unfold Aligned; unfold Vec.cross at e; simp only [Vec.sub_x, Vec.sub_y] at e
    linear_combination e
  have lag := Vec.lagrange (t.p1 - t.p0) (t.p2 - t.p0)
  have e1 : t.bisectorVector0.dot (t.p1 - t.p0) = (t.p1 - t.p0).magnitudeSquare + (t.p1 - t.p0).dot (t.p2 - t.p0) := by
    unfold Triangle.bisectorVector0 Vec.dot Vec.magnitudeSquare; simp only [Vec.add_x, Vec.add_y]; ring
  have e2 : t.bisectorVector0.dot (t.p2 - t.p0) = (t.p2 - t.p0).magnitudeSquare + (t.p1 - t.p0).dot (t.p2 - t.p0) := by
    unfold Triangle.bisectorVector0 Vec.dot Vec.magnitudeSquare; simp only [Vec.add_x, Vec.add_y]; ring
  rw [e1, e2, ← ea, ← eb]
  generalize (t.p1 - t.p0).magnitude = m at *
  generalize (t.p2 - t.p0).magnitude = n at *
  generalize (t.p1 - t.p0).dot (t.p2 - t.p0) = p at *
  generalize (t.p1 - t.p0).cross (t.p2 - t.p0) = c at *
  rw [← ea, ← eb] at lag
  rw [div_eq_div_iff hma.ne' hmb.ne']
  constructor
  · intro e
    have : (m - n) * (m * n - p) = 0 := by linear_combination e
    rcases mul_eq_zero.1 this with e' | e'
    · linarith
    · exfalso
      have hp : p = m * n := by linarith
      rw [hp] at lag
      apply hc
      have : c ^ 2 = 0 := by nlinarith
      exact pow_eq_zero_iff two_ne_zero |>.1 this
  · intro e; rw [e]

/-- C83 fails for the bisector of a triangle with sides of different lengths: `(0, 0)`, `(4, 0)`, `(0, 3)`. -/
theorem bisector_wrong :
    let t : Triangle ℝ := ⟨⟨0, 0⟩, ⟨4, 0⟩, ⟨0, 3⟩⟩
    t.bisectorVector0.dot (t.p1 - t.p0) / distance t.p1 t.p0 ≠ t.bisectorVector0.dot (t.p2 - t.p0) / distance t.p2 t.p0 := by
  intro t e
  have h := (bisector_iff_partial t (by norm_num [t, Aligned])).1 e
  have e1 : distance t.p1 t.p0 = 4 := by
    show Real.sqrt ((4 - 0) ^ 2 + (0 - 0) ^ 2) = 4
    rw [show ((4 : ℝ) - 0) ^ 2 + (0 - 0) ^ 2 = 4 ^ 2 by norm_num]; exact Real.sqrt_sq (by norm_num)
  have e2 : distance t.p2 t.p0 = 3 := by
    show Real.sqrt ((0 - 0) ^ 2 + (3 - 0) ^ 2) = 3
    rw [show ((0 : ℝ) - 0) ^ 2 + (3 - 0) ^ 2 = 3 ^ 2 by norm_num]; exact Real.sqrt_sq (by norm_num)
  rw [e1, e2] at h
  norm_num at h

/-! ## C84 -/

section Box

variable {K : Type _} [LinearOrder K]

/-- C84. The bounding box of a non-empty list of points contains all of them and each of its four sides is reached by a
point; there is none (`None`) for an empty list. -/
theorem boundingBox_spec (points : List (Vec K)) :
    (Box.fromPoints points = none ↔ points = []) ∧
    ∀ b, Box.fromPoints points = some b →
      (∀ p ∈ points, b.xInf ≤ p.x ∧ p.x ≤ b.xSup ∧ b.yInf ≤ p.y ∧ p.y ≤ b.ySup) ∧
      (∃ p ∈ points, p.x = b.xInf) ∧ (∃ p ∈ points, p.x = b.xSup) ∧
      (∃ p ∈ points, p.y = b.yInf) ∧ (∃ p ∈ points, p.y = b.ySup) := by
  have loop : ∀ (ps seen : List (Vec K)) (b0 : Box K),
      ((∀ p ∈ seen, b0.xInf ≤ p.x ∧ p.x ≤ b0.xSup ∧ b0.yInf ≤ p.y ∧ p.y ≤ b0.ySup) ∧
        (∃ p ∈ seen, p.x = b0.xInf) ∧ (∃ p ∈ seen, p.x = b0.xSup) ∧
        (∃ p ∈ seen, p.y = b0.yInf) ∧ (∃ p ∈ seen, p.y = b0.ySup)) →
      ∃ b, Box.fromPointsLoop (some b0) ps = some b ∧
      (∀ p ∈ seen ++ ps, b.xInf ≤ p.x ∧ p.x ≤ b.xSup ∧ b.yInf ≤ p.y ∧ p.y ≤ b.ySup) ∧
        (∃ p ∈ seen ++ ps, p.x = b.xInf) ∧ (∃ p ∈ seen ++ ps, p.x = b.xSup) ∧
        (∃ p ∈ seen ++ ps, p.y = b.yInf) ∧ (∃ p ∈ seen ++ ps, p.y = b.ySup) := by
    intro ps
    induction ps with
    | nil => intro seen b0 h; exact ⟨b0, rfl, by simpa using h⟩
    | cons p ps ih =>
      intro seen b0 h
      have := ih (seen ++ [p]) (b0.union (Box.ofPoint p)) (by
        obtain ⟨hc, ⟨a, ha, ea⟩, ⟨b, hb, eb⟩, ⟨c, hc', ec⟩, ⟨d, hd, ed⟩⟩ := h
        refine ⟨?_, ?_, ?_, ?_, ?_⟩
        · intro q hq
          rcases List.mem_append.1 hq with hq | hq
          · obtain ⟨h1, h2, h3, h4⟩ := hc q hq
            exact ⟨min_le_of_left_le h1, le_max_of_le_left h2, min_le_of_left_le h3, le_max_of_le_left h4⟩
          · rw [List.mem_singleton] at hq; subst hq
            exact ⟨min_le_right _ _, le_max_right _ _, min_le_right _ _, le_max_right _ _⟩
        · rcases min_choice b0.xInf p.x with e | e
          · exact ⟨a, by simp [ha], ea.trans e.symm⟩
          · exact ⟨p, by simp, e.symm⟩
        · rcases max_choice b0.xSup p.x with e | e
          · exact ⟨b, by simp [hb], eb.trans e.symm⟩
          · exact ⟨p, by simp, e.symm⟩
        · rcases min_choice b0.yInf p.y with e | e
          · exact ⟨c, by simp [hc'], ec.trans e.symm⟩
          · exact ⟨p, by simp, e.symm⟩
        · rcases max_choice b0.ySup p.y with e | e
          · exact ⟨d, by simp [hd], ed.trans e.symm⟩
          · exact ⟨p, by simp, e.symm⟩)
      obtain ⟨b, hb, hr⟩ := this
      refine ⟨b, hb, ?_⟩
      simpa using hr
  cases points with
  | nil => exact ⟨by simp [Box.fromPoints, Box.fromPointsLoop], fun b hb => by cases hb⟩
  | cons p ps =>
    obtain ⟨b, hb, hr⟩ := loop ps [p] (Box.ofPoint p) (by simp [Box.ofPoint])
    have hb' : Box.fromPoints (p :: ps) = some b := hb
    rw [hb']
    refine ⟨by simp, ?_⟩
    intro b' e
    cases e
    exact hr

end Box

example : Box.fromPoints [(⟨1, 5⟩ : Vec ℚ), ⟨-2, 7⟩, ⟨3, 6⟩] = some ⟨-2, 3, 5, 7⟩ := by decide +kernel

/-! ## C43 -/

theorem mem_pointEdges {K : Type _} (points : List (Vec K)) (s : Segment K) :
    s ∈ Polyline.pointEdges points ↔ ∃ i, points[i]? = some s.p0 ∧ points[i + 1]? = some s.p1 := by
  induction points with
  | nil => simp [Polyline.pointEdges]
  | cons p ps ih =>
    cases ps with
    | nil => simp [Polyline.pointEdges]
    | cons q qs =>
      rw [Polyline.pointEdges, List.mem_cons, ih]
      constructor
      · rintro (rfl | ⟨i, h⟩)
        · exact ⟨0, rfl, rfl⟩
        · exact ⟨i + 1, by simpa using h⟩
      · rintro ⟨i, h1, h2⟩
        cases i with
        | zero =>
          left
          simp only [List.getElem?_cons_zero, Option.some.injEq, zero_add, List.getElem?_cons_succ] at h1 h2
          cases s; simp_all
        | succ i => right; exact ⟨i, by simpa using h1, by simpa using h2⟩

theorem distanceLoop_spec (q : Vec ℝ) (es : List (Segment ℝ)) (d : ℝ) :
    ∃ r, Polyline.distanceLoop q (some d) es = .ok (some r) ∧ r ≤ d ∧
      (r = d ∨ ∃ e ∈ es, e.distanceToPoint q = .ok r) ∧ ∀ e ∈ es, ∀ d', e.distanceToPoint q = .ok d' → r ≤ d' := by
  induction es generalizing d with
  | nil => exact ⟨d, rfl, le_refl _, Or.inl rfl, by simp⟩
  | cons e es ih =>
    obtain ⟨de, hde, _⟩ := distanceToPoint_isLeast e q
    obtain ⟨r, hr, hle, hor, hall⟩ := ih (if de < d then de else d)
    refine ⟨r, ?_, ?_, ?_, ?_⟩
    · rw [Polyline.distanceLoop, hde]
      exact hr
    · refine le_trans hle ?_
      split
      · rename_i h; exact h.le
      · exact le_refl _
    · rcases hor with h | ⟨e', he', h⟩
      · split at h
        · right; exact ⟨e, by simp, by rw [hde, h]⟩
        · exact Or.inl h
      · right; exact ⟨e', by simp [he'], h⟩
    · intro e' he' d' hd'
      rcases List.mem_cons.1 he' with rfl | he'
      · rw [hde] at hd'
        cases hd'
        refine le_trans hle ?_
        split
        · exact le_refl _
        · rename_i h; exact not_lt.1 h
      · exact hall e' he' d' hd'

/-- C43. What `distance_to_point` computes when the edges are those of the points, with at least two points: the least
distance to a point of the polyline. -/
theorem polyline_distance_fresh (points : List (Vec ℝ)) (cache : Option (List (Segment ℝ)))
    (hc : cache = none ∨ cache = some (Polyline.pointEdges points)) (h2 : 2 ≤ points.length) (q : Vec ℝ) :
    ∃ d, ((⟨points, cache⟩ : Polyline ℝ).distanceToPoint q).1 = .ok (some d) ∧
      IsLeast {d | ∃ p, OnPolyline points p ∧ d = distance p q} d := by
  have hes : (⟨points, cache⟩ : Polyline ℝ).getEdges.1 = Polyline.pointEdges points := by
    rcases hc with rfl | rfl <;> rfl
  show ∃ d, Polyline.distanceLoop q none (Polyline.getEdges ⟨points, cache⟩).1 = _ ∧ _
  rw [hes]
  match points, h2 with
  | a :: b :: ps, _ =>
    rw [Polyline.pointEdges]
    obtain ⟨d0, hd0, _⟩ := distanceToPoint_isLeast ⟨a, b⟩ q
    obtain ⟨r, hr, hle, hor, hall⟩ := distanceLoop_spec q (Polyline.pointEdges (b :: ps)) d0
    refine ⟨r, ?_, ?_, ?_⟩
    · rw [Polyline.distanceLoop, hd0]
      exact hr
    · have : ∃ e ∈ Polyline.pointEdges (a :: b :: ps), e.distanceToPoint q = .ok r := by
        rcases hor with rfl | ⟨e, he, h⟩
        · exact ⟨⟨a, b⟩, by simp [Polyline.pointEdges], hd0⟩
        · exact ⟨e, by rw [Polyline.pointEdges]; exact List.mem_cons_of_mem _ he, h⟩
      obtain ⟨e, he, h⟩ := this
      obtain ⟨d', hd', ⟨⟨p, hp, hpd⟩, _⟩⟩ := distanceToPoint_isLeast e q
      rw [h] at hd'; cases hd'
      obtain ⟨i, h0, h1⟩ := (mem_pointEdges _ _).1 he
      exact ⟨p, ⟨i, _, _, h0, h1, hp⟩, hpd⟩
    · rintro d ⟨p, ⟨i, x, y, hx, hy, hp⟩, rfl⟩
      have he : (⟨x, y⟩ : Segment ℝ) ∈ Polyline.pointEdges (a :: b :: ps) := (mem_pointEdges _ _).2 ⟨i, hx, hy⟩
      obtain ⟨d', hd', ⟨_, hl⟩⟩ := distanceToPoint_isLeast ⟨x, y⟩ q
      have h1 : d' ≤ distance p q := hl ⟨p, hp, rfl⟩
      rw [Polyline.pointEdges] at he
      rcases List.mem_cons.1 he with he | he
      · rw [he] at hd'
        rw [hd0] at hd'; cases hd'
        exact le_trans hle h1
      · exact le_trans (hall _ he _ hd') h1

theorem run_keeps_cache {K : Type _} (pl : Polyline K) (es : List (Segment K)) (h : pl.edges = some es) (ops : List (Polyline.Op K)) :
    (ops.foldl Polyline.Op.run pl).edges = some es := by
  induction ops generalizing pl with
  | nil => exact h
  | cons op ops ih =>
    apply ih
    cases op with
    | edges => simp [Polyline.Op.run, Polyline.getEdges, h]
    | distance _ => simp [Polyline.Op.run, Polyline.getEdges, h]
    | transform f => exact h

theorem run_transforms {K : Type _} (points : List (Vec K)) (fs : List (Vec K → Vec K)) :
    (fs.map Polyline.Op.transform).foldl Polyline.Op.run ⟨points, none⟩ =
      (⟨fs.foldl (fun ps f => ps.map f) points, none⟩ : Polyline K) := by
  induction fs generalizing points with
  | nil => rfl
  | cons f fs ih => exact ih _

/-- C43. `distance_to_point` of a new polyline, after any in place transformations, is the least distance to a point of
the polyline. Missing: transformations made after the first question (`polyline_stale`). -/
theorem polyline_distance_partial (points : List (Vec ℝ)) (pl : Polyline ℝ) (h : Polyline.create points = .ok pl)
    (fs : List (Vec ℝ → Vec ℝ)) (q : Vec ℝ) :
    ∃ d, (((fs.map Polyline.Op.transform).foldl Polyline.Op.run pl).distanceToPoint q).1 = .ok (some d) ∧
      IsLeast {d | ∃ p, OnPolyline (fs.foldl (fun ps f => ps.map f) points) p ∧ d = distance p q} d := by
  unfold Polyline.create at h
  split at h
  · cases h
  · rename_i h2
    cases h
    rw [run_transforms]
    refine polyline_distance_fresh _ _ (Or.inl rfl) ?_ q
    have : ∀ ps : List (Vec ℝ), (fs.foldl (fun ps f => ps.map f) ps).length = ps.length := by
      induction fs with
      | nil => simp
      | cons f fs ih => intro ps; rw [List.foldl_cons, ih]; simp
    rw [this]; omega

/-- C43. After the first question every answer is the distance to the polyline as it was at that time, whatever is done
to the polyline since. -/
theorem polyline_distance_frozen (points : List (Vec ℝ)) (h2 : 2 ≤ points.length) (first : Polyline.Op ℝ)
    (hf : ∀ f, first ≠ .transform f) (ops : List (Polyline.Op ℝ)) (q : Vec ℝ) :
    ∃ d, (((first :: ops).foldl Polyline.Op.run ⟨points, none⟩).distanceToPoint q).1 = .ok (some d) ∧
      IsLeast {d | ∃ p, OnPolyline points p ∧ d = distance p q} d := by
  have h1 : (Polyline.Op.run (⟨points, none⟩ : Polyline ℝ) first).edges = some (Polyline.pointEdges points) := by
    cases first with
    | edges => rfl
    | distance _ => rfl
    | transform f => exact absurd rfl (hf f)
  have h3 := run_keeps_cache _ _ h1 ops
  obtain ⟨d, hd, hl⟩ := polyline_distance_fresh points (some (Polyline.pointEdges points)) (Or.inr rfl) h2 q
  refine ⟨d, ?_, hl⟩
  rw [← hd, List.foldl_cons]
  generalize List.foldl Polyline.Op.run (Polyline.Op.run ⟨points, none⟩ first) ops = pl at h3
  unfold Polyline.distanceToPoint Polyline.getEdges
  rw [h3]

/-- C43 fails after a transformation in place: the polyline through `(0, 0)` and `(1, 0)`, asked once and then moved by
`(0, 5)`, still answers 0 for the origin, which is at distance 5. -/
theorem polyline_stale :
    ((([.distance ⟨0, 0⟩, .transform fun p => ⟨p.x, p.y + 5⟩] : List (Polyline.Op ℝ)).foldl Polyline.Op.run
      ⟨[⟨0, 0⟩, ⟨1, 0⟩], none⟩).distanceToPoint ⟨0, 0⟩).1 = .ok (some 0) ∧
    ∀ p, OnPolyline [⟨0, 5⟩, ⟨1, 5⟩] p → 5 ≤ distance p ⟨0, 0⟩ := by
  constructor
  · obtain ⟨d, hd, ⟨⟨p, ⟨i, a, b, ha, hb, t, t0, t1, rfl⟩, hp⟩, hl⟩⟩ := polyline_distance_frozen [⟨0, 0⟩, ⟨1, 0⟩] (by simp) (.distance ⟨0, 0⟩) (by simp)
      [.transform fun p => ⟨p.x, p.y + 5⟩] ⟨0, 0⟩
    rw [hd]
    congr 2
    have h0 : d ≤ 0 := by
      have := hl ⟨⟨0, 0⟩, ⟨0, ⟨0, 0⟩, ⟨1, 0⟩, rfl, rfl, 0, le_refl _, zero_le_one, by simp⟩, rfl⟩
      simpa [distance] using this
    refine le_antisymm h0 ?_
    rw [hp]; exact Real.sqrt_nonneg _
  · rintro p ⟨i, a, b, ha, hb, t, t0, t1, rfl⟩
    cases i with
    | succ i => simp at hb
    | zero =>
      simp only [List.getElem?_cons_zero, Option.some.injEq, zero_add, List.getElem?_cons_succ] at ha hb
      subst ha hb
      unfold distance
      apply Real.le_sqrt_of_sq_le
      simp only
      nlinarith

/-- C43. Fewer than two points are refused. -/
theorem polyline_create {K : Type _} (points : List (Vec K)) :
    Polyline.create points = .error .valueError ↔ points.length < 2 := by
  unfold Polyline.create; split <;> simp_all

end Patro
