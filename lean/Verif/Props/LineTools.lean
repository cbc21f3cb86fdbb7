import Verif.Spec.LineTools
import Verif.Props.Line
import Verif.Props.Shapes
/-! # Properties of the measuring functions of lines (C193) and triangles (C194) -/

namespace Patro

/-! ## C193 -/

section Box

variable {K : Type _} [Field K] [LinearOrder K] [IsStrictOrderedRing K]

/-- C193. For a line that is not vertical and a box with a width, `get_x_y_from_bounding_box` gives two points of the line such that the part
of the line inside the box is between them. -/
theorem boundingBox_covers_partial (l : Line K) (box : Box K) (hv : l.v.x ≠ 0) (hx : box.xInf < box.xSup) (hy : box.yInf ≤ box.ySup) :
    ∃ a b, l.getXYFromBoundingBox box = .ok (a, b) ∧ l.Contains a ∧ l.Contains b ∧
      ((a.x = box.xInf ∧ b.x = box.xSup) ∨ (a.y = box.yInf ∧ b.y = box.ySup)) ∧
      ∀ q, l.Contains q → InBox box q → Between a b q := by
  have hw : box.xSup - box.xInf ≠ 0 := (sub_pos.2 hx).ne'
  unfold Line.getXYFromBoundingBox
  rw [if_neg hv, if_neg hw]
  by_cases hs : |l.v.y / l.v.x| > (box.ySup - box.yInf) / (box.xSup - box.xInf)
  · rw [if_pos hs]
    have hvy : l.v.y ≠ 0 := by
      intro h0
      rw [h0] at hs
      simp only [zero_div, abs_zero] at hs
      have : 0 ≤ (box.ySup - box.yInf) / (box.xSup - box.xInf) := div_nonneg (sub_nonneg.2 hy) (sub_nonneg.2 hx.le)
      exact absurd hs (not_lt.2 this)
    have e : ∀ y, l.getXFromY y = .ok (l.v.x / l.v.y * (y - l.p.y) + l.p.x) := fun y => if_neg hvy
    simp only [e]
    refine ⟨_, _, rfl, ((coordinates_spec l _).2.2.1 _ (e _)).1, ((coordinates_spec l _).2.2.1 _ (e _)).1, .inr ⟨rfl, rfl⟩, ?_⟩
    rintro q ⟨s, rfl⟩ ⟨-, -, h1, h2⟩
    simp only at h1 h2
    rcases hy.lt_or_eq with hy | hy
    · have hh : box.ySup - box.yInf ≠ 0 := (sub_pos.2 hy).ne'
      refine ⟨(l.p.y + s * l.v.y - box.yInf) / (box.ySup - box.yInf), div_nonneg (sub_nonneg.2 h1) (sub_nonneg.2 hy.le), ?_, ?_⟩
      · rw [div_le_one (sub_pos.2 hy)]; linarith
      · ext <;> simp only <;> field_simp <;> ring
    · refine ⟨0, le_rfl, zero_le_one, ?_⟩
      have h3 : l.p.y + s * l.v.y = box.yInf := le_antisymm (by rw [hy]; exact h2) h1
      ext
      · simp only; rw [← h3]; field_simp; ring
      · simp only; rw [h3]; ring
  · rw [if_neg hs]
    have e : ∀ x, l.getYFromX x = .ok (l.v.y / l.v.x * (x - l.p.x) + l.p.y) := fun x => if_neg hv
    simp only [e]
    refine ⟨_, _, rfl, ((coordinates_spec l _).1 _ (e _)).1, ((coordinates_spec l _).1 _ (e _)).1, .inl ⟨rfl, rfl⟩, ?_⟩
    rintro q ⟨s, rfl⟩ ⟨h1, h2, -, -⟩
    simp only at h1 h2
    refine ⟨(l.p.x + s * l.v.x - box.xInf) / (box.xSup - box.xInf), div_nonneg (sub_nonneg.2 h1) (sub_nonneg.2 hx.le), ?_, ?_⟩
    · rw [div_le_one (sub_pos.2 hx)]; linarith
    · ext <;> simp only <;> field_simp <;> ring

/-- C193 fails for the vertical lines: the box of every one raises `ZeroDivisionError`. -/
theorem boundingBox_vertical_wrong (l : Line K) (box : Box K) (hv : l.v.x = 0) : l.getXYFromBoundingBox box = .error .zeroDivisionError := by
  unfold Line.getXYFromBoundingBox
  rw [if_pos hv]

/-- C193. For a line that goes through the center of the box the two points are in the box. -/
theorem boundingBox_center_partial (l : Line K) (box : Box K) (hv : l.v.x ≠ 0) (hx : box.xInf < box.xSup) (hy : box.yInf ≤ box.ySup)
    (hc : l.Contains ⟨(box.xInf + box.xSup) / 2, (box.yInf + box.ySup) / 2⟩) (a b : Vec K) (h : l.getXYFromBoundingBox box = .ok (a, b)) :
    InBox box a ∧ InBox box b := by
  have hw : 0 < box.xSup - box.xInf := sub_pos.2 hx
  obtain ⟨s, hs⟩ := hc
  have hcx := congrArg Vec.x hs
  have hcy := congrArg Vec.y hs
  simp only at hcx hcy
  unfold Line.getXYFromBoundingBox at h
  rw [if_neg hv, if_neg hw.ne'] at h
  split_ifs at h with hslope
  · have hvy : l.v.y ≠ 0 := by
      intro h0
      rw [h0] at hslope
      simp only [zero_div, abs_zero] at hslope
      exact absurd hslope (not_lt.2 (div_nonneg (sub_nonneg.2 hy) hw.le))
    have e : ∀ y, l.getXFromY y = .ok (l.v.x / l.v.y * (y - l.p.y) + l.p.x) := fun y => if_neg hvy
    simp only [e] at h
    cases h
    have ea : l.v.x / l.v.y * (box.yInf - l.p.y) + l.p.x = (box.xInf + box.xSup) / 2 - l.v.x / l.v.y * ((box.ySup - box.yInf) / 2) := by
      have : l.p.y = (box.yInf + box.ySup) / 2 - s * l.v.y := by linarith
      have h2 : l.p.x = (box.xInf + box.xSup) / 2 - s * l.v.x := by linarith
      rw [this, h2]; field_simp; ring
    have eb : l.v.x / l.v.y * (box.ySup - l.p.y) + l.p.x = (box.xInf + box.xSup) / 2 + l.v.x / l.v.y * ((box.ySup - box.yInf) / 2) := by
      have : l.p.y = (box.yInf + box.ySup) / 2 - s * l.v.y := by linarith
      have h2 : l.p.x = (box.xInf + box.xSup) / 2 - s * l.v.x := by linarith
      rw [this, h2]; field_simp; ring
    have hb : |l.v.x / l.v.y * ((box.ySup - box.yInf) / 2)| ≤ (box.xSup - box.xInf) / 2 := by
      have hpos : 0 < |l.v.y / l.v.x| := abs_pos.2 (div_ne_zero hvy hv)
      have h1 : box.ySup - box.yInf < |l.v.y / l.v.x| * (box.xSup - box.xInf) := (div_lt_iff₀ hw).1 hslope
      have h3 : |l.v.x / l.v.y| * |l.v.y / l.v.x| = 1 := by
        rw [← abs_mul, div_mul_div_comm, mul_comm l.v.x, div_self (mul_ne_zero hvy hv), abs_one]
      rw [abs_mul, abs_of_nonneg (by linarith [sub_nonneg.2 hy] : 0 ≤ (box.ySup - box.yInf) / 2)]
      have h4 : |l.v.x / l.v.y| * (box.ySup - box.yInf) ≤ |l.v.x / l.v.y| * (|l.v.y / l.v.x| * (box.xSup - box.xInf)) :=
        mul_le_mul_of_nonneg_left h1.le (abs_nonneg _)
      rw [← mul_assoc, h3, one_mul] at h4
      linarith
    obtain ⟨hb1, hb2⟩ := abs_le.1 hb
    refine ⟨⟨?_, ?_, le_rfl, hy⟩, ⟨?_, ?_, hy, le_rfl⟩⟩ <;> simp only [ea, eb] <;> linarith
  · have e : ∀ x, l.getYFromX x = .ok (l.v.y / l.v.x * (x - l.p.x) + l.p.y) := fun x => if_neg hv
    simp only [e] at h
    cases h
    have h1 : l.p.y = (box.yInf + box.ySup) / 2 - s * l.v.y := by linarith
    have h2 : l.p.x = (box.xInf + box.xSup) / 2 - s * l.v.x := by linarith
    have ea : l.v.y / l.v.x * (box.xInf - l.p.x) + l.p.y = (box.yInf + box.ySup) / 2 - l.v.y / l.v.x * ((box.xSup - box.xInf) / 2) := by
      rw [h1, h2]; field_simp; ring
    have eb : l.v.y / l.v.x * (box.xSup - l.p.x) + l.p.y = (box.yInf + box.ySup) / 2 + l.v.y / l.v.x * ((box.xSup - box.xInf) / 2) := by
      rw [h1, h2]; field_simp; ring
    have hb : |l.v.y / l.v.x * ((box.xSup - box.xInf) / 2)| ≤ (box.ySup - box.yInf) / 2 := by
      rw [abs_mul, abs_of_nonneg (by linarith : 0 ≤ (box.xSup - box.xInf) / 2)]
      have := (le_div_iff₀ hw).1 (not_lt.1 hslope)
      linarith
    obtain ⟨hb1, hb2⟩ := abs_le.1 hb
    refine ⟨⟨le_rfl, hx.le, ?_, ?_⟩, ⟨hx.le, le_rfl, ?_, ?_⟩⟩ <;> simp only [ea, eb] <;> linarith

theorem abs_pair {K : Type _} [Field K] [LinearOrder K] [IsStrictOrderedRing K] (e k h : K) :
    (-h ≤ e - k ∧ e - k ≤ h) ∧ (-h ≤ e + k ∧ e + k ≤ h) ↔ |e| + |k| ≤ h := by
  constructor
  · rintro ⟨⟨h1, h2⟩, h3, h4⟩
    rcases abs_cases e with ⟨e1, -⟩ | ⟨e1, -⟩ <;> rcases abs_cases k with ⟨e2, -⟩ | ⟨e2, -⟩ <;> linarith
  · intro h1
    have := le_abs_self e
    have := neg_abs_le e
    have := le_abs_self k
    have := neg_abs_le k
    refine ⟨⟨?_, ?_⟩, ?_, ?_⟩ <;> linarith

/-- C193 fails, exactly: for a line less steep than the diagonal of the box, the two points are in the box if and only if the line goes over the
center, or under it, at a height not above half of the height of the box less half of the rise of the line across the box; for a steeper line it
is the same with the axes exchanged. -/
theorem boundingBox_outside_wrong (l : Line K) (box : Box K) (hv : l.v.x ≠ 0) (hx : box.xInf < box.xSup) (hy : box.yInf ≤ box.ySup) (a b : Vec K)
    (h : l.getXYFromBoundingBox box = .ok (a, b)) (q : Vec K) (hq : l.Contains q) :
    (|l.v.y / l.v.x| ≤ (box.ySup - box.yInf) / (box.xSup - box.xInf) → q.x = (box.xInf + box.xSup) / 2 →
      (InBox box a ∧ InBox box b ↔
        |q.y - (box.yInf + box.ySup) / 2| + |l.v.y / l.v.x| * ((box.xSup - box.xInf) / 2) ≤ (box.ySup - box.yInf) / 2)) ∧
    ((box.ySup - box.yInf) / (box.xSup - box.xInf) < |l.v.y / l.v.x| → q.y = (box.yInf + box.ySup) / 2 →
      (InBox box a ∧ InBox box b ↔
        |q.x - (box.xInf + box.xSup) / 2| + |l.v.x / l.v.y| * ((box.ySup - box.yInf) / 2) ≤ (box.xSup - box.xInf) / 2)) := by
  have hw : 0 < box.xSup - box.xInf := sub_pos.2 hx
  obtain ⟨s, hs⟩ := hq
  have hqx := congrArg Vec.x hs
  have hqy := congrArg Vec.y hs
  simp only at hqx hqy
  unfold Line.getXYFromBoundingBox at h
  rw [if_neg hv, if_neg hw.ne'] at h
  constructor
  · intro hslope hc
    rw [if_neg (not_lt.2 hslope)] at h
    have e : ∀ x, l.getYFromX x = .ok (l.v.y / l.v.x * (x - l.p.x) + l.p.y) := fun x => if_neg hv
    simp only [e] at h
    cases h
    have h1 : l.p.y = q.y - s * l.v.y := by linarith
    have h2 : l.p.x = (box.xInf + box.xSup) / 2 - s * l.v.x := by linarith
    have ea : l.v.y / l.v.x * (box.xInf - l.p.x) + l.p.y = q.y - l.v.y / l.v.x * ((box.xSup - box.xInf) / 2) := by
      rw [h1, h2]; field_simp; ring
    have eb : l.v.y / l.v.x * (box.xSup - l.p.x) + l.p.y = q.y + l.v.y / l.v.x * ((box.xSup - box.xInf) / 2) := by
      rw [h1, h2]; field_simp; ring
    have key := abs_pair (q.y - (box.yInf + box.ySup) / 2) (l.v.y / l.v.x * ((box.xSup - box.xInf) / 2)) ((box.ySup - box.yInf) / 2)
    rw [abs_mul, abs_of_pos (by linarith : 0 < (box.xSup - box.xInf) / 2)] at key
    rw [← key]
    unfold InBox
    simp only [ea, eb]
    constructor
    · rintro ⟨⟨-, -, g1, g2⟩, -, -, g3, g4⟩
      refine ⟨⟨?_, ?_⟩, ?_, ?_⟩ <;> linarith
    · rintro ⟨⟨g1, g2⟩, g3, g4⟩
      refine ⟨⟨le_rfl, hx.le, ?_, ?_⟩, hx.le, le_rfl, ?_, ?_⟩ <;> linarith
  · intro hslope hc
    rw [if_pos hslope] at h
    have hvy : l.v.y ≠ 0 := by
      intro h0
      rw [h0] at hslope
      simp only [zero_div, abs_zero] at hslope
      exact absurd hslope (not_lt.2 (div_nonneg (sub_nonneg.2 hy) hw.le))
    have e : ∀ y, l.getXFromY y = .ok (l.v.x / l.v.y * (y - l.p.y) + l.p.x) := fun y => if_neg hvy
    simp only [e] at h
    cases h
    have h1 : l.p.x = q.x - s * l.v.x := by linarith
    have h2 : l.p.y = (box.yInf + box.ySup) / 2 - s * l.v.y := by linarith
    have ea : l.v.x / l.v.y * (box.yInf - l.p.y) + l.p.x = q.x - l.v.x / l.v.y * ((box.ySup - box.yInf) / 2) := by
      rw [h1, h2]; field_simp; ring
    have eb : l.v.x / l.v.y * (box.ySup - l.p.y) + l.p.x = q.x + l.v.x / l.v.y * ((box.ySup - box.yInf) / 2) := by
      rw [h1, h2]; field_simp; ring
    have key := abs_pair (q.x - (box.xInf + box.xSup) / 2) (l.v.x / l.v.y * ((box.ySup - box.yInf) / 2)) ((box.xSup - box.xInf) / 2)
    rw [abs_mul, abs_of_nonneg (by linarith : 0 ≤ (box.ySup - box.yInf) / 2)] at key
    rw [← key]
    unfold InBox
    simp only [ea, eb]
    constructor
    · rintro ⟨⟨g1, g2, -, -⟩, g3, g4, -, -⟩
      refine ⟨⟨?_, ?_⟩, ?_, ?_⟩ <;> linarith
    · rintro ⟨⟨g1, g2⟩, g3, g4⟩
      refine ⟨⟨?_, ?_, le_rfl, hy⟩, ?_, ?_, hy, le_rfl⟩ <;> linarith

/-- The points need not be in the box, although the line goes through it. -/
example : ∃ (l : Line ℚ) (box : Box ℚ) (a b : Vec ℚ), l.getXYFromBoundingBox box = .ok (a, b) ∧
    (∃ q, l.Contains q ∧ InBox box q) ∧ ¬ InBox box b := by
  refine ⟨⟨⟨0, 1⟩, ⟨1, 1⟩⟩, ⟨0, 2, 0, 2⟩, ⟨0, 1⟩, ⟨2, 3⟩, by decide +kernel, ⟨⟨0, 1⟩, ⟨0, by ext <;> simp⟩, ?_⟩, ?_⟩
  · unfold InBox; norm_num
  · unfold InBox; norm_num

example : (⟨⟨0, 0⟩, ⟨1, 3⟩⟩ : Line ℚ).getXYFromBoundingBox ⟨-1, 1, -1, 1⟩ = .ok (⟨-1 / 3, -1⟩, ⟨1 / 3, 1⟩) := by decide +kernel

end Box

/-- C193 fails for the distances between abscissae: for every line, two abscissae raise `TypeError`, and so do two or more of a list; an empty
list raises `IndexError`. -/
theorem distances_wrong (l : Line ℝ) (s0 s1 : ℝ) (rest : List ℝ) :
    l.computeDistanceBetweenAbscissae s0 s1 = .error .typeError ∧ l.computeDistance (s0 :: s1 :: rest) = .error .typeError ∧
    l.computeDistance [s0] = .ok [] ∧ ∃ e, l.computeDistance [] = .error e := by
  refine ⟨rfl, ?_, rfl, ⟨_, rfl⟩⟩
  unfold Line.computeDistance
  simp only [IterTools.pairwise, Py.getItem, List.drop, IterTools.pairwiseLoop]
  rfl

theorem distance_sq (a b : Vec ℝ) : distance a b ^ 2 = (a - b).magnitudeSquare := by
  unfold distance
  rw [Real.sq_sqrt (by positivity)]
  simp only [Vec.magnitudeSquare, Vec.sub_x, Vec.sub_y]
  ring

/-- C193. What `triangle_projected_point` does for every line with a vector: it raises `ValueError` exactly when the distance asked is smaller
than the one to the projected point `p`; otherwise it gives a point of the line, on the side of its vector from `p` (on the other side when
reversed), whose distance is the one asked exactly when `p` is the foot of the perpendicular or is at this distance. -/
theorem triangleProjectedPoint_iff (l : Line ℝ) (point : Vec ℝ) (d : ℝ) (reverse : Bool) (hv : l.v ≠ 0) :
    ∃ p, l.projectedPoint point = .ok p ∧
      (|d| < distance p point → l.triangleProjectedPoint point d reverse = .error .valueError) ∧
      (distance p point ≤ |d| → ∃ q, l.triangleProjectedPoint point d reverse = .ok (some q) ∧ l.Contains q ∧
        (if reverse then (q - p).dot l.v ≤ 0 else 0 ≤ (q - p).dot l.v) ∧
        (distance q point = |d| ↔ distance p point = |d| ∨ (point - p).dot l.v = 0)) := by
  obtain ⟨p, hp, hl, -⟩ := projectedPoint_foot_iff l point hv
  have hm := Vec.magnitude_pos _ hv
  have hm0 := hm.ne'
  have hmm : l.v.magnitude * l.v.magnitude = l.v.x * l.v.x + l.v.y * l.v.y := Vec.magnitude_mul_self l.v
  have hd0 : 0 ≤ distance p point := Real.sqrt_nonneg _
  refine ⟨p, hp, fun h => ?_, fun h => ?_⟩
  · unfold Line.triangleProjectedPoint
    simp only [hp, bind, Except.bind]
    rw [if_pos]
    rw [← distance_sq, ← sq_abs d]
    nlinarith [abs_nonneg d]
  · have hs : ¬ d ^ 2 - (p - point).magnitudeSquare < 0 := by
      rw [← distance_sq, ← sq_abs d]
      nlinarith [abs_nonneg d]
    have hs0 := not_lt.1 hs
    have hroot : Real.sqrt (d ^ 2 - (p - point).magnitudeSquare) ^ 2 = d ^ 2 - (p - point).magnitudeSquare := Real.sq_sqrt hs0
    have hroot0 := Real.sqrt_nonneg (d ^ 2 - (p - point).magnitudeSquare)
    generalize hr : Real.sqrt (d ^ 2 - (p - point).magnitudeSquare) = r at hroot hroot0
    have hd : ∃ k : ℝ, k = (if reverse then -r else r) ∧ k ^ 2 = d ^ 2 - (p - point).magnitudeSquare ∧
        (if reverse then k ≤ 0 else 0 ≤ k) := by
      refine ⟨_, rfl, ?_, ?_⟩
      · cases reverse <;> simp [hroot]
      · cases reverse <;> simp [hroot0]
    obtain ⟨k, hk, hk2, hk0⟩ := hd
    have hq : l.pointAtDistance k p = some (p + (l.v.sdiv l.v.magnitude).smul k) := by
      unfold Line.pointAtDistance Vec.toNormalised
      rw [if_neg hm0]
      rfl
    refine ⟨p + (l.v.sdiv l.v.magnitude).smul k, ?_, ?_, ?_, ?_⟩
    · unfold Line.triangleProjectedPoint
      simp only [hp, bind, Except.bind]
      rw [if_neg hs, hr, ← hk, hq]
      rfl
    · obtain ⟨s, rfl⟩ := hl
      refine ⟨s + k / l.v.magnitude, ?_⟩
      ext <;> simp only [Vec.add_x, Vec.add_y, Vec.smul_x, Vec.smul_y, Vec.sdiv_x, Vec.sdiv_y] <;> ring
    · have e : (p + (l.v.sdiv l.v.magnitude).smul k - p).dot l.v = k * l.v.magnitude := by
        simp only [Vec.dot, Vec.sub_x, Vec.sub_y, Vec.add_x, Vec.add_y, Vec.smul_x, Vec.smul_y, Vec.sdiv_x, Vec.sdiv_y]
        generalize l.v.magnitude = m at hm0 hmm
        field_simp
        linear_combination -k * hmm
      rw [e]
      cases reverse
      · simp only [Bool.false_eq_true, if_false] at hk0 ⊢
        positivity
      · simp only [if_true] at hk0 ⊢
        exact mul_nonpos_of_nonpos_of_nonneg hk0 hm.le
    · have e : distance (p + (l.v.sdiv l.v.magnitude).smul k) point ^ 2 = d ^ 2 - 2 * k * ((point - p).dot l.v / l.v.magnitude) := by
        have h2 : (p - point).magnitudeSquare = d ^ 2 - k ^ 2 := by linarith
        rw [distance_sq]
        have : (p + (l.v.sdiv l.v.magnitude).smul k - point).magnitudeSquare =
            (p - point).magnitudeSquare + k ^ 2 - 2 * k * ((point - p).dot l.v / l.v.magnitude) := by
          simp only [Vec.magnitudeSquare, Vec.dot, Vec.sub_x, Vec.sub_y, Vec.add_x, Vec.add_y, Vec.smul_x, Vec.smul_y, Vec.sdiv_x, Vec.sdiv_y]
          generalize l.v.magnitude = m at hm0 hmm
          field_simp
          linear_combination -k ^ 2 * hmm
        rw [this, h2]; ring
      have hsq : ∀ x : ℝ, 0 ≤ x → (x = |d| ↔ x ^ 2 = d ^ 2) := by
        intro x hx
        rw [← sq_abs d]
        constructor
        · rintro rfl; rfl
        · intro h; exact (sq_eq_sq₀ hx (abs_nonneg d)).1 h
      rw [hsq (distance _ point) (Real.sqrt_nonneg _), hsq (distance p point) hd0, e]
      have e2 : distance p point ^ 2 = d ^ 2 - k ^ 2 := by rw [distance_sq]; linarith
      rw [e2]
      constructor
      · intro h
        have h3 : k * ((point - p).dot l.v / l.v.magnitude) = 0 := by linarith
        rcases mul_eq_zero.1 h3 with h | h
        · left; rw [h]; ring
        · right
          rcases div_eq_zero_iff.1 h with h | h
          · exact h
          · exact absurd h hm0
      · rintro (h | h)
        · have : k ^ 2 = 0 := by linarith
          have : k = 0 := by simpa using this
          rw [this]; ring
        · rw [h]; ring

/-- C193. For a line whose vector has length 1, `triangle_projected_point` gives the point of the line at the distance asked, on the side of the
vector, or on the other side when reversed. Missing: the vectors of another length (`triangleProjectedPoint_wrong`). -/
theorem triangleProjectedPoint_partial (l : Line ℝ) (point : Vec ℝ) (d : ℝ) (reverse : Bool) (hv : l.v.magnitude = 1) :
    ∃ p, l.Contains p ∧ (point - p).dot l.v = 0 ∧
      (|d| < distance p point → l.triangleProjectedPoint point d reverse = .error .valueError) ∧
      (distance p point ≤ |d| → ∃ q, l.triangleProjectedPoint point d reverse = .ok (some q) ∧ l.Contains q ∧
        (if reverse then (q - p).dot l.v ≤ 0 else 0 ≤ (q - p).dot l.v) ∧ distance q point = |d|) := by
  have hv0 : l.v ≠ 0 := by
    intro h
    rw [(Vec.magnitude_eq_zero _).2 h] at hv
    norm_num at hv
  obtain ⟨p, h1, h2, h3⟩ := projectedPoint_partial l point hv
  obtain ⟨p', h4, h5, h6⟩ := triangleProjectedPoint_iff l point d reverse hv0
  rw [h1] at h4
  cases h4
  refine ⟨p, h2, h3, h5, fun h => ?_⟩
  obtain ⟨q, h7, h8, h9, h10⟩ := h6 h
  exact ⟨q, h7, h8, h9, h10.2 (.inr h3)⟩

/-- C193 fails for a vector of another length: the point of the line from the origin along (2, 0) "at distance 2" of (1, 1) is at distance
√(4 + 2√2). -/
theorem triangleProjectedPoint_wrong : ∃ q, (⟨⟨0, 0⟩, ⟨2, 0⟩⟩ : Line ℝ).triangleProjectedPoint ⟨1, 1⟩ 2 false = .ok (some q) ∧
    distance q ⟨1, 1⟩ ≠ 2 := by
  have hv : (⟨2, 0⟩ : Vec ℝ) ≠ 0 := by
    intro h
    have := congrArg Vec.x h
    norm_num at this
  obtain ⟨p, h1, -, h3⟩ := triangleProjectedPoint_iff ⟨⟨0, 0⟩, ⟨2, 0⟩⟩ ⟨1, 1⟩ 2 false hv
  rw [projectedPoint_wrong] at h1
  cases h1
  have hd : distance (⟨2, 0⟩ : Vec ℝ) ⟨1, 1⟩ = Real.sqrt 2 := by unfold distance; norm_num
  have h2 : Real.sqrt 2 < 2 := by rw [Real.sqrt_lt' (by norm_num)]; norm_num
  obtain ⟨q, h4, -, -, h5⟩ := h3 (by rw [hd, abs_two]; exact h2.le)
  refine ⟨q, h4, fun h => ?_⟩
  rw [abs_two] at h5
  rcases h5.1 h with h | h
  · rw [hd] at h; exact h2.ne h
  · norm_num [Vec.dot] at h

/-- C193 fails for every vector of another length and every point which is not on the perpendicular through the point of the line: as soon as the
distance asked is larger than the one to the projected point, the point given is not at this distance. -/
theorem triangleProjectedPoint_always_wrong (l : Line ℝ) (point : Vec ℝ) (reverse : Bool) (hv : l.v ≠ 0) (h1 : l.v.magnitude ≠ 1)
    (hp : (point - l.p).dot l.v ≠ 0) :
    ∃ p, l.projectedPoint point = .ok p ∧ ∀ d, distance p point < |d| →
      ∃ q, l.triangleProjectedPoint point d reverse = .ok (some q) ∧ distance q point ≠ |d| := by
  obtain ⟨p, e, -, hf⟩ := projectedPoint_foot_iff l point hv
  refine ⟨p, e, fun d hd => ?_⟩
  obtain ⟨p', e', -, h3⟩ := triangleProjectedPoint_iff l point d reverse hv
  rw [e] at e'
  cases e'
  obtain ⟨q, h4, -, -, h5⟩ := h3 hd.le
  refine ⟨q, h4, fun h => ?_⟩
  rcases h5.1 h with h | h
  · exact hd.ne h
  · rcases hf.1 h with h | h
    · exact h1 h
    · exact hp h

/-- C193. Two lines are reported parallel (orthogonal) when their vectors are; the converse holds up to half a unit of the seventh decimal of
the cross (dot) product. -/
theorem parallel_orthogonal_lines {K : Type _} [Field K] [LinearOrder K] [IsStrictOrderedRing K] (l m : Line K) :
    (l.isParallel m = true ↔ |l.v.x * m.v.y - l.v.y * m.v.x| ≤ 5 / 10 ^ 8) ∧
    (l.isOrthogonal m = true ↔ |l.v.x * m.v.x + l.v.y * m.v.y| ≤ 5 / 10 ^ 8) ∧
    (∀ s : K, m.v = l.v.smul s → l.isParallel m = true) ∧ (l.isOrthogonal (l.orthogonalLineAt m.p) = true) := by
  have h0 : (0 : K) ≤ 5 / 10 ^ 8 := by positivity
  refine ⟨decide_eq_true_iff, decide_eq_true_iff, ?_, ?_⟩
  · intro s h
    refine decide_eq_true ?_
    rw [h]
    simp only [Vec.smul_x, Vec.smul_y, Vec.cross]
    rw [show l.v.x * (s * l.v.y) - l.v.y * (s * l.v.x) = 0 by ring, abs_zero]
    exact h0
  · refine decide_eq_true ?_
    simp only [Vec.dot, Line.orthogonalLineAt, Vec.normal]
    rw [show l.v.x * -l.v.y + l.v.y * l.v.x = 0 by ring, abs_zero]
    exact h0

/-! ## C194 -/

namespace Triangle

theorem fresh_reads (o : Object) (h1 : o.lengths = none) (h2 : o.angles = none) (p : Property) :
    (∀ e, p.failure = some e → o.read p = .error e) ∧ (p.failure = none → o.read p = .ok (o, .number o.triangle.area)) ∧ o.after p = o := by
  obtain ⟨t, l, a⟩ := o
  subst h1 h2
  cases p <;> exact ⟨(by intro e h; cases h <;> rfl), (by intro h; cases h <;> rfl), rfl⟩

/-- C194 fails: whatever has been read before, every property of a triangle that needs its lengths or its directions raises `AttributeError`, and
the four centers raise `NotImplementedError`; only the area is given. -/
theorem measures_wrong (p0 p1 p2 : Vec ℝ) (o : Object) (h : Object.new p0 p1 p2 = .ok o) (history : List Property) (p : Property) :
    (∀ e, p.failure = some e → (history.foldl Object.after o).read p = .error e) ∧
    (p.failure = none → ∃ o', (history.foldl Object.after o).read p = .ok (o', .number (1 / 2 * |(p1 - p0).cross (p2 - p0)|))) := by
  have ho : o.lengths = none ∧ o.angles = none ∧ o.triangle = ⟨p0, p1, p2⟩ := by
    unfold Object.new Triangle.create at h
    split at h
    · cases h
    · cases h; exact ⟨rfl, rfl, rfl⟩
  have hh : history.foldl Object.after o = o := by
    induction history with
    | nil => rfl
    | cons q l ih => rw [List.foldl_cons, (fresh_reads o ho.1 ho.2.1 q).2.2, ih]
  rw [hh]
  refine ⟨(fresh_reads o ho.1 ho.2.1 p).1, fun hp => ⟨o, ?_⟩⟩
  rw [(fresh_reads o ho.1 ho.2.1 p).2.1 hp, ho.2.2]
  rfl

example : ∃ o, Object.new ⟨0, 0⟩ ⟨1, 0⟩ ⟨0, 1⟩ = .ok o ∧ ([Property.area, .isRight].foldl Object.after o).read .perimeter = .error .attributeError := by
  have h : ∃ o, Object.new ⟨0, 0⟩ ⟨1, 0⟩ ⟨0, 1⟩ = .ok o := by
    refine ⟨{ triangle := ⟨⟨0, 0⟩, ⟨1, 0⟩, ⟨0, 1⟩⟩ }, ?_⟩
    unfold Object.new Triangle.create
    rw [if_neg]
    · rfl
    · norm_num [Vec.isParallel, Vec.roundsToZero, Vec.cross]
  obtain ⟨o, ho⟩ := h
  exact ⟨o, ho, (measures_wrong _ _ _ o ho _ .perimeter).1 _ rfl⟩

end Triangle

end Patro
