import Verif.Proof.Line
import Mathlib.Tactic.NormNum
/-!
# C38, C39, C40, C80, C81: lines and segments
-/

namespace Patro

open Triangle

section Field

variable {K : Type _} [Field K] [LinearOrder K] [IsStrictOrderedRing K]

/-! ## C38 -/

theorem line_contains_iff (l : Line K) (q : Vec K) : l.Contains q ↔ ∃ s, q = l.interpolate s := by
  unfold Line.Contains Line.interpolate
  refine exists_congr fun s => ?_
  rw [Vec.ext_iff, Vec.ext_iff]
  simp

theorem cross_ne_zero_of_not_round {x : K} (h : ¬ Vec.roundsToZero x = true) : x ≠ 0 := by
  rintro rfl
  apply h
  simp only [Vec.roundsToZero, abs_zero, decide_eq_true_eq]
  positivity

/-- C38. A point returned by `intersection` is on both lines, and is the only such point. -/
theorem intersection_sound (l1 l2 : Line K) (q : Vec K) (h : l1.intersection l2 = some q) :
    l1.Contains q ∧ l2.Contains q ∧ ∀ q', l1.Contains q' → l2.Contains q' → q' = q := by
  unfold Line.intersection Line.intersectionAbscissae at h
  simp only at h
  split at h
  · cases h
  · rename_i hc
    have hD := cross_ne_zero_of_not_round hc
    simp only [Option.map_some, Option.some.injEq] at h
    generalize hDe : l1.v.cross l2.v = D at hD h
    unfold Vec.cross at h hDe
    simp only [Vec.sub_x, Vec.sub_y] at h
    have hq : q = ⟨l1.p.x + ((l2.p.x - l1.p.x) * l2.v.y - (l2.p.y - l1.p.y) * l2.v.x) / D * l1.v.x,
        l1.p.y + ((l2.p.x - l1.p.x) * l2.v.y - (l2.p.y - l1.p.y) * l2.v.x) / D * l1.v.y⟩ := by
      rw [← h]
      ext <;> simp [Line.interpolate, div_eq_mul_inv]
    have hx : q.x = l1.p.x + ((l2.p.x - l1.p.x) * l2.v.y - (l2.p.y - l1.p.y) * l2.v.x) / D * l1.v.x := by rw [hq]
    have hy : q.y = l1.p.y + ((l2.p.x - l1.p.x) * l2.v.y - (l2.p.y - l1.p.y) * l2.v.x) / D * l1.v.y := by rw [hq]
    have hx' : q.x = l2.p.x + ((l2.p.x - l1.p.x) * l1.v.y - (l2.p.y - l1.p.y) * l1.v.x) / D * l2.v.x := by
      rw [hx]; field_simp; rw [← hDe]; ring
    have hy' : q.y = l2.p.y + ((l2.p.x - l1.p.x) * l1.v.y - (l2.p.y - l1.p.y) * l1.v.x) / D * l2.v.y := by
      rw [hy]; field_simp; rw [← hDe]; ring
    refine ⟨⟨_, hq⟩, ⟨_, Vec.ext hx' hy'⟩, ?_⟩
    rintro q' ⟨s, hs⟩ ⟨t, ht⟩
    have h1 : q'.x = l1.p.x + s * l1.v.x := by rw [hs]
    have h2 : q'.y = l1.p.y + s * l1.v.y := by rw [hs]
    have h3 : q'.x = l2.p.x + t * l2.v.x := by rw [ht]
    have h4 : q'.y = l2.p.y + t * l2.v.y := by rw [ht]
    have hse : s = ((l2.p.x - l1.p.x) * l2.v.y - (l2.p.y - l1.p.y) * l2.v.x) / D := by
      rw [eq_div_iff hD, ← hDe]
      linear_combination l2.v.y * h3 - l2.v.y * h1 - l2.v.x * h4 + l2.v.x * h2
    apply Vec.ext
    · rw [h1, hx, hse]
    · rw [h2, hy, hse]

/-- C38. `intersection` returns `None` exactly when the cross product of the vectors of the lines is at most `5·10⁻⁸` in
absolute value; in particular for parallel lines. -/
theorem intersection_none_iff (l1 l2 : Line K) :
    (l1.intersection l2 = none ↔ |l1.v.x * l2.v.y - l1.v.y * l2.v.x| ≤ 5 / 10 ^ 8) ∧
    (Vec.Dependent l1.v l2.v → l1.intersection l2 = none) := by
  have key : l1.intersection l2 = none ↔ |l1.v.x * l2.v.y - l1.v.y * l2.v.x| ≤ 5 / 10 ^ 8 := by
    unfold Line.intersection Line.intersectionAbscissae Vec.roundsToZero
    simp only [decide_eq_true_eq]
    split
    · rename_i h; exact ⟨fun _ => h, fun _ => rfl⟩
    · rename_i h; exact ⟨fun e => by simp at e, fun e => absurd e h⟩
  refine ⟨key, ?_⟩
  rintro ⟨a, b, hab, he⟩
  rw [Vec.ext_iff] at he
  simp only [Vec.add_x, Vec.add_y, Vec.smul_x, Vec.smul_y, Vec.zero_x, Vec.zero_y] at he
  rw [key]
  have : l1.v.x * l2.v.y - l1.v.y * l2.v.x = 0 := by
    rcases hab with ha | hb
    · apply mul_left_cancel₀ ha
      linear_combination l2.v.y * he.1 - l2.v.x * he.2
    · apply mul_left_cancel₀ hb
      linear_combination -l1.v.y * he.1 + l1.v.x * he.2
  rw [this, abs_zero]; positivity

/-- C38, the part about non-parallel lines: the intersection is found when the cross product of the vectors exceeds
`5·10⁻⁸` in absolute value. Missing: non-parallel lines with a smaller cross product, for which it is false
(`intersection_missed`). -/
theorem intersection_found_partial (l1 l2 : Line K) (h : 5 / 10 ^ 8 < |l1.v.x * l2.v.y - l1.v.y * l2.v.x|) :
    ∃ q, l1.intersection l2 = some q := by
  cases hi : l1.intersection l2 with
  | some q => exact ⟨q, rfl⟩
  | none => exact absurd ((intersection_none_iff l1 l2).1.1 hi) (not_le.2 h)

end Field

/-- C38 fails for short vectors: two perpendicular lines through the origin, with vectors of length `10⁻⁴`, have
"no intersection". -/
theorem intersection_missed : ∃ l1 l2 : Line ℚ, l1.intersection l2 = none ∧ l1.v.dot l2.v = 0 ∧ l1.v ≠ 0 ∧ l2.v ≠ 0 ∧
    l1.Contains 0 ∧ l2.Contains 0 := by
  refine ⟨⟨0, ⟨1 / 10 ^ 4, 0⟩⟩, ⟨0, ⟨0, 1 / 10 ^ 4⟩⟩, ?_, by decide +kernel, by decide +kernel, by decide +kernel,
    ⟨0, by decide +kernel⟩, ⟨0, by decide +kernel⟩⟩
  rw [(intersection_none_iff _ _).1]
  norm_num [abs_le]

example : (⟨⟨0, 0⟩, ⟨1, 1⟩⟩ : Line ℚ).intersection ⟨⟨0, 2⟩, ⟨1, -1⟩⟩ = some ⟨1, 1⟩ := by decide +kernel

/-! ## C39 -/

section Field

variable {K : Type _} [Field K] [LinearOrder K] [IsStrictOrderedRing K]

/-- C39. `intersect_with` answers `True` exactly when the two segments have a common point, whatever their position:
crossing, touching, collinear or reduced to a point. -/
theorem intersectWith_iff (s t : Segment K) : s.intersectWith t = true ↔ ∃ q, s.Contains q ∧ t.Contains q := by
  unfold Segment.intersectWith Segment.Contains
  simp only [Bool.or_eq_true, Bool.and_eq_true, decide_eq_true_eq, mul_eq_zero]
  constructor
  · rintro (⟨h1, h2⟩ | (((h | h) | h) | h))
    · exact share_of_opposite h1 h2
    · exact ⟨t.p0, (orientation_zero_iff _ _ _).1 h, ⟨0, le_refl _, zero_le_one, by ext <;> simp⟩⟩
    · exact ⟨t.p1, (orientation_zero_iff _ _ _).1 h, ⟨1, zero_le_one, le_refl _, by ext <;> simp⟩⟩
    · exact ⟨s.p0, ⟨0, le_refl _, zero_le_one, by ext <;> simp⟩, (orientation_zero_iff _ _ _).1 h⟩
    · exact ⟨s.p1, ⟨1, zero_le_one, le_refl _, by ext <;> simp⟩, (orientation_zero_iff _ _ _).1 h⟩
  · rintro ⟨q, hs, ht⟩
    by_contra hcon
    push Not at hcon
    obtain ⟨h1, ⟨⟨n1, n2⟩, n3⟩, n4⟩ := hcon
    rw [Ne, orientation_zero_iff] at n1 n2 n3 n4
    have a := opposite_of_share hs ht n1 n2 n3 n4
    have b := opposite_of_share ht hs n3 n4 n1 n2
    exact absurd b (not_lt.2 (h1 a))

/-- C39. `triangle_orientation` is 0 exactly when the third point is on the segment of the first two, else 1 or -1; it
is 1 for a strict left turn and -1 for a strict right turn. -/
theorem triangleOrientation_spec (p0 p1 p2 : Vec K) :
    (triangleOrientation p0 p1 p2 = 0 ↔ Between p0 p1 p2) ∧
    (triangleOrientation p0 p1 p2 = 0 ∨ triangleOrientation p0 p1 p2 = 1 ∨ triangleOrientation p0 p1 p2 = -1) ∧
    (0 < (p1 - p0).cross (p2 - p0) → triangleOrientation p0 p1 p2 = 1) ∧
    ((p1 - p0).cross (p2 - p0) < 0 → triangleOrientation p0 p1 p2 = -1) := by
  obtain ⟨h0, _, _, h3, h4⟩ := orientation_cases p0 p1 p2
  refine ⟨orientation_zero_iff _ _ _, ?_, h3, h4⟩
  rcases h0 with h | h | h
  · exact Or.inr (Or.inl h)
  · exact Or.inr (Or.inr h)
  · exact Or.inl h

/-- C39. `Segment2D.intersection` of two segments whose vectors have a cross product above `5·10⁻⁸`: the point is on both
carrying lines, and the flag tells whether it is on both segments, that is whether the segments have a common point. -/
theorem segment_intersection_spec (s t : Segment K) (q : Vec K) (b : Bool) (h : s.intersection t = some (q, b)) :
    s.toLine.Contains q ∧ t.toLine.Contains q ∧ (b = true ↔ ∃ q', s.Contains q' ∧ t.Contains q') ∧
    (b = true → s.Contains q ∧ t.Contains q) := by
  have hline : ∀ (u : Segment K) x, u.interpolate x = u.toLine.interpolate x := by
    intro u x
    ext <;> simp [Segment.interpolate, Segment.toLine, Line.fromTwoPoints, Line.interpolate] <;> ring
  have hsub : ∀ (u : Segment K) q', u.Contains q' → u.toLine.Contains q' := by
    rintro u q' ⟨x, _, _, rfl⟩
    refine ⟨x, ?_⟩
    ext <;> simp [Segment.toLine, Line.fromTwoPoints] <;> ring
  unfold Segment.intersection at h
  cases ha : s.toLine.intersectionAbscissae t.toLine with
  | none => rw [ha] at h; cases h
  | some ab =>
    rw [ha] at h
    simp only [Option.map_some, Option.some.injEq, Prod.mk.injEq] at h
    obtain ⟨h1, h2⟩ := h
    have hint : s.toLine.intersection t.toLine = some q := by
      unfold Line.intersection; rw [ha, Option.map_some, ← hline, h1]
    obtain ⟨c1, c2, c3⟩ := intersection_sound _ _ _ hint
    -- the point seen from the second segment
    have ht : q = t.toLine.interpolate ab.2 := by
      have hq := h1
      unfold Line.intersectionAbscissae at ha
      simp only at ha
      split at ha
      · cases ha
      · rename_i hc
        have hD := cross_ne_zero_of_not_round hc
        cases ha
        rw [← hq, hline]
        generalize s.toLine = l1 at hD ⊢
        generalize t.toLine = l2 at hD ⊢
        unfold Line.interpolate
        generalize hDe : l1.v.cross l2.v = D at hD
        unfold Vec.cross at hDe ⊢
        ext
        · simp only [Vec.add_x, Vec.smul_x, Vec.sub_x, Vec.sub_y]
          field_simp; rw [← hDe]; ring
        · simp only [Vec.add_y, Vec.smul_y, Vec.sub_x, Vec.sub_y]
          field_simp; rw [← hDe]; ring
    have hb : b = true → s.Contains q ∧ t.Contains q := by
      intro hb
      rw [hb] at h2
      simp only [Bool.and_eq_true, decide_eq_true_eq] at h2
      refine ⟨⟨ab.1, h2.1.1, h2.1.2, ?_⟩, ⟨ab.2, h2.2.1, h2.2.2, ?_⟩⟩
      · rw [← h1]; ext <;> simp [Segment.interpolate]
      · rw [ht, ← hline]; ext <;> simp [Segment.interpolate]
    refine ⟨c1, c2, ⟨fun e => ⟨q, hb e⟩, ?_⟩, hb⟩
    rintro ⟨q', hs', ht'⟩
    obtain rfl := c3 q' (hsub s q' hs') (hsub t q' ht')
    -- the abscissae are the parameters of the point
    have hDne : s.toLine.v.cross t.toLine.v ≠ 0 := by
      unfold Line.intersectionAbscissae at ha
      simp only at ha
      split at ha
      · cases ha
      · rename_i hc; exact cross_ne_zero_of_not_round hc
    have inj : ∀ (l : Line K) (a b : K), l.v ≠ 0 → l.interpolate a = l.interpolate b → a = b := by
      intro l a b hv e
      rw [Vec.ext_iff] at e
      simp only [Line.interpolate, Vec.add_x, Vec.add_y, Vec.smul_x, Vec.smul_y, add_right_inj] at e
      by_contra hne
      apply hv
      ext
      · by_contra h0; exact hne (mul_right_cancel₀ h0 e.1)
      · by_contra h0; exact hne (mul_right_cancel₀ h0 e.2)
    have v1 : s.toLine.v ≠ 0 := by
      intro e; apply hDne; rw [e]; simp [Vec.cross]
    have v2 : t.toLine.v ≠ 0 := by
      intro e; apply hDne; rw [e]; simp [Vec.cross]
    obtain ⟨x, x0, x1, hx⟩ := hs'
    obtain ⟨y, y0, y1, hy⟩ := ht'
    have ex : ab.1 = x := by
      apply inj _ _ _ v1
      rw [← hline, h1, ← hline, hx]; ext <;> simp [Segment.interpolate]
    have ey : ab.2 = y := by
      apply inj _ _ _ v2
      rw [← ht, ← hline, hy]; ext <;> simp [Segment.interpolate]
    rw [← h2, ex, ey]
    simp [x0, x1, y0, y1]

end Field

example : (⟨⟨0, 0⟩, ⟨2, 2⟩⟩ : Segment ℚ).intersectWith ⟨⟨0, 2⟩, ⟨2, 0⟩⟩ = true ∧
    (⟨⟨0, 0⟩, ⟨2, 2⟩⟩ : Segment ℚ).intersectWith ⟨⟨3, 3⟩, ⟨4, 4⟩⟩ = false ∧
    (⟨⟨0, 0⟩, ⟨2, 2⟩⟩ : Segment ℚ).intersectWith ⟨⟨1, 1⟩, ⟨4, 4⟩⟩ = true ∧
    (⟨⟨0, 0⟩, ⟨2, 2⟩⟩ : Segment ℚ).intersectWith ⟨⟨3, 3⟩, ⟨3, 0⟩⟩ = false := by decide +kernel
example : (⟨⟨0, 0⟩, ⟨2, 2⟩⟩ : Segment ℚ).intersection ⟨⟨0, 2⟩, ⟨2, 0⟩⟩ = some (⟨1, 1⟩, true) := by decide +kernel

/-! ## C40 -/

theorem distance_le_iff (a b c d : Vec ℝ) :
    distance a b ≤ distance c d ↔ (a.x - b.x) ^ 2 + (a.y - b.y) ^ 2 ≤ (c.x - d.x) ^ 2 + (c.y - d.y) ^ 2 := by
  unfold distance
  exact Real.sqrt_le_sqrt_iff (by positivity)

theorem distanceAndAbscissa_ok (l : Line ℝ) (q : Vec ℝ) (h : l.v ≠ 0) :
    l.distanceAndAbscissaToLine q = .ok (l.v.cross (q - l.p) / l.v.magnitude, l.v.dot (q - l.p) / l.v.magnitude) := by
  have hp := Vec.magnitude_pos l.v h
  unfold Line.distanceAndAbscissaToLine
  simp only
  split
  · rename_i hz
    rw [Vec.magnitudeSquare_eq_zero] at hz
    rw [hz]
    simp [Vec.cross, Vec.dot]
  · unfold Vec.deviationWith Vec.projectionOn
    rw [Vec.pyDiv_ok _ _ hp.ne', Vec.pyDiv_ok _ _ hp.ne']
    rfl

/-- C40. `distance_to_point` returns the least distance from the point to a point of the segment, including for a
segment reduced to a point. -/
theorem distanceToPoint_isLeast (s : Segment ℝ) (q : Vec ℝ) :
    ∃ d, s.distanceToPoint q = .ok d ∧ IsLeast {d | ∃ p, s.Contains p ∧ d = distance p q} d := by
  have p0mem : s.Contains s.p0 := ⟨0, le_refl _, zero_le_one, by ext <;> simp⟩
  have p1mem : s.Contains s.p1 := ⟨1, zero_le_one, le_refl _, by ext <;> simp⟩
  unfold Segment.distanceToPoint
  simp only
  split
  · rename_i hz
    rw [Vec.magnitudeSquare_eq_zero] at hz
    refine ⟨_, rfl, ⟨s.p0, p0mem, distance_eq _ _⟩, ?_⟩
    rintro d ⟨p, ⟨t, _, _, rfl⟩, rfl⟩
    rw [distance_eq]
    apply le_of_eq
    congr 1
    have hz' : s.p1 - s.p0 = 0 := hz
    rw [Vec.ext_iff] at hz'
    simp only [Vec.sub_x, Vec.sub_y, Vec.zero_x, Vec.zero_y] at hz'
    ext <;> simp only
    · linear_combination -t * hz'.1
    · linear_combination -t * hz'.2
  · rename_i hz
    have hv : s.toLine.v ≠ 0 := fun e => hz ((Vec.magnitudeSquare_eq_zero _).2 e)
    have hm := Vec.magnitude_pos _ hv
    rw [distanceAndAbscissa_ok _ _ hv]
    dsimp only [bind, Except.bind]
    have hmm : s.toLine.v.magnitude * s.toLine.v.magnitude =
      (s.p1.x - s.p0.x) * (s.p1.x - s.p0.x) + (s.p1.y - s.p0.y) * (s.p1.y - s.p0.y) := Vec.magnitude_mul_self s.toLine.v
    obtain ⟨m, em⟩ : ∃ m, m = s.toLine.v.magnitude := ⟨_, rfl⟩
    obtain ⟨dx, hdx⟩ : ∃ d, s.p1.x - s.p0.x = d := ⟨_, rfl⟩
    obtain ⟨dy, hdy⟩ : ∃ d, s.p1.y - s.p0.y = d := ⟨_, rfl⟩
    obtain ⟨ax, hax⟩ : ∃ d, q.x - s.p0.x = d := ⟨_, rfl⟩
    obtain ⟨ay, hay⟩ : ∃ d, q.y - s.p0.y = d := ⟨_, rfl⟩
    obtain ⟨c, hc⟩ : ∃ c, c = s.toLine.v.cross (q - s.toLine.p) / s.toLine.v.magnitude := ⟨_, rfl⟩
    obtain ⟨σ, hs⟩ : ∃ c, c = s.toLine.v.dot (q - s.toLine.p) / s.toLine.v.magnitude := ⟨_, rfl⟩
    rw [← em] at hm
    rw [← em, hdx, hdy] at hmm
    have hc' : c = (dx * ay - dy * ax) / m := by rw [hc, em, ← hdx, ← hdy, ← hax, ← hay]; rfl
    have hs' : σ = (dx * ax + dy * ay) / m := by rw [hs, em, ← hdx, ← hdy, ← hax, ← hay]; rfl
    have hlen : s.length = m := em.symm
    have hm0 := hm.ne'
    -- squared distance from the point of parameter `t`
    have dist2 : ∀ t : ℝ, ((1 - t) * s.p0.x + t * s.p1.x - q.x) ^ 2 + ((1 - t) * s.p0.y + t * s.p1.y - q.y) ^ 2 =
        ((dx * ay - dy * ax) / m) ^ 2 + (t * m - (dx * ax + dy * ay) / m) ^ 2 := by
      intro t
      have e1 : (1 - t) * s.p0.x + t * s.p1.x - q.x = t * dx - ax := by rw [← hdx, ← hax]; ring
      have e2 : (1 - t) * s.p0.y + t * s.p1.y - q.y = t * dy - ay := by rw [← hdy, ← hay]; ring
      rw [e1, e2]
      field_simp
      linear_combination (ax ^ 2 + ay ^ 2 - m ^ 2 * t ^ 2) * hmm
    have dist : ∀ t : ℝ, distance ⟨(1 - t) * s.p0.x + t * s.p1.x, (1 - t) * s.p0.y + t * s.p1.y⟩ q =
        Real.sqrt (((dx * ay - dy * ax) / m) ^ 2 + (t * m - (dx * ax + dy * ay) / m) ^ 2) := by
      intro t; unfold distance; rw [dist2 t]
    rw [← hc', ← hs'] at dist
    clear dist2
    simp only [← hc, ← hs, hlen]
    by_cases hσ : 0 ≤ σ ∧ σ ≤ m
    · rw [if_pos hσ]
      refine ⟨_, rfl, ⟨_, ⟨σ / m, div_nonneg hσ.1 hm.le, (div_le_one hm).2 hσ.2, rfl⟩, ?_⟩, ?_⟩
      · rw [dist, div_mul_cancel₀ _ hm0, sub_self, zero_pow two_ne_zero, add_zero, Real.sqrt_sq_eq_abs]
      · rintro d ⟨p, ⟨t, _, _, rfl⟩, rfl⟩
        rw [dist, ← Real.sqrt_sq_eq_abs]
        exact Real.sqrt_le_sqrt (by have := sq_nonneg (t * m - σ); linarith)
    · rw [if_neg hσ]
      refine ⟨_, rfl, ?_, ?_⟩
      · split
        · exact ⟨s.p0, p0mem, distance_eq _ _⟩
        · exact ⟨s.p1, p1mem, distance_eq _ _⟩
      · rintro d ⟨p, ⟨t, t0, t1, rfl⟩, rfl⟩
        rw [dist, distance_eq]
        split
        · rename_i hneg
          have := dist 0
          simp only [sub_zero, one_mul, zero_mul, add_zero, zero_sub] at this
          rw [show s.p0 = ⟨s.p0.x, s.p0.y⟩ from rfl, this]
          apply Real.sqrt_le_sqrt
          have : 0 ≤ t * m := mul_nonneg t0 hm.le
          nlinarith
        · rename_i hneg
          have hgt : m < σ := by
            by_contra hc
            exact hσ ⟨not_lt.1 hneg, not_lt.1 hc⟩
          have := dist 1
          simp only [sub_self, one_mul, zero_mul, zero_add] at this
          rw [show s.p1 = ⟨s.p1.x, s.p1.y⟩ from rfl, this]
          apply Real.sqrt_le_sqrt
          have : t * m ≤ m := by nlinarith
          nlinarith

/-- The hypotheses are void; the point `(3, 4)` is at distance 5 of the segment `[(0,0), (0,-1)]`. -/
example : (⟨⟨0, 0⟩, ⟨0, -1⟩⟩ : Segment ℝ).distanceToPoint ⟨3, 4⟩ = .ok 5 := by
  obtain ⟨d, hd, ⟨p, ⟨t, t0, t1, rfl⟩, h1⟩, h2⟩ := distanceToPoint_isLeast ⟨⟨0, 0⟩, ⟨0, -1⟩⟩ ⟨3, 4⟩
  have h3 := h2 ⟨⟨0, 0⟩, ⟨0, le_refl _, zero_le_one, by ext <;> simp⟩, rfl⟩
  rw [hd]
  have e : distance ⟨0, 0⟩ ⟨3, 4⟩ = 5 := by
    unfold distance
    rw [show ((0 : ℝ) - 3) ^ 2 + (0 - 4) ^ 2 = 5 ^ 2 by norm_num]
    exact Real.sqrt_sq (by norm_num)
  rw [e] at h3
  congr 1
  apply le_antisymm h3
  rw [h1]
  unfold distance
  apply Real.le_sqrt_of_sq_le
  simp only
  nlinarith

/-! ## C80 -/

/-- C80. `distance_to_line` is a signed distance: its absolute value is the least distance from the point to a point of
the line, and it is positive exactly on the left of the vector of the line. A null vector raises `ZeroDivisionError`. -/
theorem distanceToLine_spec (l : Line ℝ) (q : Vec ℝ) :
    (l.v ≠ 0 → ∃ d, l.distanceToLine q = .ok d ∧ IsLeast {d | ∃ p, l.Contains p ∧ d = distance p q} |d| ∧
      (0 < d ↔ 0 < l.v.cross (q - l.p))) ∧
    (l.v = 0 → l.distanceToLine q = .error .zeroDivisionError) := by
  constructor
  · intro hv
    have hm := Vec.magnitude_pos _ hv
    have hm0 := hm.ne'
    have hmm : l.v.magnitude * l.v.magnitude = l.v.x * l.v.x + l.v.y * l.v.y := Vec.magnitude_mul_self l.v
    refine ⟨_, Vec.pyDiv_ok _ _ hm0, ?_, ?_⟩
    · have dist : ∀ t : ℝ, distance ⟨l.p.x + t * l.v.x, l.p.y + t * l.v.y⟩ q =
          Real.sqrt ((l.v.cross (q - l.p) / l.v.magnitude) ^ 2 +
            (t * l.v.magnitude - l.v.dot (q - l.p) / l.v.magnitude) ^ 2) := by
        intro t
        unfold distance
        congr 1
        unfold Vec.cross Vec.dot
        simp only [Vec.sub_x, Vec.sub_y]
        generalize l.v.magnitude = m at hm0 hmm
        field_simp
        linear_combination ((q.x - l.p.x) ^ 2 + (q.y - l.p.y) ^ 2 - m ^ 2 * t ^ 2) * hmm
      generalize l.v.cross (q - l.p) / l.v.magnitude = c at dist
      constructor
      · refine ⟨_, ⟨l.v.dot (q - l.p) / l.v.magnitude / l.v.magnitude, rfl⟩, ?_⟩
        rw [dist, div_mul_cancel₀ _ hm0, sub_self, zero_pow two_ne_zero, add_zero, Real.sqrt_sq_eq_abs]
      · rintro d ⟨p, ⟨t, rfl⟩, rfl⟩
        rw [dist, ← Real.sqrt_sq_eq_abs]
        apply Real.sqrt_le_sqrt
        have := sq_nonneg (t * l.v.magnitude - l.v.dot (q - l.p) / l.v.magnitude)
        linarith
    · rw [div_pos_iff_of_pos_right hm]
  · intro hv
    unfold Line.distanceToLine Vec.deviationWith Vec.pyDiv
    rw [if_pos ((Vec.magnitude_eq_zero _).2 hv)]

/-- C80. The foot of the perpendicular: for a line whose vector is normalised, `projected_point` is the point of the line
whose difference with the given point is orthogonal to the line. Missing: vectors of another length, for which it is
false (`projectedPoint_wrong`). -/
theorem projectedPoint_partial (l : Line ℝ) (q : Vec ℝ) (h : l.v.magnitude = 1) :
    ∃ p, l.projectedPoint q = .ok p ∧ l.Contains p ∧ (q - p).dot l.v = 0 := by
  have hmm : l.v.magnitude * l.v.magnitude = l.v.x * l.v.x + l.v.y * l.v.y := Vec.magnitude_mul_self l.v
  refine ⟨l.interpolate (l.v.dot (q - l.p)), ?_, (line_contains_iff _ _).2 ⟨_, rfl⟩, ?_⟩
  · unfold Line.projectedPoint Line.projectedAbscissa Vec.projectionOn
    rw [h, Vec.pyDiv_ok _ _ one_ne_zero, div_one]
    rfl
  · rw [h] at hmm
    unfold Line.interpolate Vec.dot
    simp only [Vec.sub_x, Vec.sub_y, Vec.add_x, Vec.add_y, Vec.smul_x, Vec.smul_y]
    linear_combination (l.v.x * (q.x - l.p.x) + l.v.y * (q.y - l.p.y)) * hmm

/-- C80. In general `projected_point` is on the line, and is the foot of the perpendicular exactly when the vector has
length 1 or the foot is the base point of the line. -/
theorem projectedPoint_foot_iff (l : Line ℝ) (q : Vec ℝ) (h : l.v ≠ 0) :
    ∃ p, l.projectedPoint q = .ok p ∧ l.Contains p ∧
      ((q - p).dot l.v = 0 ↔ l.v.magnitude = 1 ∨ (q - l.p).dot l.v = 0) := by
  have hm := Vec.magnitude_pos _ h
  have hm0 := hm.ne'
  have hmm : l.v.magnitude * l.v.magnitude = l.v.x * l.v.x + l.v.y * l.v.y := Vec.magnitude_mul_self l.v
  refine ⟨l.interpolate (l.v.dot (q - l.p) / l.v.magnitude), ?_, (line_contains_iff _ _).2 ⟨_, rfl⟩, ?_⟩
  · unfold Line.projectedPoint Line.projectedAbscissa Vec.projectionOn
    rw [Vec.pyDiv_ok _ _ hm0]
    rfl
  · have e : (q - l.interpolate (l.v.dot (q - l.p) / l.v.magnitude)).dot l.v =
        (q - l.p).dot l.v * (1 - l.v.magnitude) := by
      unfold Line.interpolate Vec.dot
      simp only [Vec.sub_x, Vec.sub_y, Vec.add_x, Vec.add_y, Vec.smul_x, Vec.smul_y]
      generalize l.v.magnitude = m at hm0 hmm
      field_simp
      linear_combination (l.v.x * (q.x - l.p.x) + l.v.y * (q.y - l.p.y)) * hmm
    rw [e, mul_eq_zero, sub_eq_zero, or_comm]
    constructor
    · rintro (e | e)
      · exact Or.inl e.symm
      · exact Or.inr e
    · rintro (e | e)
      · exact Or.inl e.symm
      · exact Or.inr e

/-- C80 fails for a line whose vector is not normalised: the point `(1, 1)` is "projected" on the line through the origin
with vector `(2, 0)` at `(2, 0)`. -/
theorem projectedPoint_wrong : (⟨⟨0, 0⟩, ⟨2, 0⟩⟩ : Line ℝ).projectedPoint ⟨1, 1⟩ = .ok ⟨2, 0⟩ := by
  have hm : (⟨2, 0⟩ : Vec ℝ).magnitude = 2 := by
    rw [Vec.magnitude_eq_iff _ _ (by norm_num)]; norm_num [Vec.magnitudeSquare]
  unfold Line.projectedPoint Line.projectedAbscissa Vec.projectionOn
  rw [hm, Vec.pyDiv_ok _ _ two_ne_zero]
  show Except.ok _ = _
  congr 1
  ext <;> norm_num [Line.interpolate, Vec.dot]

/-! ## C81 -/

section Field

variable {K : Type _} [Field K] [LinearOrder K] [IsStrictOrderedRing K]

/-- C81. `get_y_from_x` and `get_x_from_y` give the other coordinate of the only point of the line with that
coordinate; they raise `ZeroDivisionError` exactly for vertical (horizontal) lines. -/
theorem coordinates_spec (l : Line K) (a : K) :
    (∀ y, l.getYFromX a = .ok y → l.Contains ⟨a, y⟩ ∧ ∀ y', l.Contains ⟨a, y'⟩ → y' = y) ∧
    (l.getYFromX a = .error .zeroDivisionError ↔ l.v.x = 0) ∧
    (∀ x, l.getXFromY a = .ok x → l.Contains ⟨x, a⟩ ∧ ∀ x', l.Contains ⟨x', a⟩ → x' = x) ∧
    (l.getXFromY a = .error .zeroDivisionError ↔ l.v.y = 0) := by
  refine ⟨?_, by unfold Line.getYFromX; split <;> simp_all, ?_, by unfold Line.getXFromY; split <;> simp_all⟩
  · intro y hy
    unfold Line.getYFromX at hy
    split at hy
    · cases hy
    · rename_i hv
      cases hy
      refine ⟨⟨(a - l.p.x) / l.v.x, ?_⟩, ?_⟩
      · ext <;> simp only <;> field_simp <;> ring
      · rintro y' ⟨s, hs⟩
        rw [Vec.ext_iff] at hs
        simp only at hs
        rw [hs.2, hs.1]
        field_simp; ring
  · intro x hx
    unfold Line.getXFromY at hx
    split at hx
    · cases hx
    · rename_i hv
      cases hx
      refine ⟨⟨(a - l.p.y) / l.v.y, ?_⟩, ?_⟩
      · ext <;> simp only <;> field_simp <;> ring
      · rintro x' ⟨s, hs⟩
        rw [Vec.ext_iff] at hs
        simp only at hs
        rw [hs.1, hs.2]
        field_simp; ring

/-- C81. `parallel_line_at` and `orthogonal_line_at` pass through the given point, with the same vector and a vector
orthogonal to it of the same length. -/
theorem parallel_orthogonal_spec (l : Line K) (q : Vec K) (s : K) :
    (l.parallelLineAt q).Contains q ∧ (l.parallelLineAt q).v = l.v ∧
    (l.orthogonalLineAt q).Contains q ∧ (l.orthogonalLineAt q).v.dot l.v = 0 ∧
    (l.orthogonalLineAt q).v.magnitudeSquare = l.v.magnitudeSquare ∧
    l.orthogonalLineAtAbscissa s = l.orthogonalLineAt (l.interpolate s) ∧ l.Contains (l.interpolate s) := by
  refine ⟨⟨0, ?_⟩, rfl, ⟨0, ?_⟩, ?_, ?_, rfl, ⟨s, rfl⟩⟩
  · ext <;> simp [Line.parallelLineAt]
  · ext <;> simp [Line.orthogonalLineAt]
  · simp only [Line.orthogonalLineAt, Vec.dot, Vec.normal]; ring
  · simp only [Line.orthogonalLineAt, Vec.magnitudeSquare, Vec.normal]; ring

/-- C81. `side_of` is positive on the left of the segment, null on its line, negative on its right; the two sides are
exchanged when the segment is reversed. -/
theorem sideOf_spec (s : Segment K) (q : Vec K) :
    (s.leftOf q = true ↔ 0 < s.sideOf q) ∧ (s.rightOf q = true ↔ s.sideOf q < 0) ∧
    (s.isCollinear q = true ↔ s.sideOf q = 0) ∧
    (s.p0 ≠ s.p1 → (s.isCollinear q = true ↔ s.toLine.Contains q)) ∧
    (⟨s.p1, s.p0⟩ : Segment K).sideOf q = -s.sideOf q := by
  refine ⟨by simp [Segment.leftOf], by simp [Segment.rightOf], by simp [Segment.isCollinear], ?_, ?_⟩
  · intro hne
    simp only [Segment.isCollinear, decide_eq_true_eq]
    constructor
    · intro h
      have hn : s.p1.x - s.p0.x ≠ 0 ∨ s.p1.y - s.p0.y ≠ 0 := by
        by_contra hc
        push Not at hc
        apply hne
        ext
        · linear_combination -hc.1
        · linear_combination -hc.2
      obtain ⟨a, b⟩ := multiple_of_cross _ _ (q.x - s.p0.x) (q.y - s.p0.y) (by
        simp only [Segment.sideOf, Segment.vector, Vec.cross, Vec.sub_x, Vec.sub_y] at h
        linear_combination h) hn
      refine ⟨((s.p1.x - s.p0.x) * (q.x - s.p0.x) + (s.p1.y - s.p0.y) * (q.y - s.p0.y)) /
        ((s.p1.x - s.p0.x) * (s.p1.x - s.p0.x) + (s.p1.y - s.p0.y) * (s.p1.y - s.p0.y)), ?_⟩
      ext
      · simp only [Segment.toLine, Line.fromTwoPoints, Vec.sub_x]
        linear_combination a
      · simp only [Segment.toLine, Line.fromTwoPoints, Vec.sub_y]
        linear_combination b
    · rintro ⟨t, rfl⟩
      simp only [Segment.sideOf, Segment.vector, Segment.toLine, Line.fromTwoPoints, Vec.cross, Vec.sub_x, Vec.sub_y]
      ring
  · simp only [Segment.sideOf, Segment.vector, Vec.cross, Vec.sub_x, Vec.sub_y]; ring

/-- C81. The center of a segment is the point of the segment halfway between its end points, and is the same for the
reversed segment. -/
theorem segment_center_spec (s : Segment K) :
    s.center = s.interpolate (1 / 2) ∧ s.center - s.p0 = s.p1 - s.center ∧ s.Contains s.center ∧
      (⟨s.p1, s.p0⟩ : Segment K).center = s.center := by
  have h2 : (2 : K) ≠ 0 := two_ne_zero
  refine ⟨?_, ?_, ⟨1 / 2, by norm_num, by norm_num, ?_⟩, ?_⟩
  · ext <;> simp [Segment.center, Segment.interpolate, Vec.sdiv, Vec.smul] <;> field_simp <;> ring
  · ext <;> simp [Segment.center, Vec.sdiv] <;> field_simp <;> ring
  · ext <;> simp [Segment.center, Vec.sdiv] <;> field_simp <;> ring
  · ext <;> simp [Segment.center, Vec.sdiv, add_comm]

example : (⟨⟨1, 2⟩, ⟨3, 8⟩⟩ : Segment ℚ).center = ⟨2, 5⟩ := by decide +kernel

/-- C81. `share_vertex_with` returns a common end point, `None` when there is none. -/
theorem shareVertexWith_spec (s t : Segment K) :
    (∀ q, s.shareVertexWith t = some q → (q = s.p0 ∨ q = s.p1) ∧ (q = t.p0 ∨ q = t.p1)) ∧
    (s.shareVertexWith t = none ↔ s.p0 ≠ t.p0 ∧ s.p0 ≠ t.p1 ∧ s.p1 ≠ t.p0 ∧ s.p1 ≠ t.p1) := by
  unfold Segment.shareVertexWith
  constructor
  · intro q h
    split at h
    · rename_i h1; cases h; exact ⟨Or.inl rfl, h1⟩
    · split at h
      · rename_i h1; cases h; exact ⟨Or.inr rfl, h1⟩
      · cases h
  · split
    · rename_i h
      simp only [reduceCtorEq, false_iff]
      rintro ⟨a, b, _⟩
      rcases h with h | h
      · exact a h
      · exact b h
    · rename_i h
      push Not at h
      split
      · rename_i h1
        simp only [reduceCtorEq, false_iff]
        rintro ⟨_, _, a, b⟩
        rcases h1 with h1 | h1
        · exact a h1
        · exact b h1
      · rename_i h1
        push Not at h1
        exact ⟨fun _ => ⟨h.1, h.2, h1.1, h1.2⟩, fun _ => rfl⟩

end Field

/-- C81. The points of `shifted_parallel_line(shift)` are at signed distance `shift` of the line, and it has the same
vector. There is no result for a null vector. -/
theorem shiftedParallelLine_spec (l : Line ℝ) (shift : ℝ) :
    (l.v ≠ 0 → ∃ l', l.shiftedParallelLine shift = some l' ∧ l'.v = l.v ∧
      ∀ q, l'.Contains q → l.distanceToLine q = .ok shift) ∧
    (l.v = 0 → l.shiftedParallelLine shift = none) := by
  have hnm : l.v.normal.magnitude = l.v.magnitude := by
    unfold Vec.magnitude Vec.magnitudeSquare Vec.normal
    congr 1; simp only; ring
  unfold Line.shiftedParallelLine Vec.toNormalised
  rw [hnm]
  constructor
  · intro h
    have hm := Vec.magnitude_pos _ h
    have hm0 := hm.ne'
    have hmm : l.v.magnitude * l.v.magnitude = l.v.x * l.v.x + l.v.y * l.v.y := Vec.magnitude_mul_self l.v
    rw [if_neg hm0]
    refine ⟨_, rfl, rfl, ?_⟩
    rintro q ⟨s, rfl⟩
    unfold Line.distanceToLine Vec.deviationWith
    rw [Vec.pyDiv_ok _ _ hm0]
    congr 1
    simp only [Vec.cross, Vec.sub_x, Vec.sub_y, Vec.add_x, Vec.add_y, Vec.smul_x, Vec.smul_y, Vec.sdiv_x, Vec.sdiv_y,
      Vec.normal_x, Vec.normal_y]
    generalize l.v.magnitude = m at hm0 hmm
    field_simp
    linear_combination -shift * hmm
  · intro h
    rw [if_pos ((Vec.magnitude_eq_zero _).2 h)]
    rfl

/-- C81. `point_at_distance(d, p)` is at distance `|d|` of `p`, in the direction of the line. -/
theorem pointAtDistance_spec (l : Line ℝ) (d : ℝ) (p : Vec ℝ) (h : l.v ≠ 0) :
    ∃ q, l.pointAtDistance d p = some q ∧ distance q p = |d| ∧ (q - p).cross l.v = 0 ∧ (0 < d → 0 < (q - p).dot l.v) := by
  have hm := Vec.magnitude_pos _ h
  have hm0 := hm.ne'
  have hmm : l.v.magnitude * l.v.magnitude = l.v.x * l.v.x + l.v.y * l.v.y := Vec.magnitude_mul_self l.v
  unfold Line.pointAtDistance Vec.toNormalised
  rw [if_neg hm0]
  refine ⟨_, rfl, ?_, ?_, ?_⟩
  · unfold distance
    rw [← Real.sqrt_sq_eq_abs]
    congr 1
    simp only [Vec.add_x, Vec.add_y, Vec.smul_x, Vec.smul_y, Vec.sdiv_x, Vec.sdiv_y]
    generalize l.v.magnitude = m at hm0 hmm
    field_simp
    linear_combination -d ^ 2 * hmm
  · simp only [Vec.cross, Vec.sub_x, Vec.sub_y, Vec.add_x, Vec.add_y, Vec.smul_x, Vec.smul_y, Vec.sdiv_x, Vec.sdiv_y]
    ring
  · intro hd
    have : (p + (l.v.sdiv l.v.magnitude).smul d - p).dot l.v = d * l.v.magnitude := by
      simp only [Vec.dot, Vec.sub_x, Vec.sub_y, Vec.add_x, Vec.add_y, Vec.smul_x, Vec.smul_y, Vec.sdiv_x, Vec.sdiv_y]
      generalize l.v.magnitude = m at hm0 hmm
      field_simp
      linear_combination -d * hmm
    rw [this]
    positivity

example : (⟨⟨0, 0⟩, ⟨1, 2⟩⟩ : Line ℚ).getYFromX 3 = .ok 6 ∧
    (⟨⟨0, 0⟩, ⟨1, 2⟩⟩ : Segment ℚ).leftOf ⟨0, 1⟩ = true := by decide +kernel

/-! ## C82 -/

/-- C82. What `contain_point` decides: whether the point projects on the line of the segment at a signed distance from
the first point between 0 and 1. For a segment reduced to a point it raises `ZeroDivisionError`, except at that
point. -/
theorem containPoint_iff (s : Segment ℝ) (q : Vec ℝ) :
    (s.p0 ≠ s.p1 → ∃ b, s.containPoint q = .ok b ∧
      (b = true ↔ 0 ≤ (s.p1 - s.p0).dot (q - s.p0) ∧ (s.p1 - s.p0).dot (q - s.p0) ≤ distance s.p0 s.p1)) ∧
    (s.p0 = s.p1 → q ≠ s.p0 → s.containPoint q = .error .zeroDivisionError) ∧ s.containPoint s.p0 = .ok true := by
  refine ⟨?_, ?_, ?_⟩
  · intro hne
    have hv : s.toLine.v ≠ 0 := by
      intro e
      have e' : s.p1 - s.p0 = 0 := e
      apply hne
      rw [Vec.ext_iff] at e' ⊢
      simp only [Vec.sub_x, Vec.sub_y, Vec.zero_x, Vec.zero_y] at e'
      exact ⟨by linarith [e'.1], by linarith [e'.2]⟩
    have hm := Vec.magnitude_pos _ hv
    have hd : distance s.p0 s.p1 = s.toLine.v.magnitude := by
      rw [← distance_eq]
      unfold Vec.magnitude Vec.magnitudeSquare Segment.toLine Line.fromTwoPoints
      congr 1
      simp only [Vec.sub_x, Vec.sub_y]
      ring
    unfold Segment.containPoint
    rw [distanceAndAbscissa_ok _ _ hv]
    refine ⟨_, rfl, ?_⟩
    rw [decide_eq_true_eq, hd, div_le_one hm, div_nonneg_iff]
    constructor
    · rintro ⟨h | h, h2⟩
      · exact ⟨h.1, h2⟩
      · exact absurd h.2 (not_le.2 hm)
    · rintro ⟨h, h2⟩
      exact ⟨Or.inl ⟨h, hm.le⟩, h2⟩
  · intro e hq
    have : s.toLine.v = 0 := by
      show s.p1 - s.p0 = 0
      rw [e]; ext <;> simp
    unfold Segment.containPoint Line.distanceAndAbscissaToLine
    have hm := (Vec.magnitude_eq_zero _).2 this
    have hq' : ¬ (q - s.toLine.p).magnitudeSquare = 0 := by
      rw [Vec.magnitudeSquare_eq_zero]
      intro e'
      have e' : q - s.p0 = 0 := e'
      apply hq
      rw [Vec.ext_iff] at e' ⊢
      simp only [Vec.sub_x, Vec.sub_y, Vec.zero_x, Vec.zero_y] at e'
      exact ⟨by linarith [e'.1], by linarith [e'.2]⟩
    simp only [Vec.deviationWith, Vec.projectionOn, Vec.pyDiv, hm, if_true, if_neg hq']
    rfl
  · unfold Segment.containPoint Line.distanceAndAbscissaToLine
    have : (s.p0 - s.toLine.p).magnitudeSquare = 0 := by
      rw [Vec.magnitudeSquare_eq_zero]
      show s.p0 - s.p0 = 0
      ext <;> simp
    simp only [this, if_true]
    show Except.ok (decide ((0:ℝ) ≤ 0 ∧ (0:ℝ) ≤ 1)) = _
    simp

/-- C82. `contain_point` tells whether the point is on the segment, when the segment has length 1 and the point is on
its line. Missing: all the other cases, in which it is false (`containPoint_wrong`). -/
theorem containPoint_partial (s : Segment ℝ) (q : Vec ℝ) (h1 : distance s.p0 s.p1 = 1) (hq : s.toLine.Contains q) :
    ∃ b, s.containPoint q = .ok b ∧ (b = true ↔ s.Contains q) := by
  have hsq : (s.p0.x - s.p1.x) ^ 2 + (s.p0.y - s.p1.y) ^ 2 = 1 := by
    unfold distance at h1
    rw [Real.sqrt_eq_one] at h1
    exact h1
  have hne : s.p0 ≠ s.p1 := by
    intro e; rw [e] at hsq; simp at hsq
  obtain ⟨b, hb, hi⟩ := (containPoint_iff s q).1 hne
  refine ⟨b, hb, hi.trans ?_⟩
  rw [h1]
  obtain ⟨t, rfl⟩ := hq
  have e : (s.p1 - s.p0).dot ((⟨s.toLine.p.x + t * s.toLine.v.x, s.toLine.p.y + t * s.toLine.v.y⟩ : Vec ℝ) - s.p0) = t := by
    simp only [Segment.toLine, Line.fromTwoPoints, Vec.dot, Vec.sub_x, Vec.sub_y]
    linear_combination t * hsq
  rw [e]
  constructor
  · rintro ⟨a, b⟩
    refine ⟨t, a, b, ?_⟩
    ext <;> simp only [Segment.toLine, Line.fromTwoPoints, Vec.sub_x, Vec.sub_y] <;> ring
  · rintro ⟨u, u0, u1, hu⟩
    rw [Vec.ext_iff] at hu
    simp only [Segment.toLine, Line.fromTwoPoints, Vec.sub_x, Vec.sub_y] at hu
    have : t = u := by
      linear_combination (s.p1.x - s.p0.x) * hu.1 + (s.p1.y - s.p0.y) * hu.2 - (t - u) * hsq
    rw [this]; exact ⟨u0, u1⟩

/-- C82 fails: a point away from the segment is accepted, and a point of a longer segment is refused. -/
theorem containPoint_wrong :
    (⟨⟨0, 0⟩, ⟨1, 0⟩⟩ : Segment ℝ).containPoint ⟨0, 7⟩ = .ok true ∧
      ¬ (⟨⟨0, 0⟩, ⟨1, 0⟩⟩ : Segment ℝ).Contains ⟨0, 7⟩ ∧
    (⟨⟨0, 0⟩, ⟨4, 0⟩⟩ : Segment ℝ).containPoint ⟨2, 0⟩ = .ok false ∧
      (⟨⟨0, 0⟩, ⟨4, 0⟩⟩ : Segment ℝ).Contains ⟨2, 0⟩ := by
  refine ⟨?_, ?_, ?_, ?_⟩
  · obtain ⟨b, hb, hi⟩ := (containPoint_iff ⟨⟨0, 0⟩, ⟨1, 0⟩⟩ ⟨0, 7⟩).1 (by simp)
    rw [hb, hi.2]
    norm_num [Vec.dot, distance]
  · rintro ⟨t, _, _, h⟩
    simp at h
  · obtain ⟨b, hb, hi⟩ := (containPoint_iff ⟨⟨0, 0⟩, ⟨4, 0⟩⟩ ⟨2, 0⟩).1 (by simp)
    rw [hb]
    cases b
    · rfl
    · have := (hi.1 rfl).2
      have e : distance ⟨0, 0⟩ ⟨4, 0⟩ = 4 := by
        unfold distance
        rw [show ((0 : ℝ) - 4) ^ 2 + (0 - 0) ^ 2 = 4 ^ 2 by norm_num]
        exact Real.sqrt_sq (by norm_num)
      rw [e] at this
      norm_num [Vec.dot] at this
  · exact ⟨1 / 2, by norm_num, by norm_num, by norm_num⟩

end Patro
