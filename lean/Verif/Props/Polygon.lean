import Verif.Proof.Polygon
import Verif.Props.Shapes
/-! # Theorems about polygons -/

namespace Patro.Polygon

section Field

variable {K : Type _} [Field K] [LinearOrder K] [IsStrictOrderedRing K]

/-! ## C85 -/

/-- C85. The exact meaning of `is_simple` for a new polygon: two edges which are not nearly parallel meet only at a
vertex of both. -/
theorem isSimple_iff (points : List (Vec K)) :
    ∃ b, (getIsSimple ({ points := points } : Polygon K)).1 = .ok b ∧ (b = true ↔
      ∀ i j a b c d q, i ≠ j → IsEdge points i a b → IsEdge points j c d →
        ¬ |(b.x - a.x) * (d.y - c.y) - (b.y - a.y) * (d.x - c.x)| ≤ 5 / 10 ^ 8 →
        Between a b q → Between c d q → (q = a ∨ q = b) ∧ (q = c ∨ q = d)) := by
  obtain ⟨es, hes, hlen, _⟩ := pointEdges_spec points
  refine ⟨testIsSimple es, by simp [getIsSimple, getEdges, hes], ?_⟩
  rw [testIsSimple_iff]
  constructor
  · intro h i j a b c d q hij h1 h2 hr hq1 hq2
    have := h i j ⟨a, b⟩ ⟨c, d⟩ hij ((isEdge_iff _ _ hes _ _ _).2 h1) ((isEdge_iff _ _ hes _ _ _).2 h2)
    rw [pairIsSimple_iff] at this
    rcases this with h | h
    · exfalso; apply hr
      rw [Vec.roundsToZero, decide_eq_true_eq] at h
      exact h
    · exact h q hq1 hq2
  · intro h i j s t hij h1 h2
    rw [pairIsSimple_iff]
    by_cases hr : Vec.roundsToZero (s.vector.cross t.vector) = true
    · exact Or.inl hr
    · right
      intro q hq1 hq2
      refine h i j s.p0 s.p1 t.p0 t.p1 q hij ((isEdge_iff _ _ hes _ _ _).1 h1) ((isEdge_iff _ _ hes _ _ _).1 h2) ?_ hq1 hq2
      intro hle
      exact hr (by rw [Vec.roundsToZero, decide_eq_true_eq]; exact hle)

/-- C85. `is_simple` is true for every simple polygon. -/
theorem isSimple_complete (points : List (Vec K)) (h : SimplePolygon points) :
    (getIsSimple ({ points := points } : Polygon K)).1 = .ok true := by
  obtain ⟨b, hb, hi⟩ := isSimple_iff points
  rw [hb, hi.2]
  intro i j a b c d q hij h1 h2 _ hq1 hq2
  rcases h i j a b c d q hij h1 h2 hq1 hq2 with ⟨rfl, rfl⟩ | ⟨rfl, rfl⟩
  · refine ⟨Or.inr rfl, Or.inl ?_⟩
    exact Option.some.inj (h1.2.symm.trans h2.1)
  · refine ⟨Or.inl rfl, Or.inr ?_⟩
    exact Option.some.inj (h1.1.symm.trans h2.2)

/-- C85. When the vertices are distinct and no two edges are nearly parallel, `is_simple` is true exactly for simple
polygons. Missing: polygons with nearly parallel edges, or which pass twice at a vertex (`isSimple_wrong_small`,
`isSimple_wrong_vertex`). -/
theorem isSimple_partial (points : List (Vec K)) (hnd : points.Nodup)
    (hpar : ∀ i j a b c d, i ≠ j → IsEdge points i a b → IsEdge points j c d →
      5 / 10 ^ 8 < |(b.x - a.x) * (d.y - c.y) - (b.y - a.y) * (d.x - c.x)|) :
    ∃ b, (getIsSimple ({ points := points } : Polygon K)).1 = .ok b ∧ (b = true ↔ SimplePolygon points) := by
  obtain ⟨b, hb, hi⟩ := isSimple_iff points
  refine ⟨b, hb, ?_⟩
  constructor
  · intro hbt i j a b c d q hij h1 h2 hq1 hq2
    obtain ⟨g1, g2⟩ := hi.1 hbt i j a b c d q hij h1 h2 (not_le.2 (hpar i j a b c d hij h1 h2)) hq1 hq2
    have inj : ∀ (m n : Nat) (p : Vec K), points[m]? = some p → points[n]? = some p → m = n := by
      intro m n p hm hn
      obtain ⟨hm1, hm2⟩ := List.getElem?_eq_some_iff.1 hm
      obtain ⟨hn1, hn2⟩ := List.getElem?_eq_some_iff.1 hn
      exact (List.Nodup.getElem_inj_iff hnd).1 (hm2.trans hn2.symm)
    rcases g1 with rfl | rfl
    · rcases g2 with rfl | rfl
      · exact absurd (inj _ _ _ h1.1 h2.1) hij
      · exact Or.inr ⟨inj _ _ _ h1.1 h2.2, rfl⟩
    · rcases g2 with rfl | rfl
      · exact Or.inl ⟨inj _ _ _ h2.1 h1.2, rfl⟩
      · exfalso
        have e := inj _ _ _ h1.2 h2.2
        have hi' : i < points.length := (List.getElem?_eq_some_iff.1 h1.1).1
        have hj' : j < points.length := (List.getElem?_eq_some_iff.1 h2.1).1
        apply hij
        by_cases c1 : i + 1 < points.length <;> by_cases c2 : j + 1 < points.length
        · rw [Nat.mod_eq_of_lt c1, Nat.mod_eq_of_lt c2] at e; omega
        · rw [Nat.mod_eq_of_lt c1, show j + 1 = points.length by omega, Nat.mod_self] at e; omega
        · rw [Nat.mod_eq_of_lt c2, show i + 1 = points.length by omega, Nat.mod_self] at e; omega
        · omega
  · intro hs
    have := isSimple_complete points hs
    rw [hb] at this
    exact Except.ok.inj this

/-- C85 fails: a crossed quadrilateral whose edges are shorter than about `2e-4`, so that they all count as parallel, is
said to be simple. Its edges meet at the centre. -/
theorem isSimple_wrong_small :
    (getIsSimple ({ points := [⟨0, 0⟩, ⟨1 / 10000, 1 / 10000⟩, ⟨1 / 10000, 0⟩, ⟨0, 1 / 10000⟩] } : Polygon ℚ)).1 = .ok true ∧
    ¬ SimplePolygon [(⟨0, 0⟩ : Vec ℚ), ⟨1 / 10000, 1 / 10000⟩, ⟨1 / 10000, 0⟩, ⟨0, 1 / 10000⟩] := by
  refine ⟨by decide +kernel, ?_⟩
  intro h
  have := h 0 2 ⟨0, 0⟩ ⟨1 / 10000, 1 / 10000⟩ ⟨1 / 10000, 0⟩ ⟨0, 1 / 10000⟩ ⟨1 / 20000, 1 / 20000⟩ (by simp) ⟨rfl, rfl⟩ ⟨rfl, rfl⟩
    ⟨1 / 2, by norm_num, by norm_num, by norm_num⟩ ⟨1 / 2, by norm_num, by norm_num, by norm_num⟩
  norm_num at this

/-- C85 fails: two triangles which touch at the vertex `(0, 0)` are said to be a simple polygon. -/
theorem isSimple_wrong_vertex :
    (getIsSimple ({ points := [⟨0, 0⟩, ⟨2, 1⟩, ⟨2, -1⟩, ⟨0, 0⟩, ⟨-2, 1⟩, ⟨-2, -1⟩] } : Polygon ℚ)).1 = .ok true ∧
    ¬ SimplePolygon [(⟨0, 0⟩ : Vec ℚ), ⟨2, 1⟩, ⟨2, -1⟩, ⟨0, 0⟩, ⟨-2, 1⟩, ⟨-2, -1⟩] := by
  refine ⟨by decide +kernel, ?_⟩
  intro h
  have := h 0 3 ⟨0, 0⟩ ⟨2, 1⟩ ⟨0, 0⟩ ⟨-2, 1⟩ ⟨0, 0⟩ (by simp) ⟨rfl, rfl⟩ ⟨rfl, rfl⟩ ⟨0, by norm_num, by norm_num, by norm_num⟩
    ⟨0, by norm_num, by norm_num, by norm_num⟩
  norm_num at this

/-- The hypotheses of `isSimple_partial` hold for a quadrilateral, and both answers occur. -/
example : [(⟨0, 0⟩ : Vec ℚ), ⟨4, 1⟩, ⟨3, 3⟩, ⟨1, 4⟩].Nodup ∧
    (getIsSimple ({ points := [⟨0, 0⟩, ⟨4, 1⟩, ⟨3, 3⟩, ⟨1, 4⟩] } : Polygon ℚ)).1 = .ok true ∧
    (getIsSimple ({ points := [⟨0, 0⟩, ⟨4, 1⟩, ⟨1, 4⟩, ⟨3, 3⟩, ⟨0, 1⟩, ⟨4, 0⟩] } : Polygon ℚ)).1 = .ok false := by decide +kernel

/-! ## C44 -/

theorem computeArea_eq (p : Polygon K) (h : p.points ≠ []) :
    p.computeArea = (.ok (), if signedArea p.points = 0 then { p with area := some 0, barycenter := p.points[0]? }
      else { p with
        area := some |signedArea p.points|
        areaSign := some (MathFunctions.sign (signedArea p.points))
        barycenter := some ⟨momentX p.points / signedArea p.points, momentY p.points / signedArea p.points⟩ }) := by
  cases hp : p.points with
  | nil => exact absurd hp h
  | cons a t =>
    unfold computeArea
    rw [hp, IterTools.closedIterator_spec]
    have e1 := sum_crossTerms a t
    have e2 := sum_xTerms a t
    have e3 := sum_yTerms a t
    simp only
    rw [e1, e2, e3]
    have e : (1 : K) / 2 * (2 * signedArea (a :: t)) = signedArea (a :: t) := by ring
    simp only [e]
    by_cases hz : signedArea (a :: t) = 0
    · rw [if_pos hz, if_pos hz]
    · rw [if_neg hz, if_neg hz]
      congr 3
      congr 1 <;> field_simp

omit [Field K] [LinearOrder K] [IsStrictOrderedRing K] in
/-- C44. A polygon is made from three points or more, which are its vertices in the order given; fewer points raise `ValueError`. -/
theorem create_spec (points : List (Vec K)) :
    (3 ≤ points.length → ∃ p, create points = .ok p ∧ p.points = points) ∧
    (points.length < 3 → create points = .error .valueError) := by
  unfold create
  constructor
  · intro h
    rw [if_neg (by omega)]
    exact ⟨_, rfl, rfl⟩
  · intro h
    rw [if_pos h]

/-- C44. The area of a new simple polygon is the absolute value of the signed area, the sum of the signed areas of the
triangles cut by the diagonals from its first vertex; there is none (`None`) when the polygon is not simple. -/
theorem area_spec (points : List (Vec K)) (p : Polygon K) (h : create points = .ok p) :
    (p.getIsSimple.1 = .ok true → p.getArea.1 = .ok (some |signedArea points|)) ∧
    (p.getIsSimple.1 = .ok false → p.getArea.1 = .ok none) := by
  unfold create at h
  split at h
  · cases h
  · rename_i hl
    cases h
    obtain ⟨es, hes, _⟩ := pointEdges_spec points
    have hne : points ≠ [] := by rintro rfl; simp at hl
    simp only [getArea, checkArea, getIsSimple, getEdges, hes]
    constructor
    · intro ht
      have ht : testIsSimple es = true := Except.ok.inj ht
      simp only [ht, and_self, if_true]
      rw [computeArea_eq _ hne]
      simp only
      split
      · rename_i hz; simp only [hz, abs_zero]
      · rfl
    · intro hf
      have hf : testIsSimple es = false := Except.ok.inj hf
      simp [hf]

/-- C44. The signed area is multiplied by the determinant under an affine map: it is invariant under translations and
rotations and changes sign under reflections. -/
theorem signedArea_affine (points : List (Vec K)) (a b c d tx ty : K) :
    signedArea (points.map fun p => ⟨a * p.x + b * p.y + tx, c * p.x + d * p.y + ty⟩) =
      (a * d - b * c) * signedArea points := by
  cases points with
  | nil => simp [signedArea, triangles]
  | cons p ps =>
    simp only [signedArea, triangles, List.map_cons]
    induction ps with
    | nil => simp [fan]
    | cons q ps ih =>
      cases ps with
      | nil => simp [fan]
      | cons r ps =>
        simp only [List.map_cons, fan, List.sum_cons] at ih ⊢
        rw [ih]
        simp only [triangleArea]
        ring

/-- C44. The signed area does not depend on the vertex where the list begins, and changes sign when the list is
reversed. -/
theorem signedArea_order (a : Vec K) (points : List (Vec K)) :
    signedArea (points ++ [a]) = signedArea (a :: points) ∧
    signedArea (a :: points).reverse = -signedArea (a :: points) := by
  have rot : ∀ (a : Vec K) points, signedArea (points ++ [a]) = signedArea (a :: points) := by
    intro a points
    cases points with
    | nil => rfl
    | cons x ps =>
      have h1 := sum_crossTerms a (x :: ps)
      have h2 := sum_crossTerms x (ps ++ [a])
      have h3 := crossTerms_snoc (x :: ps) a x
      simp only [List.cons_append, List.append_assoc, List.nil_append, crossTerms, List.sum_cons] at h1 h2 h3
      rw [h3] at h2
      simp only [List.cons_append]
      linear_combination (h1 - h2) / 2
  refine ⟨rot a points, ?_⟩
  have h1 := sum_crossTerms a points
  have h2 := sum_crossTerms a points.reverse
  have h3 := crossTerms_reverse (a :: points ++ [a])
  rw [List.reverse_append, List.reverse_cons] at h3
  simp only [List.reverse_cons, List.reverse_nil, List.nil_append, List.singleton_append] at h3
  rw [← List.cons_append, h2, h1] at h3
  rw [List.reverse_cons, rot]
  linear_combination h3 / 2

/-- C44. Cutting a polygon along a diagonal: the signed areas of the two parts add up. -/
theorem signedArea_cut (a b : Vec K) (l1 l2 : List (Vec K)) :
    signedArea (a :: l1 ++ b :: l2) = signedArea (a :: l1 ++ [b]) + signedArea (a :: b :: l2) := by
  simp only [signedArea, triangles, List.cons_append]
  induction l1 with
  | nil => simp [fan]
  | cons p l1 ih =>
    cases l1 with
    | nil => simp [fan]
    | cons q l1 =>
      simp only [List.cons_append, fan, List.map_cons, List.sum_cons] at ih ⊢
      rw [ih]; ring

/-- C44. For three points the area is that of the triangle. -/
theorem area_triangle (a b c : Vec K) : |signedArea [a, b, c]| = (⟨a, b, c⟩ : Triangle K).area := by
  simp only [signedArea, triangles, fan, List.map_cons, List.map_nil, List.sum_cons, List.sum_nil, add_zero, triangleArea,
    Triangle.area, Vec.cross, Vec.sub_x, Vec.sub_y]
  rw [abs_div, abs_two]; ring

theorem getEdges_keeps (p : Polygon K) (s : Bool) (a : Option K) (h : p.isSimple = some s) (h' : p.area = a) :
    p.getEdges.2.isSimple = some s ∧ p.getEdges.2.area = a := by
  unfold getEdges
  split
  · exact ⟨h, h'⟩
  · split <;> exact ⟨h, h'⟩

theorem checkArea_keeps (p : Polygon K) (s : Bool) (a : Option K) (h : p.isSimple = some s) (h' : p.area = a)
    (ha : s = true → a ≠ none) : p.checkArea = (.ok (), p) := by
  unfold checkArea getIsSimple
  rw [h]
  simp only
  rw [if_neg]
  rintro ⟨rfl, e⟩
  exact ha rfl (h'.symm.trans e)

theorem run_keeps_area (p : Polygon K) (s : Bool) (a : Option K) (h : p.isSimple = some s) (h' : p.area = a)
    (ha : s = true → a ≠ none) (op : Op K) : (op.run p).isSimple = some s ∧ (op.run p).area = a := by
  have hs : p.getIsSimple = (.ok s, p) := by unfold getIsSimple; rw [h]
  have hc := checkArea_keeps p s a h h' ha
  cases op with
  | edges => exact getEdges_keeps p s a h h'
  | isSimple => simp only [Op.run, hs]; exact ⟨h, h'⟩
  | isConvex =>
    simp only [Op.run, getIsConvex]
    split
    · exact ⟨h, h'⟩
    · rw [hs]
      cases s with
      | false => exact ⟨h, h'⟩
      | true =>
        have hk := getEdges_keeps p true a h h'
        simp only
        cases hE : p.getEdges with
        | mk r p' =>
          rw [hE] at hk
          cases r with
          | error e => exact hk
          | ok es =>
            simp only
            split <;> exact hk
  | area => simp only [Op.run, getArea, hc]; exact ⟨h, h'⟩
  | barycenter =>
    simp only [Op.run, getBarycenter, hc]
    split <;> exact ⟨h, h'⟩
  | isClockwise =>
    simp only [Op.run, getIsClockwise, hs]
    cases s with
    | false => exact ⟨h, h'⟩
    | true =>
      simp only
      split
      · exact ⟨h, h'⟩
      · rw [hc]
        simp only
        split <;> exact ⟨h, h'⟩
  | isPointInside q =>
    have hk := getEdges_keeps p s a h h'
    simp only [Op.run, isPointInside]
    cases hE : p.getEdges with
    | mk r p' =>
      rw [hE] at hk
      cases r with
      | error e => exact hk
      | ok es => exact hk
  | transform f => exact ⟨h, h'⟩

/-- C44. The area is computed only once: after it has been read on a new polygon, every later reading gives the same
value, whatever was done to the polygon in between. -/
theorem area_frozen (points : List (Vec K)) (p : Polygon K) (h : create points = .ok p) (ops : List (Op K)) :
    ((ops.foldl Op.run p.getArea.2).getArea).1 = p.getArea.1 := by
  unfold create at h
  split at h
  · cases h
  · rename_i hl
    cases h
    obtain ⟨es, hes, _⟩ := pointEdges_spec points
    have hne : points ≠ [] := by rintro rfl; simp at hl
    have key : ∃ s a, (s = true → a ≠ none) ∧
        (getArea ({ points := points } : Polygon K)).2.isSimple = some s ∧
        (getArea ({ points := points } : Polygon K)).2.area = a ∧
        (getArea ({ points := points } : Polygon K)).1 = .ok a := by
      simp only [getArea, checkArea, getIsSimple, getEdges, hes]
      by_cases ht : testIsSimple es = true
      · simp only [ht, and_self, if_true]
        rw [computeArea_eq _ hne]
        simp only
        split
        · exact ⟨true, some 0, by simp, rfl, rfl, rfl⟩
        · exact ⟨true, some |signedArea points|, by simp, rfl, rfl, rfl⟩
      · simp only [Bool.not_eq_true] at ht
        refine ⟨false, none, by simp, ?_⟩
        simp [ht]
    obtain ⟨s, a, ha, h1, h2, h3⟩ := key
    show (getArea (ops.foldl Op.run (getArea ({ points := points } : Polygon K)).2)).1 =
      (getArea ({ points := points } : Polygon K)).1
    rw [h3]
    have fold : ∀ (ops : List (Op K)) (q : Polygon K), q.isSimple = some s → q.area = a →
        (ops.foldl Op.run q).isSimple = some s ∧ (ops.foldl Op.run q).area = a := by
      intro ops
      induction ops with
      | nil => intro q q1 q2; exact ⟨q1, q2⟩
      | cons op ops ih =>
        intro q q1 q2
        obtain ⟨r1, r2⟩ := run_keeps_area q s a q1 q2 ha op
        exact ih _ r1 r2
    obtain ⟨f1, f2⟩ := fold ops _ h1 h2
    have last : ∀ q : Polygon K, q.isSimple = some s → q.area = a → q.getArea.1 = .ok a := by
      intro q q1 q2
      unfold getArea
      rw [checkArea_keeps _ s a q1 q2 ha]
      simp only [q2]
    exact last _ f1 f2

/-- C44 fails after a transformation: the unit square, once its area is read, keeps the area 1 when it is scaled by 3. -/
theorem area_stale :
    ((([.area, .transform fun p => ⟨3 * p.x, 3 * p.y⟩] : List (Op ℚ)).foldl Op.run
      ({ points := [⟨0, 0⟩, ⟨1, 0⟩, ⟨1, 1⟩, ⟨0, 1⟩] } : Polygon ℚ)).getArea).1 = .ok (some 1) ∧
    signedArea [(⟨0, 0⟩ : Vec ℚ), ⟨3, 0⟩, ⟨3, 3⟩, ⟨0, 3⟩] = 9 := by decide +kernel

/-! ## C86 -/

/-- C86. The barycenter of a new simple polygon which is not flat is the mean of the centroids of the triangles cut by
the diagonals from the first vertex, weighted by their signed areas; for a flat one it is the first vertex, and when the
polygon is not simple `AttributeError` is raised. -/
theorem barycenter_spec (points : List (Vec K)) (p : Polygon K) (h : create points = .ok p) :
    (p.getIsSimple.1 = .ok true → signedArea points ≠ 0 →
      p.getBarycenter.1 = .ok ⟨momentX points / signedArea points, momentY points / signedArea points⟩) ∧
    (p.getIsSimple.1 = .ok true → signedArea points = 0 → ∃ a, points[0]? = some a ∧ p.getBarycenter.1 = .ok a) ∧
    (p.getIsSimple.1 = .ok false → p.getBarycenter.1 = .error .attributeError) := by
  unfold create at h
  split at h
  · cases h
  · rename_i hl
    cases h
    obtain ⟨es, hes, _⟩ := pointEdges_spec points
    have hne : points ≠ [] := by rintro rfl; simp at hl
    simp only [getBarycenter, checkArea, getIsSimple, getEdges, hes]
    refine ⟨?_, ?_, ?_⟩
    · intro ht hz
      have ht : testIsSimple es = true := Except.ok.inj ht
      simp only [ht, and_self, if_true]
      rw [computeArea_eq _ hne]
      simp only [hz, if_false]
    · intro ht hz
      have ht : testIsSimple es = true := Except.ok.inj ht
      simp only [ht, and_self, if_true]
      rw [computeArea_eq _ hne]
      simp only [hz, if_true]
      cases points with
      | nil => exact absurd rfl hne
      | cons a t => exact ⟨a, rfl, rfl⟩
    · intro hf
      have hf : testIsSimple es = false := Except.ok.inj hf
      simp [hf]

/-- C86. `is_clockwise` of a new simple polygon tells the sign of its area; it raises `AttributeError` when the area is
null, and is `None` when the polygon is not simple. -/
theorem isClockwise_spec (points : List (Vec K)) (p : Polygon K) (h : create points = .ok p) :
    (p.getIsSimple.1 = .ok true → signedArea points ≠ 0 →
      p.getIsClockwise.1 = .ok (some (decide (signedArea points < 0)))) ∧
    (p.getIsSimple.1 = .ok true → signedArea points = 0 → p.getIsClockwise.1 = .error .attributeError) ∧
    (p.getIsSimple.1 = .ok false → p.getIsClockwise.1 = .ok none) := by
  unfold create at h
  split at h
  · cases h
  · rename_i hl
    cases h
    obtain ⟨es, hes, _⟩ := pointEdges_spec points
    have hne : points ≠ [] := by rintro rfl; simp at hl
    simp only [getIsClockwise, checkArea, getIsSimple, getEdges, hes]
    refine ⟨?_, ?_, ?_⟩
    · intro ht hz
      have ht : testIsSimple es = true := Except.ok.inj ht
      simp only [ht, and_self, if_true]
      rw [computeArea_eq _ hne]
      simp only [hz, if_false]
      congr 2
      unfold MathFunctions.sign
      split
      · rename_i h0; simp [not_lt.2 h0, zero_le_one]
      · rename_i h0; simp [not_le.1 h0]
    · intro ht hz
      have ht : testIsSimple es = true := Except.ok.inj ht
      simp only [ht, and_self, if_true]
      rw [computeArea_eq _ hne]
      simp only [hz, if_true]
    · intro hf
      have hf : testIsSimple es = false := Except.ok.inj hf
      simp [hf]

/-- C86. `point_barycenter` is the mean of the vertices. -/
theorem pointBarycenter_spec (p : Polygon K) (h : p.points ≠ []) :
    p.pointBarycenter = .ok ⟨(p.points.map Vec.x).sum / p.points.length, (p.points.map Vec.y).sum / p.points.length⟩ := by
  unfold pointBarycenter
  cases hp : p.points with
  | nil => exact absurd hp h
  | cons a t =>
    simp only
    have key : ∀ (t : List (Vec K)) (a : Vec K), t.foldl (· + ·) a = ⟨a.x + (t.map Vec.x).sum, a.y + (t.map Vec.y).sum⟩ := by
      intro t
      induction t with
      | nil => intro a; ext <;> simp
      | cons b t ih => intro a; rw [List.foldl_cons, ih]; ext <;> simp [add_assoc]
    rw [key]
    congr 1

/-! ## C87 -/

/-- C87. The exact behaviour of `is_point_inside`: it never answers `True`. It answers `False` when all the vertices are
below the point or at its level, or all above it; otherwise it raises `AttributeError`. -/
theorem isPointInside_exact (points : List (Vec K)) (h : points ≠ []) (q : Vec K) :
    (((∀ p ∈ points, p.y ≤ q.y) ∨ (∀ p ∈ points, q.y < p.y)) →
      (isPointInside ({ points := points } : Polygon K) q).1 = .ok false) ∧
    (¬ ((∀ p ∈ points, p.y ≤ q.y) ∨ (∀ p ∈ points, q.y < p.y)) →
      (isPointInside ({ points := points } : Polygon K) q).1 = .error .attributeError) := by
  obtain ⟨es, hes, hlen, hspec⟩ := pointEdges_spec points
  have hw : ∀ es : List (Segment K), (windingLoop q.y es = .ok 0 ∧ ∀ e ∈ es, (e.p0.y ≤ q.y ↔ e.p1.y ≤ q.y)) ∨
      (windingLoop q.y es = .error .attributeError ∧ ∃ e ∈ es, ¬ (e.p0.y ≤ q.y ↔ e.p1.y ≤ q.y)) := by
    intro es
    induction es with
    | nil => left; exact ⟨rfl, by simp⟩
    | cons e es ih =>
      unfold windingLoop
      by_cases h0 : e.p0.y ≤ q.y <;> by_cases h1 : e.p1.y ≤ q.y
      · rw [if_pos h0, if_neg (not_lt.2 h1)]
        rcases ih with ⟨i1, i2⟩ | ⟨i1, e', i2, i3⟩
        · left; exact ⟨i1, by simpa [h0, h1] using i2⟩
        · right; exact ⟨i1, e', by simp [i2], i3⟩
      · rw [if_pos h0, if_pos (not_le.1 h1)]
        right; exact ⟨rfl, e, by simp, by simp [h0, h1]⟩
      · rw [if_neg h0, if_pos h1]
        right; exact ⟨rfl, e, by simp, by simp [h0, h1]⟩
      · rw [if_neg h0, if_neg h1]
        rcases ih with ⟨i1, i2⟩ | ⟨i1, e', i2, i3⟩
        · left; exact ⟨i1, by simpa [h0, h1] using i2⟩
        · right; exact ⟨i1, e', by simp [i2], i3⟩
  have e1 : (isPointInside ({ points := points } : Polygon K) q).1 = (windingLoop q.y es).map fun n => decide (n > 0) := by
    simp [isPointInside, getEdges, hes]
  rw [e1]
  have mem_pts : ∀ e ∈ es, e.p0 ∈ points ∧ e.p1 ∈ points := by
    intro e he
    obtain ⟨i, hi⟩ := List.mem_iff_getElem?.1 he
    obtain ⟨g1, g2⟩ := (hspec i e).1 hi
    exact ⟨List.mem_of_getElem? g1, List.mem_of_getElem? g2⟩
  constructor
  · rintro hor
    rcases hw es with ⟨hw, _⟩ | ⟨_, e, he, hn⟩
    · rw [hw]; rfl
    · exfalso
      obtain ⟨m1, m2⟩ := mem_pts e he
      apply hn
      rcases hor with hor | hor
      · simp [hor _ m1, hor _ m2]
      · simp [not_le.2 (hor _ m1), not_le.2 (hor _ m2)]
  · intro hor
    rcases hw es with ⟨_, hall⟩ | ⟨hw, _⟩
    · exfalso
      apply hor
      have hpos : 0 < points.length := List.length_pos_iff.2 h
      -- the vertices are all on the side of the first one
      have step : ∀ i (hi : i < points.length), (points[i].y ≤ q.y ↔ points[0].y ≤ q.y) := by
        intro i
        induction i with
        | zero => intro _; rfl
        | succ i ih =>
          intro hi
          have hi' : i < points.length := by omega
          rw [← ih hi']
          have hm : (⟨points[i], points[i + 1]⟩ : Segment K) ∈ es := by
            rw [List.mem_iff_getElem?]
            refine ⟨i, (hspec _ _).2 ⟨List.getElem?_eq_getElem hi', ?_⟩⟩
            rw [Nat.mod_eq_of_lt hi]
            exact List.getElem?_eq_getElem hi
          exact (hall _ hm).symm
      by_cases h0 : points[0].y ≤ q.y
      · left
        intro p hp
        obtain ⟨i, hi, rfl⟩ := List.getElem_of_mem hp
        exact (step i hi).2 h0
      · right
        intro p hp
        obtain ⟨i, hi, rfl⟩ := List.getElem_of_mem hp
        exact not_le.1 fun hle => h0 ((step i hi).1 hle)
    · rw [hw]; rfl

/-- C87. The answer `False` of a point above or below the polygon is right. Missing: all the other points, for which
`is_point_inside` raises `AttributeError` (`isPointInside_exact`). -/
theorem isPointInside_partial (points : List (Vec K)) (q : Vec K) (b : Bool)
    (hb : (isPointInside ({ points := points } : Polygon K) q).1 = .ok b) (h : points ≠ []) :
    b = false ∧ ∀ i a c, IsEdge points i a c → ∀ x, Between a c ⟨x, q.y⟩ → a.y = q.y ∨ c.y = q.y := by
  obtain ⟨h1, h2⟩ := isPointInside_exact points h q
  by_cases hc : (∀ p ∈ points, p.y ≤ q.y) ∨ (∀ p ∈ points, q.y < p.y)
  · have hf := h1 hc
    rw [hb] at hf
    refine ⟨Except.ok.inj hf, ?_⟩
    rintro i a c ⟨ha, hc'⟩ x ⟨t, t0, t1, e⟩
    rw [Vec.ext_iff] at e
    have ma := List.mem_of_getElem? ha
    have mc := List.mem_of_getElem? hc'
    have ey : q.y = (1 - t) * a.y + t * c.y := e.2
    rcases hc with hc | hc
    · by_contra hcon
      push Not at hcon
      have l1 := lt_of_le_of_ne (hc a ma) hcon.1
      have l2 := lt_of_le_of_ne (hc c mc) hcon.2
      rcases t0.lt_or_eq with tp | tp
      · have := mul_pos tp (sub_pos.2 l2)
        have := mul_nonneg (sub_nonneg.2 t1) (sub_nonneg.2 l1.le)
        linarith
      · subst tp; simp at ey; exact hcon.1 ey.symm
    · exfalso
      have l1 := hc a ma
      have l2 := hc c mc
      rcases t0.lt_or_eq with tp | tp
      · have := mul_pos tp (sub_pos.2 l2)
        have := mul_nonneg (sub_nonneg.2 t1) (sub_nonneg.2 l1.le)
        linarith
      · subst tp; simp at ey; exact l1.ne ey
  · have hf := h2 hc
    rw [hb] at hf; cases hf

/-- C87 fails: the centre of a square. -/
theorem isPointInside_raises :
    (isPointInside ({ points := [⟨0, 0⟩, ⟨2, 0⟩, ⟨2, 2⟩, ⟨0, 2⟩] } : Polygon ℚ) ⟨1, 1⟩).1 = .error .attributeError := by
  decide +kernel

/-! ## C88 -/

theorem succ_mod (i n : Nat) (h : i < n) : (i + 1) % n = if i + 1 = n then 0 else i + 1 := by
  split
  · rename_i e; rw [e, Nat.mod_self]
  · exact Nat.mod_eq_of_lt (by omega)

theorem convex_simple (points : List (Vec K)) (σ : K) (h3 : 3 ≤ points.length)
    (h : ∀ i a b k c, IsEdge points i a b → points[k]? = some c → k ≠ i → k ≠ (i + 1) % points.length →
      0 < σ * ((b.x - a.x) * (c.y - a.y) - (b.y - a.y) * (c.x - a.x))) : SimplePolygon points := by
  intro i j a b c d q hij h1 h2 ⟨u, u0, u1, e1⟩ ⟨t, t0, t1, e2⟩
  have hi : i < points.length := (List.getElem?_eq_some_iff.1 h1.1).1
  have hj : j < points.length := (List.getElem?_eq_some_iff.1 h2.1).1
  have lq : σ * ((b.x - a.x) * (q.y - a.y) - (b.y - a.y) * (q.x - a.x)) = 0 := by
    rw [e1]; simp only; ring
  have aff : σ * ((b.x - a.x) * (q.y - a.y) - (b.y - a.y) * (q.x - a.x)) =
      (1 - t) * (σ * ((b.x - a.x) * (c.y - a.y) - (b.y - a.y) * (c.x - a.x))) +
      t * (σ * ((b.x - a.x) * (d.y - a.y) - (b.y - a.y) * (d.x - a.x))) := by
    rw [e2]; simp only; ring
  rw [lq] at aff
  have hc := h i a b j c h1 h2.1 (Ne.symm hij)
  have hd := h i a b _ d h1 h2.2
  rw [succ_mod _ _ hi] at hc hd
  rw [succ_mod _ _ hj] at hd
  rw [succ_mod _ _ hi, succ_mod _ _ hj]
  by_cases c1 : j = if i + 1 = points.length then 0 else i + 1
  · -- the next edge
    left
    refine ⟨c1, ?_⟩
    have hcb : c = b := by
      have := h1.2
      rw [succ_mod _ _ hi, ← c1, h2.1] at this
      exact Option.some.inj this
    have ld := hd (by split at c1 <;> split <;> omega) (by split at c1 <;> split <;> omega)
    have lc : σ * ((b.x - a.x) * (c.y - a.y) - (b.y - a.y) * (c.x - a.x)) = 0 := by rw [hcb]; ring
    rw [lc, mul_zero, zero_add] at aff
    have : t = 0 := by
      rcases mul_eq_zero.1 aff.symm with h | h
      · exact h
      · exact absurd h ld.ne'
    rw [e2, this, ← hcb]
    ext <;> simp
  · have lc := hc c1
    by_cases c2 : i = if j + 1 = points.length then 0 else j + 1
    · right
      refine ⟨c2, ?_⟩
      have hda : d = a := by
        have := h2.2
        rw [succ_mod _ _ hj, ← c2, h1.1] at this
        exact (Option.some.inj this).symm
      have ld : σ * ((b.x - a.x) * (d.y - a.y) - (b.y - a.y) * (d.x - a.x)) = 0 := by rw [hda]; ring
      rw [ld, mul_zero, add_zero] at aff
      have : t = 1 := by
        rcases mul_eq_zero.1 aff.symm with h | h
        · linarith
        · exact absurd h lc.ne'
      rw [e2, this, ← hda]
      ext <;> simp
    · exfalso
      have ld := hd (Ne.symm c2) (by split_ifs <;> split_ifs at c1 c2 <;> omega)
      have p1 := mul_nonneg (sub_nonneg.2 t1) lc.le
      have p2 := mul_nonneg t0 ld.le
      rcases t0.lt_or_eq with tp | tp
      · have := mul_pos tp ld
        linarith
      · rw [← tp] at aff; linarith

theorem turnsLoop_of_chain (s0 : K) (first e : Segment K) (es : List (Segment K))
    (h : List.IsChain (fun a b : Segment K => MathFunctions.sign (a.cross b) = s0) (e :: es ++ [first])) :
    turnsLoop s0 first e es = true := by
  induction es generalizing e with
  | nil =>
    simp only [List.cons_append, List.nil_append, List.isChain_cons_cons] at h
    simp [turnsLoop, h.1]
  | cons f es ih =>
    rw [List.cons_append, List.cons_append, List.isChain_cons_cons] at h
    rw [turnsLoop, if_neg (not_not.2 h.1)]
    exact ih f h.2

theorem convex_of_sides (points : List (Vec K)) (σ : K) (hσ : σ = 1 ∨ σ = -1) (h3 : 3 ≤ points.length)
    (h : ∀ i a b k c, IsEdge points i a b → points[k]? = some c → k ≠ i → k ≠ (i + 1) % points.length →
      0 < σ * ((b.x - a.x) * (c.y - a.y) - (b.y - a.y) * (c.x - a.x))) :
    (getIsConvex ({ points := points } : Polygon K)).1 = .ok true := by
  have hs := isSimple_complete points (convex_simple points σ h3 h)
  obtain ⟨es, hes, hlen, hspec⟩ := pointEdges_spec points
  have hts : testIsSimple es = true := by
    simp only [getIsSimple, getEdges, hes] at hs
    exact Except.ok.inj hs
  -- consecutive edges turn in the same sense
  have turn : ∀ i (s t : Segment K), es[i]? = some s → es[(i + 1) % points.length]? = some t →
      MathFunctions.sign (s.cross t) = σ := by
    intro i s t h1 h2
    obtain ⟨g1, g2⟩ := (hspec _ _).1 h1
    obtain ⟨g3, g4⟩ := (hspec _ _).1 h2
    have hi : i < points.length := (List.getElem?_eq_some_iff.1 g1).1
    have e : t.p0 = s.p1 := Option.some.inj (g3.symm.trans g2)
    have := h i s.p0 s.p1 _ t.p1 ⟨g1, g2⟩ g4 (by
        rw [succ_mod _ _ (Nat.mod_lt _ (by omega)), succ_mod _ _ hi]
        split_ifs <;> omega) (by
        rw [succ_mod _ _ (Nat.mod_lt _ (by omega)), succ_mod _ _ hi]
        split_ifs <;> omega)
    have ec : s.cross t = (s.p1.x - s.p0.x) * (t.p1.y - s.p0.y) - (s.p1.y - s.p0.y) * (t.p1.x - s.p0.x) := by
      simp only [Segment.cross, Segment.vector, Vec.cross, Vec.sub_x, Vec.sub_y, e]
      ring
    rw [← ec] at this
    unfold MathFunctions.sign
    rcases hσ with rfl | rfl
    · rw [if_pos (by linarith)]
    · rw [if_neg (by linarith)]
  have hts2 : testTurns es = .ok true := by
    cases hc : es with
    | nil => rw [hc] at hlen; simp at hlen; omega
    | cons e es' =>
      have hl' : points.length = es'.length + 1 := by rw [← hlen, hc]; rfl
      have hlast : MathFunctions.sign (((e :: es').getLast (List.cons_ne_nil _ _)).cross e) = σ := by
        refine turn es'.length _ _ ?_ ?_
        · rw [hc, List.getLast_eq_getElem, List.getElem?_eq_getElem (by simp)]
          simp
        · rw [hc, ← hl', Nat.mod_self]; rfl
      simp only [testTurns, hlast]
      congr 1
      apply turnsLoop_of_chain
      rw [List.isChain_iff_getElem]
      intro i hi
      simp only [List.length_append, List.length_cons, List.length_nil] at hi
      refine turn i _ _ ?_ ?_
      · rw [hc, List.getElem_append_left (by simp; omega), List.getElem?_eq_getElem (by simp; omega)]
      · by_cases hl : i + 1 = points.length
        · have z : (i + 1) % points.length = 0 := by rw [hl, Nat.mod_self]
          rw [z, hc, List.getElem_append_right (by simp; omega)]
          simp
        · rw [Nat.mod_eq_of_lt (by omega), hc, List.getElem_append_left (by simp; omega),
            List.getElem?_eq_getElem (by simp; omega)]
  simp only [getIsConvex, getIsSimple, getEdges, hes, hts, hts2]

/-- C88. `is_convex` is true for every strictly convex polygon, in both orders of the vertices. -/
theorem isConvex_complete (points : List (Vec K)) (p : Polygon K) (hp : create points = .ok p)
    (h : StrictlyConvex points ∨ StrictlyConvexClockwise points) : p.getIsConvex.1 = .ok true := by
  unfold create at hp
  split at hp
  · cases hp
  · rename_i h3
    cases hp
    rcases h with h | h
    · exact convex_of_sides points 1 (Or.inl rfl) (by omega) fun i a b k c h1 h2 h3 h4 => by
        rw [one_mul]; exact h i a b k c h1 h2 h3 h4
    · exact convex_of_sides points (-1) (Or.inr rfl) (by omega) fun i a b k c h1 h2 h3 h4 => by
        have := h i a b k c h1 h2 h3 h4
        linarith

/-- C88. A polygon for which the test is made and succeeds has passed the test of simplicity. -/
theorem isConvex_simple (points : List (Vec K))
    (h : (getIsConvex ({ points := points } : Polygon K)).1 = .ok true) :
    (getIsSimple ({ points := points } : Polygon K)).1 = .ok true := by
  obtain ⟨es, hes, _⟩ := pointEdges_spec points
  simp only [getIsConvex, getIsSimple, getEdges, hes] at h ⊢
  by_cases ht : testIsSimple es = true
  · rw [ht]
  · simp only [Bool.not_eq_true] at ht
    rw [ht] at h
    simp at h

/-- C88 fails for a convex polygon with a flat vertex, in clockwise order: the same square with a vertex in the middle of
a side is convex in one order of the vertices, not in the other one. -/
theorem isConvex_wrong_order :
    (getIsConvex ({ points := [⟨0, 0⟩, ⟨1, 0⟩, ⟨2, 0⟩, ⟨2, 2⟩, ⟨0, 2⟩] } : Polygon ℚ)).1 = .ok true ∧
    (getIsConvex ({ points := [⟨0, 2⟩, ⟨2, 2⟩, ⟨2, 0⟩, ⟨1, 0⟩, ⟨0, 0⟩] } : Polygon ℚ)).1 = .ok false := by
  decide +kernel

/-- C88 fails for a square travelled twice, which is said to be convex and has twice the area. -/
theorem isConvex_wrong_double :
    let p : Polygon ℚ := { points := [⟨0, 0⟩, ⟨1, 0⟩, ⟨1, 1⟩, ⟨0, 1⟩, ⟨0, 0⟩, ⟨1, 0⟩, ⟨1, 1⟩, ⟨0, 1⟩] }
    p.getIsConvex.1 = .ok true ∧ p.getArea.1 = .ok (some 2) := by decide +kernel

/-- A strictly convex polygon exists: the hypotheses of `isConvex_complete`. -/
example : StrictlyConvex [(⟨0, 0⟩ : Vec ℚ), ⟨2, 0⟩, ⟨1, 1⟩] := by
  rintro i a b k c ⟨h1, h2⟩ h3 n1 n2
  have hi : i < 3 := (List.getElem?_eq_some_iff.1 h1).1
  have hk : k < 3 := (List.getElem?_eq_some_iff.1 h3).1
  simp only [List.length_cons, List.length_nil] at n2 h2
  have : i = 0 ∨ i = 1 ∨ i = 2 := by omega
  have : k = 0 ∨ k = 1 ∨ k = 2 := by omega
  rcases ‹i = 0 ∨ i = 1 ∨ i = 2› with rfl | rfl | rfl <;> rcases ‹k = 0 ∨ k = 1 ∨ k = 2› with rfl | rfl | rfl <;>
    simp_all <;> subst h1 h2 h3 <;> norm_num

/-! ## What is kept -/

theorem getEdges_convex (p : Polygon K) : p.getEdges.2.isConvex = p.isConvex ∧ p.getEdges.2.isSimple = p.isSimple := by
  unfold getEdges
  split
  · exact ⟨rfl, rfl⟩
  · split <;> exact ⟨rfl, rfl⟩

theorem getIsSimple_convex (p : Polygon K) :
    p.getIsSimple.2.isConvex = p.isConvex ∧ ∀ b, p.isSimple = some b → p.getIsSimple.2.isSimple = some b := by
  have h := getEdges_convex p
  unfold getIsSimple
  cases hs : p.isSimple with
  | some b => exact ⟨rfl, fun b' hb => by rw [← hb]; exact hs⟩
  | none =>
    refine ⟨?_, fun b hb => by cases hb⟩
    cases hE : p.getEdges with
    | mk r p' =>
      rw [hE] at h
      cases r with
      | error e => exact h.1
      | ok es => exact h.1

theorem computeArea_convex (p : Polygon K) : p.computeArea.2.isConvex = p.isConvex ∧ p.computeArea.2.isSimple = p.isSimple := by
  unfold computeArea
  split
  · exact ⟨rfl, rfl⟩
  · dsimp only
    split <;> exact ⟨rfl, rfl⟩

theorem checkArea_convex (p : Polygon K) :
    p.checkArea.2.isConvex = p.isConvex ∧ ∀ b, p.isSimple = some b → p.checkArea.2.isSimple = some b := by
  have h := getIsSimple_convex p
  unfold checkArea
  generalize p.getIsSimple = r at h ⊢
  obtain ⟨r, p'⟩ := r
  cases r with
  | error e => exact h
  | ok simple =>
    dsimp only at h ⊢
    split
    · have h' := computeArea_convex p'
      rw [h'.1, h'.2]
      exact h
    · exact h

/-- What an operation keeps. -/
theorem run_convex (p : Polygon K) (op : Op K) : (∀ b, p.isConvex = some b → (op.run p).isConvex = some b) ∧
    ∀ b, p.isSimple = some b → (op.run p).isSimple = some b := by
  have hE := getEdges_convex p
  have hS := getIsSimple_convex p
  have hC := checkArea_convex p
  cases op with
  | edges => exact ⟨fun b h => hE.1.trans h, fun b h => hE.2.trans h⟩
  | isSimple => exact ⟨fun b h => hS.1.trans h, hS.2⟩
  | isConvex =>
    simp only [Op.run, getIsConvex]
    cases hc : p.isConvex with
    | some b => exact ⟨fun b' h => by rw [← h]; exact hc, fun b h => h⟩
    | none =>
      refine ⟨fun b h => (by cases h), fun b h => ?_⟩
      have hS := hS.2 b h
      generalize p.getIsSimple = r at hS ⊢
      obtain ⟨r, p'⟩ := r
      rcases r with e | ⟨⟨⟩⟩
      · exact hS
      · exact hS
      · have hE := getEdges_convex p'
        dsimp only at hS ⊢
        rw [hS] at hE
        generalize p'.getEdges = r at hE ⊢
        obtain ⟨r, p''⟩ := r
        cases r with
        | error e => exact hE.2
        | ok es =>
          dsimp only
          split <;> exact hE.2
  | area =>
    simp only [Op.run, getArea]
    generalize p.checkArea = r at hC ⊢
    obtain ⟨r, p'⟩ := r
    cases r <;> exact ⟨fun b h => hC.1.trans h, hC.2⟩
  | barycenter =>
    simp only [Op.run, getBarycenter]
    generalize p.checkArea = r at hC ⊢
    obtain ⟨r, p'⟩ := r
    cases r with
    | error e => exact ⟨fun b h => hC.1.trans h, hC.2⟩
    | ok u =>
      dsimp only
      split <;> exact ⟨fun b h => hC.1.trans h, hC.2⟩
  | isClockwise =>
    simp only [Op.run, getIsClockwise]
    generalize p.getIsSimple = r at hS ⊢
    obtain ⟨r, p'⟩ := r
    rcases r with e | ⟨⟨⟩⟩
    · exact ⟨fun b h => hS.1.trans h, hS.2⟩
    · exact ⟨fun b h => hS.1.trans h, hS.2⟩
    · dsimp only at hS ⊢
      split
      · exact ⟨fun b h => hS.1.trans h, hS.2⟩
      · have hC := checkArea_convex p'
        generalize p'.checkArea = r at hC ⊢
        obtain ⟨r, p''⟩ := r
        have k : (∀ b, p.isConvex = some b → p''.isConvex = some b) ∧ ∀ b, p.isSimple = some b → p''.isSimple = some b :=
          ⟨fun b h => hC.1.trans (hS.1.trans h), fun b h => hC.2 b (hS.2 b h)⟩
        cases r with
        | error e => exact k
        | ok u =>
          dsimp only
          split <;> exact k
  | isPointInside q =>
    simp only [Op.run, isPointInside]
    generalize p.getEdges = r at hE ⊢
    obtain ⟨r, p'⟩ := r
    cases r <;> exact ⟨fun b h => hE.1.trans h, fun b h => hE.2.trans h⟩
  | transform f => exact ⟨fun b h => h, fun b h => h⟩

theorem runs_convex (p : Polygon K) (ops : List (Op K)) : (∀ b, p.isConvex = some b → (ops.foldl Op.run p).isConvex = some b) ∧
    ∀ b, p.isSimple = some b → (ops.foldl Op.run p).isSimple = some b := by
  induction ops generalizing p with
  | nil => exact ⟨fun b h => h, fun b h => h⟩
  | cons op ops ih => exact ⟨fun b h => (ih _).1 b ((run_convex p op).1 b h), fun b h => (ih _).2 b ((run_convex p op).2 b h)⟩

/-- C88. What `is_convex` has said it says again, whatever was asked in between. -/
theorem isConvex_again (p : Polygon K) (b : Bool) (h : p.getIsConvex.1 = .ok b) (ops : List (Op K)) :
    (ops.foldl Op.run p.getIsConvex.2).getIsConvex.1 = .ok b := by
  have h1 : p.getIsConvex.2.isConvex = some b := by
    unfold getIsConvex at h ⊢
    cases hc : p.isConvex with
    | some b' =>
      rw [hc] at h
      cases h
      exact hc
    | none =>
      rw [hc] at h
      dsimp only at h ⊢
      generalize p.getIsSimple = r at h ⊢
      obtain ⟨r, p'⟩ := r
      rcases r with e | ⟨⟨⟩⟩
      · cases h
      · cases h
        rfl
      · dsimp only at h ⊢
        generalize p'.getEdges = r at h ⊢
        obtain ⟨r, p''⟩ := r
        cases r with
        | error e => cases h
        | ok es =>
          dsimp only at h ⊢
          generalize testTurns es = t at h ⊢
          cases t with
          | error e => cases h
          | ok b' =>
            cases h
            rfl
  have h2 := (runs_convex _ ops).1 b h1
  generalize ops.foldl Op.run p.getIsConvex.2 = q at h2 ⊢
  unfold getIsConvex
  rw [h2]

/-- C85. What `is_simple` has said it says again, whatever was asked in between. -/
theorem isSimple_again (p : Polygon K) (b : Bool) (h : p.getIsSimple.1 = .ok b) (ops : List (Op K)) :
    (ops.foldl Op.run p.getIsSimple.2).getIsSimple.1 = .ok b := by
  have h1 : p.getIsSimple.2.isSimple = some b := by
    unfold getIsSimple at h ⊢
    cases hc : p.isSimple with
    | some b' =>
      rw [hc] at h
      cases h
      exact hc
    | none =>
      rw [hc] at h
      dsimp only at h ⊢
      generalize p.getEdges = r at h ⊢
      obtain ⟨r, p'⟩ := r
      cases r with
      | error e => cases h
      | ok es =>
        cases h
        rfl
  have h2 := (runs_convex _ ops).2 b h1
  generalize ops.foldl Op.run p.getIsSimple.2 = q at h2 ⊢
  unfold getIsSimple
  rw [h2]

example : (getIsConvex ({ points := [⟨0, 0⟩, ⟨2, 0⟩, ⟨1, 1⟩, ⟨2, 2⟩] } : Polygon ℚ)).1 = .ok false ∧
    (([.area, .isSimple, .isClockwise] : List (Op ℚ)).foldl Op.run
      (getIsConvex ({ points := [⟨0, 0⟩, ⟨2, 0⟩, ⟨1, 1⟩, ⟨2, 2⟩] } : Polygon ℚ)).2).getIsConvex.1 = .ok false := by decide +kernel

end Field

/-- C44. `perimeter` of a new polygon is the sum of the distances between consecutive vertices, the last one being
joined to the first one. -/
theorem perimeter_spec (a : Vec ℝ) (points : List (Vec ℝ)) :
    (perimeter ({ points := a :: points } : Polygon ℝ)).1 =
      .ok (List.zipWith distance (a :: points) (points ++ [a])).sum := by
  obtain ⟨es, hes, hlen, hspec⟩ := pointEdges_spec (a :: points)
  simp only [perimeter, getEdges, hes]
  congr 2
  apply List.ext_getElem?
  intro i
  rw [List.getElem?_map, List.getElem?_zipWith]
  cases he : es[i]? with
  | none =>
    rw [List.getElem?_eq_none_iff, hlen] at he
    rw [List.getElem?_eq_none (by omega)]
    rfl
  | some s =>
    obtain ⟨g1, g2⟩ := (hspec i s).1 he
    have hi : i < (a :: points).length := (List.getElem?_eq_some_iff.1 g1).1
    rw [g1]
    have : (points ++ [a])[i]? = some s.p1 := by
      rw [← g2, succ_mod _ _ hi]
      simp only [List.length_cons] at hi ⊢
      split
      · rename_i e
        rw [List.getElem?_append_right (by omega), show i - points.length = 0 by omega]
        rfl
      · rw [List.getElem?_append_left (by omega)]
        rfl
    rw [this]
    simp only [Option.map_some]
    rw [← distance_eq]
    congr 1
    unfold Segment.length Segment.vector Vec.magnitude Vec.magnitudeSquare
    congr 1
    simp only [Vec.sub_x, Vec.sub_y]
    ring

end Patro.Polygon
