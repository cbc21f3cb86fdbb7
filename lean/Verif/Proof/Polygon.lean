import Verif.Spec.Polygon
import Verif.Props.IterTools
import Verif.Proof.Line
import Verif.Props.Line
/-! # Lemmas about polygons -/

namespace Patro.Polygon

variable {K : Type _}

theorem pointEdges_spec (points : List (Vec K)) :
    ∃ es, pointEdges points = .ok es ∧ es.length = points.length ∧
      ∀ i (s : Segment K), es[i]? = some s ↔ points[i]? = some s.p0 ∧ points[(i + 1) % points.length]? = some s.p1 := by
  obtain ⟨r, hr, hl, h1, h2⟩ := IterTools.closedPairwise_spec points
  refine ⟨r.map fun pair => ⟨pair.1, pair.2⟩, by rw [pointEdges, hr]; rfl, by simp [hl], ?_⟩
  intro i s
  by_cases hi : i < points.length
  · have hir : i < r.length := by omega
    have key : r[i]? = some (points[i], points[(i + 1) % points.length]'(Nat.mod_lt _ (by omega))) := by
      rw [List.getElem?_eq_getElem hir]
      congr 1
      by_cases hl' : i + 1 < points.length
      · rw [h1 i hl']
        congr 1
        simp only [Nat.mod_eq_of_lt hl']
      · have : i = points.length - 1 := by omega
        have e : (i + 1) % points.length = 0 := by
          rw [show i + 1 = points.length by omega, Nat.mod_self]
        subst this
        rw [h2 (by omega)]
        congr 1
        simp only [e]
    rw [List.getElem?_map, key, List.getElem?_eq_getElem hi,
      List.getElem?_eq_getElem (Nat.mod_lt _ (by omega))]
    simp only [Option.map_some, Option.some.injEq]
    constructor
    · rintro rfl; exact ⟨rfl, rfl⟩
    · rintro ⟨e1, e2⟩; rw [e1, e2]
  · rw [List.getElem?_eq_none (by simp; omega), List.getElem?_eq_none (l := points) (i := i) (by omega)]
    simp

theorem isEdge_iff (points : List (Vec K)) (es : List (Segment K)) (h : pointEdges points = .ok es) (i : Nat) (a b : Vec K) :
    es[i]? = some ⟨a, b⟩ ↔ IsEdge points i a b := by
  obtain ⟨es', h', _, hs⟩ := pointEdges_spec points
  rw [h] at h'; cases h'
  exact hs i ⟨a, b⟩

variable [Field K] [LinearOrder K] [IsStrictOrderedRing K]

/-- Two edges pass the test of the inner loop exactly when they are nearly parallel, or meet at most at a vertex of
both. -/
theorem pairIsSimple_iff (s t : Segment K) :
    pairIsSimple s t = true ↔ Vec.roundsToZero (s.vector.cross t.vector) = true ∨
      ∀ q, s.Contains q → t.Contains q → (q = s.p0 ∨ q = s.p1) ∧ (q = t.p0 ∨ q = t.p1) := by
  have hi : s.toLine.v.cross t.toLine.v = s.vector.cross t.vector := rfl
  unfold pairIsSimple
  by_cases hr : Vec.roundsToZero (s.vector.cross t.vector) = true
  · have : s.intersection t = none := by
      unfold Segment.intersection Line.intersectionAbscissae
      simp only [hi, hr, if_true, Option.map_none]
    rw [this]
    simp [hr]
  · have hne : s.vector.cross t.vector ≠ 0 := cross_ne_zero_of_not_round hr
    obtain ⟨u, hu⟩ : ∃ u, s.toLine.intersectionAbscissae t.toLine = some u := by
      unfold Line.intersectionAbscissae
      rw [hi]
      simp [hr]
    have hu' := hu
    unfold Line.intersectionAbscissae at hu'
    rw [hi] at hu'
    simp only [hr, Bool.false_eq_true, if_false, Option.some.injEq] at hu'
    have e1 : u.1 = (t.p0 - s.p0).cross t.vector / s.vector.cross t.vector := by
      rw [← hu']; exact mul_one_div _ _
    have e2 : u.2 = (t.p0 - s.p0).cross s.vector / s.vector.cross t.vector := by
      rw [← hu']; exact mul_one_div _ _
    -- the only point of both lines
    have uniq : ∀ a b : K, s.p0 + s.vector.smul a = t.p0 + t.vector.smul b → a = u.1 ∧ b = u.2 := by
      intro a b hab
      rw [e1, e2, eq_div_iff hne, eq_div_iff hne]
      rw [Vec.ext_iff] at hab
      simp only [Vec.add_x, Vec.add_y, Vec.smul_x, Vec.smul_y] at hab
      simp only [Vec.cross, Vec.sub_x, Vec.sub_y]
      constructor
      · linear_combination t.vector.y * hab.1 - t.vector.x * hab.2
      · linear_combination s.vector.y * hab.1 - s.vector.x * hab.2
    have meet : s.p0 + s.vector.smul u.1 = t.p0 + t.vector.smul u.2 := by
      rw [e1, e2]
      ext <;> simp only [Vec.add_x, Vec.add_y, Vec.smul_x, Vec.smul_y] <;>
        rw [← sub_eq_zero] <;> field_simp <;> simp only [Vec.cross, Vec.sub_x, Vec.sub_y] <;> ring
    have itp : s.interpolate u.1 = s.p0 + s.vector.smul u.1 := by
      ext <;> simp only [Segment.interpolate, Segment.vector, Vec.add_x, Vec.add_y, Vec.smul_x, Vec.smul_y, Vec.sub_x, Vec.sub_y] <;> ring
    have cont : ∀ (s : Segment K) q, s.Contains q ↔ ∃ a : K, 0 ≤ a ∧ a ≤ 1 ∧ q = s.p0 + s.vector.smul a := by
      intro s q
      constructor
      · rintro ⟨a, a0, a1, rfl⟩
        refine ⟨a, a0, a1, ?_⟩
        ext <;> simp only [Segment.vector, Vec.add_x, Vec.add_y, Vec.smul_x, Vec.smul_y, Vec.sub_x, Vec.sub_y] <;> ring
      · rintro ⟨a, a0, a1, rfl⟩
        refine ⟨a, a0, a1, ?_⟩
        ext <;> simp only [Segment.vector, Vec.add_x, Vec.add_y, Vec.smul_x, Vec.smul_y, Vec.sub_x, Vec.sub_y] <;> ring
    have both : ∀ q, s.Contains q → t.Contains q → q = s.interpolate u.1 ∧ (0 ≤ u.1 ∧ u.1 ≤ 1) ∧ (0 ≤ u.2 ∧ u.2 ≤ 1) := by
      intro q hs ht
      obtain ⟨a, a0, a1, ea⟩ := (cont s q).1 hs
      obtain ⟨b, b0, b1, eb⟩ := (cont t q).1 ht
      obtain ⟨rfl, rfl⟩ := uniq a b (ea.symm.trans eb)
      exact ⟨by rw [itp, ea], ⟨a0, a1⟩, ⟨b0, b1⟩⟩
    have hint : s.intersection t = some (s.interpolate u.1,
        decide (0 ≤ u.1 ∧ u.1 ≤ 1) && decide (0 ≤ u.2 ∧ u.2 ≤ 1)) := by
      unfold Segment.intersection; rw [hu]; rfl
    rw [hint]
    simp only [hr, Bool.false_eq_true, false_or]
    by_cases hb : (0 ≤ u.1 ∧ u.1 ≤ 1) ∧ (0 ≤ u.2 ∧ u.2 ≤ 1)
    · have c1 : s.Contains (s.interpolate u.1) := (cont s _).2 ⟨u.1, hb.1.1, hb.1.2, itp⟩
      have c2 : t.Contains (s.interpolate u.1) := (cont t _).2 ⟨u.2, hb.2.1, hb.2.2, by rw [itp, meet]⟩
      have hbb : (decide (0 ≤ u.1 ∧ u.1 ≤ 1) && decide (0 ≤ u.2 ∧ u.2 ≤ 1)) = true := by
        simpa using hb
      rw [if_pos hbb]
      have hsv := shareVertexWith_spec s t
      constructor
      · intro h q hs ht
        obtain ⟨rfl, _⟩ := both q hs ht
        cases hv : s.shareVertexWith t with
        | none => rw [hv] at h; simp at h
        | some c =>
          rw [hv] at h
          simp only [decide_eq_true_eq] at h
          rw [← h]
          exact hsv.1 c hv
      · intro h
        obtain ⟨h1, h2⟩ := h _ c1 c2
        have ends : ∀ (w : Segment K) p, (p = w.p0 ∨ p = w.p1) → w.Contains p := by
          rintro w p (rfl | rfl)
          · exact ⟨0, le_refl _, zero_le_one, by ext <;> simp⟩
          · exact ⟨1, zero_le_one, le_refl _, by ext <;> simp⟩
        cases hv : s.shareVertexWith t with
        | none =>
          exfalso
          obtain ⟨n1, n2, n3, n4⟩ := hsv.2.1 hv
          rcases h1 with h1 | h1 <;> rcases h2 with h2 | h2
          · exact n1 (h1.symm.trans h2)
          · exact n2 (h1.symm.trans h2)
          · exact n3 (h1.symm.trans h2)
          · exact n4 (h1.symm.trans h2)
        | some c =>
          simp only [decide_eq_true_eq]
          obtain ⟨g1, g2⟩ := hsv.1 c hv
          exact (both c (ends s c g1) (ends t c g2)).1
    · have hbb : (decide (0 ≤ u.1 ∧ u.1 ≤ 1) && decide (0 ≤ u.2 ∧ u.2 ≤ 1)) = false := by
        rw [← Bool.not_eq_true, Bool.and_eq_true, decide_eq_true_eq, decide_eq_true_eq]; exact hb
      rw [hbb]
      simp only [Bool.false_eq_true, if_false, true_iff]
      intro q hs ht
      exact absurd (both q hs ht).2 hb

theorem testIsSimple_iff (es : List (Segment K)) :
    testIsSimple es = true ↔ ∀ (i j : Nat) (s t : Segment K), i ≠ j → es[i]? = some s → es[j]? = some t → pairIsSimple s t = true := by
  unfold testIsSimple
  rw [List.all_eq_true]
  constructor
  · intro h i j s t hij hs ht
    have h1 := h (s, i) (by rw [List.mem_zipIdx_iff_getElem?]; exact hs)
    simp only [List.all_eq_true] at h1
    have h2 := h1 (t, j) (by rw [List.mem_zipIdx_iff_getElem?]; exact ht)
    simp only [Bool.or_eq_true, beq_iff_eq] at h2
    exact h2.resolve_left hij
  · rintro h ⟨s, i⟩ hs
    rw [List.all_eq_true]
    rintro ⟨t, j⟩ ht
    rw [List.mem_zipIdx_iff_getElem?] at hs ht
    simp only [Bool.or_eq_true, beq_iff_eq]
    by_cases hij : i = j
    · exact Or.inl hij
    · exact Or.inr (h i j s t hij hs ht)

/-! ### Sums over the closed list of points -/

theorem closed_cross (a : Vec K) (x : Vec K) (ps : List (Vec K)) :
    (crossTerms (x :: ps ++ [a])).sum = 2 * ((fan a (x :: ps)).map triangleArea).sum + (x.x * a.y - a.x * x.y) := by
  induction ps generalizing x with
  | nil => simp [crossTerms, fan]
  | cons y ps ih =>
    have := ih y
    simp only [List.cons_append, crossTerms, List.sum_cons, fan, List.map_cons] at this ⊢
    rw [this]
    simp only [triangleArea]
    ring

theorem sum_crossTerms (a : Vec K) (ps : List (Vec K)) :
    (crossTerms (a :: ps ++ [a])).sum = 2 * signedArea (a :: ps) := by
  cases ps with
  | nil => simp [crossTerms, signedArea, triangles, fan, mul_comm]
  | cons x ps =>
    have := closed_cross a x ps
    simp only [List.cons_append, crossTerms, List.sum_cons, signedArea, triangles] at this ⊢
    rw [this]
    ring

theorem closed_x (a : Vec K) (x : Vec K) (ps : List (Vec K)) :
    (xTerms (x :: ps ++ [a])).sum =
      6 * ((fan a (x :: ps)).map fun t => triangleArea t * ((t.1.x + t.2.1.x + t.2.2.x) / 3)).sum +
        (x.x + a.x) * (x.x * a.y - a.x * x.y) := by
  induction ps generalizing x with
  | nil => simp [xTerms, fan]
  | cons y ps ih =>
    have := ih y
    simp only [List.cons_append, xTerms, List.sum_cons, fan, List.map_cons] at this ⊢
    rw [this]
    simp only [triangleArea]
    ring

theorem sum_xTerms (a : Vec K) (ps : List (Vec K)) :
    (xTerms (a :: ps ++ [a])).sum = 6 * momentX (a :: ps) := by
  cases ps with
  | nil => simp [xTerms, momentX, triangles, fan, mul_comm]
  | cons x ps =>
    have := closed_x a x ps
    simp only [List.cons_append, xTerms, List.sum_cons, momentX, triangles] at this ⊢
    rw [this]
    ring

theorem closed_y (a : Vec K) (x : Vec K) (ps : List (Vec K)) :
    (yTerms (x :: ps ++ [a])).sum =
      6 * ((fan a (x :: ps)).map fun t => triangleArea t * ((t.1.y + t.2.1.y + t.2.2.y) / 3)).sum +
        (x.y + a.y) * (x.x * a.y - a.x * x.y) := by
  induction ps generalizing x with
  | nil => simp [yTerms, fan]
  | cons y ps ih =>
    have := ih y
    simp only [List.cons_append, yTerms, List.sum_cons, fan, List.map_cons] at this ⊢
    rw [this]
    simp only [triangleArea]
    ring

theorem sum_yTerms (a : Vec K) (ps : List (Vec K)) :
    (yTerms (a :: ps ++ [a])).sum = 6 * momentY (a :: ps) := by
  cases ps with
  | nil => simp [yTerms, momentY, triangles, fan, mul_comm]
  | cons x ps =>
    have := closed_y a x ps
    simp only [List.cons_append, yTerms, List.sum_cons, momentY, triangles] at this ⊢
    rw [this]
    ring

theorem crossTerms_snoc (l : List (Vec K)) (u v : Vec K) :
    (crossTerms (l ++ [u, v])).sum = (crossTerms (l ++ [u])).sum + (u.x * v.y - v.x * u.y) := by
  induction l with
  | nil => simp [crossTerms]
  | cons p l ih =>
    cases l with
    | nil => simp [crossTerms]
    | cons q l =>
      simp only [List.cons_append, crossTerms, List.sum_cons] at ih ⊢
      rw [ih]; ring

theorem crossTerms_reverse (l : List (Vec K)) : (crossTerms l.reverse).sum = -(crossTerms l).sum := by
  induction l with
  | nil => simp [crossTerms]
  | cons p l ih =>
    cases l with
    | nil => simp [crossTerms]
    | cons q l =>
      rw [List.reverse_cons, List.reverse_cons, List.append_assoc]
      have := crossTerms_snoc l.reverse q p
      simp only [List.cons_append, List.nil_append] at this ⊢
      rw [this, ← List.reverse_cons, ih]
      simp only [crossTerms, List.sum_cons]
      ring

end Patro.Polygon
