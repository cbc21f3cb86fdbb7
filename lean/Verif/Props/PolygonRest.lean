import Verif.Model.PolygonRest
import Verif.Spec.Line
import Verif.Props.Polygon
/-! # Properties of the remaining functions of polygons: C196 -/

namespace Patro.PolygonRest

variable {K : Type _} [Field K] [LinearOrder K] [IsStrictOrderedRing K]

/-- C196. A polygon is converted to a triangle exactly when it has three points that are not aligned (the cross product of its sides does not
round to 0), and the triangle has its points in the same order; otherwise `ValueError` is raised. -/
theorem toTriangle_spec (points : List (Vec K)) (p : Polygon K) (h : Polygon.create points = .ok p) :
    (∀ a b c, toTriangle p = .ok ⟨a, b, c⟩ ↔
      points = [a, b, c] ∧ 5 / 10 ^ 8 < |(b.x - a.x) * (c.y - a.y) - (b.y - a.y) * (c.x - a.x)|) ∧
    ((∀ t, toTriangle p ≠ .ok t) → toTriangle p = .error .valueError) := by
  unfold Polygon.create at h
  split at h
  · cases h
  cases h
  rename_i h3
  unfold toTriangle isTriangle
  match points, h3 with
  | [a', b', c'], _ =>
    simp only [List.length_cons, List.length_nil, Nat.zero_add, Nat.reduceAdd, BEq.rfl, if_true]
    unfold Triangle.create Vec.isParallel Vec.roundsToZero Vec.cross
    by_cases hp : |(b' - a').x * (c' - a').y - (b' - a').y * (c' - a').x| ≤ 5 / 10 ^ 8
    · rw [if_pos (by simpa using hp)]
      refine ⟨fun a b c => ⟨fun h => (by cases h), ?_⟩, fun _ => rfl⟩
      rintro ⟨h1, h2⟩
      cases h1
      exact absurd hp (not_le.2 h2)
    · rw [if_neg (by simpa using hp)]
      refine ⟨fun a b c => ⟨?_, ?_⟩, fun h => absurd rfl (h _)⟩
      · intro h; cases h; exact ⟨rfl, not_le.1 hp⟩
      · rintro ⟨h1, -⟩; cases h1; rfl
  | a' :: b' :: c' :: d' :: rest, _ =>
    rw [if_neg (by simp)]
    exact ⟨fun a b c => ⟨fun h => (by cases h), fun h => (by cases h.1)⟩, fun _ => rfl⟩
  | [], h3 => exact absurd (by simp) h3
  | [_], h3 => exact absurd (by simp) h3
  | [_, _], h3 => exact absurd (by simp) h3

theorem crossingLoop_eq (y : K) : ∀ (edges : List (Segment K)) (n : Nat),
    ((∃ e ∈ edges, (e.p0.y ≤ y ∧ y < e.p1.y) ∨ (e.p1.y ≤ y ∧ y < e.p0.y)) → crossingLoop y n edges = .error .attributeError) ∧
    ((∀ e ∈ edges, ¬ ((e.p0.y ≤ y ∧ y < e.p1.y) ∨ (e.p1.y ≤ y ∧ y < e.p0.y))) → crossingLoop y n edges = .ok n)
  | [], n => ⟨(by rintro ⟨e, he, -⟩; cases he), fun _ => rfl⟩
  | edge :: rest, n => by
    unfold crossingLoop
    split_ifs with h
    · exact ⟨fun _ => rfl, fun hn => absurd h (hn edge (by simp))⟩
    · refine ⟨?_, fun hn => (crossingLoop_eq y rest n).2 fun e he => hn e (List.mem_cons_of_mem _ he)⟩
      rintro ⟨e, he, hs⟩
      rcases List.mem_cons.1 he with rfl | he
      · exact absurd hs h
      · exact (crossingLoop_eq y rest n).1 ⟨e, he, hs⟩

/-- C196 fails for the crossing number test: it raises `AttributeError` for every point whose horizontal line crosses an edge, and says that all
the others are outside; no point is ever inside. -/
theorem crossingNumberTest_wrong (p : Polygon K) (q : Vec K) (edges : List (Segment K)) (p' : Polygon K) (h : p.getEdges = (.ok edges, p')) :
    ((∃ e ∈ edges, (e.p0.y ≤ q.y ∧ q.y < e.p1.y) ∨ (e.p1.y ≤ q.y ∧ q.y < e.p0.y)) → (crossingNumberTest p q).1 = .error .attributeError) ∧
    ((∀ e ∈ edges, ¬ ((e.p0.y ≤ q.y ∧ q.y < e.p1.y) ∨ (e.p1.y ≤ q.y ∧ q.y < e.p0.y))) → (crossingNumberTest p q).1 = .ok false) := by
  unfold crossingNumberTest
  rw [h]
  constructor
  · intro hs
    simp only [(crossingLoop_eq q.y edges 0).1 hs]
    rfl
  · intro hs
    simp only [(crossingLoop_eq q.y edges 0).2 hs]
    rfl

/-- C196 fails for the names of the regular polygons: there is none. -/
theorem ngonName_wrong (n : Int) : ngonName n = .error .nameError := rfl

/-- C196. Of three points exactly one is true: they turn counter-clockwise, clockwise, or they are aligned, which means that one of the lines
through two of them contains the third; exchanging two points exchanges the two turns, and a cyclic permutation changes nothing. -/
theorem turns_spec (p1 p2 p3 : Vec K) :
    (isCcw p1 p2 p3 = true ↔ isCw p1 p2 p3 = false ∧ isCollinear p1 p2 p3 = false) ∧
    (isCw p1 p2 p3 = true ↔ isCcw p1 p2 p3 = false ∧ isCollinear p1 p2 p3 = false) ∧
    isCcw p1 p3 p2 = isCw p1 p2 p3 ∧ isCcw p2 p3 p1 = isCcw p1 p2 p3 ∧
    (isCollinear p1 p2 p3 = true ↔ (∃ l : Line K, l.v ≠ 0 ∧ l.Contains p1 ∧ l.Contains p2 ∧ l.Contains p3)) ∧
    (isCcw p1 p2 p3 = true ↔ 0 < (p2 - p1).cross (p3 - p1)) := by
  have e1 : ccw p1 p3 p2 = -ccw p1 p2 p3 := by unfold ccw; ring
  have e2 : ccw p2 p3 p1 = ccw p1 p2 p3 := by unfold ccw; ring
  refine ⟨?_, ?_, ?_, ?_, ?_, ?_⟩
  · simp only [isCcw, isCw, isCollinear, decide_eq_true_eq, decide_eq_false_iff_not]
    constructor
    · intro h; exact ⟨not_lt.2 h.le, h.ne'⟩
    · rintro ⟨h1, h2⟩; exact lt_of_le_of_ne (not_lt.1 h1) (Ne.symm h2)
  · simp only [isCcw, isCw, isCollinear, decide_eq_true_eq, decide_eq_false_iff_not]
    constructor
    · intro h; exact ⟨not_lt.2 h.le, h.ne⟩
    · rintro ⟨h1, h2⟩; exact lt_of_le_of_ne (not_lt.1 h1) h2
  · simp only [isCcw, isCw, e1, gt_iff_lt, neg_pos]
  · simp only [isCcw, e2]
  · simp only [isCollinear, decide_eq_true_eq]
    constructor
    · intro h
      by_cases h12 : p2 = p1
      · by_cases h13 : p3 = p1
        · refine ⟨⟨p1, ⟨1, 0⟩⟩, ?_, ⟨0, ?_⟩, ⟨0, ?_⟩, ⟨0, ?_⟩⟩
          · intro h; have := congrArg Vec.x h; simp at this
          all_goals subst_vars; ext <;> simp
        · refine ⟨⟨p1, p3 - p1⟩, ?_, ⟨0, ?_⟩, ⟨0, ?_⟩, ⟨1, ?_⟩⟩
          · intro h
            apply h13
            rw [Vec.ext_iff] at h ⊢
            simp [sub_eq_zero] at h
            exact h
          · ext <;> simp
          · rw [h12]; ext <;> simp
          · ext <;> simp
      · have hne : p2 - p1 ≠ 0 := by
          intro h
          apply h12
          rw [Vec.ext_iff] at h ⊢
          simp [sub_eq_zero] at h
          exact h
        refine ⟨⟨p1, p2 - p1⟩, hne, ⟨0, by ext <;> simp⟩, ⟨1, by ext <;> simp⟩, ?_⟩
        unfold ccw at h
        by_cases hx : p2.x - p1.x = 0
        · have hy : p2.y - p1.y ≠ 0 := by
            intro hy
            apply hne
            ext <;> simp [hx, hy]
          rw [hx, zero_mul, zero_sub, neg_eq_zero] at h
          have h3 := (mul_eq_zero.1 h).resolve_left hy
          refine ⟨(p3.y - p1.y) / (p2.y - p1.y), ?_⟩
          ext
          · simp only [Vec.sub_x, hx]; linarith
          · simp only [Vec.sub_y]; field_simp; ring
        · refine ⟨(p3.x - p1.x) / (p2.x - p1.x), ?_⟩
          ext
          · simp only [Vec.sub_x]; field_simp; ring
          · simp only [Vec.sub_y]; field_simp; linear_combination h
    · rintro ⟨l, -, ⟨s1, rfl⟩, ⟨s2, rfl⟩, ⟨s3, rfl⟩⟩
      unfold ccw
      ring
  · simp [isCcw, ccw, Vec.cross]

example : ∃ p, Polygon.create [(⟨0, 0⟩ : Vec ℚ), ⟨1, 0⟩, ⟨0, 1⟩] = .ok p ∧ toTriangle p = .ok ⟨⟨0, 0⟩, ⟨1, 0⟩, ⟨0, 1⟩⟩ ∧
    (crossingNumberTest p ⟨1 / 4, 1 / 4⟩).1 = .error .attributeError ∧ (crossingNumberTest p ⟨5, 5⟩).1 = .ok false :=
  ⟨_, rfl, by decide +kernel, by decide +kernel, by decide +kernel⟩

end Patro.PolygonRest
