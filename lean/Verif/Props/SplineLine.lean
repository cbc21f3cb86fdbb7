import Verif.Props.Spline
/-! # C252: a B-spline of degree 1 is the polyline of its control points -/

namespace Patro.Spline

variable {K : Type} [Field K] [LinearOrder K] [IsStrictOrderedRing K] [FloorRing K]

omit [FloorRing K] in
theorem linear_basis (u : Nat → K) (i : Nat) (x t : K) (h1 : u (i + 1) = x) (h2 : u (i + 2) = x + 1) (ht1 : x ≤ t) (ht2 : t < x + 1) :
    N u 1 i t = x + 1 - t ∧ N u 1 (i + 1) t = t - x := by
  have n0 : N u 0 i t = 0 := by rw [N, if_neg]; rintro ⟨-, h⟩; rw [h1] at h; exact absurd ht1 (not_le.2 h)
  have n1 : N u 0 (i + 1) t = 1 := by rw [N, if_pos]; exact ⟨by rw [h1]; exact ht1, by rw [h2]; exact ht2⟩
  have n2 : N u 0 (i + 2) t = 0 := by rw [N, if_neg]; rintro ⟨h, -⟩; rw [h2] at h; exact absurd ht2 (not_lt.2 h)
  have hne : x + 1 ≠ x := by simp
  constructor
  · rw [N]
    simp only [Nat.add_zero, n0, n1, h1, h2, mul_zero, ite_self, if_neg hne]
    simp
  · rw [N]
    simp only [Nat.add_zero, show i + 1 + 1 = i + 2 from rfl, n1, n2, h1, h2, mul_zero, ite_self, if_neg hne]
    simp

theorem spline_segment (s : BSpline K) (h : IsUniform s) (hd : s.degree = 1) (i : Nat) (p q : Vec K) (hp : s.points[i]? = some p)
    (hq : s.points[i + 1]? = some q) (w : K) (h0 : 0 ≤ w) (h1 : w < 1) :
    s.pointAt (i + w) = .ok ⟨p.x + w * (q.x - p.x), p.y + w * (q.y - p.y)⟩ := by
  obtain ⟨hv, hr, -⟩ := pointAt_uniform s h
  have hm := knotAt_mono s.knots hv.1.sorted
  have hn : i + 1 < s.points.length := (List.getElem?_eq_some_iff.1 hq).1
  have hi : (i : K) + 1 ≤ (s.points.length : K) - s.degree := by
    rw [hd, ← Nat.cast_sub (by omega)]; exact_mod_cast (by omega : i + 1 ≤ s.points.length - 1)
  have k1 : knotAt s.knots (i + 1) = (i : K) := by
    rw [uniform_knotAt h _ (by omega), hd]; congr 1; omega
  have k2 : knotAt s.knots (i + 2) = (i : K) + 1 := by
    rw [uniform_knotAt h _ (by omega), hd, ← Nat.cast_succ]; congr 1; omega
  have ht1 : (i : K) ≤ i + w := by linarith
  have ht2 : (i : K) + w < i + 1 := by linarith
  obtain ⟨b0, b1⟩ := linear_basis (knotAt s.knots) i _ (i + w) k1 k2 ht1 ht2
  have key : ∀ f : Nat → K, ∑ j ∈ Finset.range s.points.length, f j * N (knotAt s.knots) 1 j (i + w) = f i + w * (f (i + 1) - f i) := by
    intro f
    rw [weighted_span (knotAt s.knots) hm 1 (i + 1) s.points.length f (i + w) (by omega) hn (by rw [k1]; exact ht1) (by rw [k2]; exact ht2)]
    simp only [Finset.sum_range_succ, Finset.sum_range_zero, Nat.add_sub_cancel, Nat.add_zero, b0, b1]
    ring
  rw [pointAt_curve s hv _ ((hr _).2 ⟨by have : (0 : K) ≤ i := Nat.cast_nonneg i
                                         linarith, by linarith⟩)]
  congr 1
  rw [curve, hd, weighted, weighted, List.length_map, List.length_map, key, key]
  simp [List.getD_eq_getElem?_getD, hp, hq]

/-- C252. A spline of degree 1 without given knots is, between the parameters `i` and `i + 1`, the segment from its control point of index `i` to the
next one, travelled at constant speed: it goes through all its control points, in order. -/
theorem spline_polyline (s : BSpline K) (h : IsUniform s) (hd : s.degree = 1) (i : Nat) (p q : Vec K) (hp : s.points[i]? = some p)
    (hq : s.points[i + 1]? = some q) (w : K) (h0 : 0 ≤ w) (h1 : w ≤ 1) :
    s.pointAt (i + w) = .ok ⟨p.x + w * (q.x - p.x), p.y + w * (q.y - p.y)⟩ := by
  rcases h1.lt_or_eq with h1 | rfl
  · exact spline_segment s h hd i p q hp hq w h0 h1
  · have hn : i + 1 < s.points.length := (List.getElem?_eq_some_iff.1 hq).1
    have goal : s.pointAt ((i : K) + 1) = .ok q := by
      by_cases hl : i + 2 < s.points.length
      · have := spline_segment s h hd (i + 1) q _ hq (List.getElem?_eq_getElem hl) 0 le_rfl one_pos
        simpa using this
      · obtain ⟨-, -, -, ⟨e, he, hlast⟩, -⟩ := pointAt_uniform s h
        have hlen : s.points.length = i + 2 := by omega
        rw [List.getLast?_eq_getElem?, hlen, show i + 2 - 1 = i + 1 from rfl, hq] at he
        injection he with he
        rw [hlen, hd] at hlast
        rw [he, ← hlast]
        congr 1
        push_cast
        ring
    rw [goal]
    congr 1
    ext <;> simp

omit [FloorRing K] in
theorem quadratic_basis (u : Nat → K) (hu : Monotone u) (i : Nat) (x : K) (h1 : u (i + 1) = x - 1) (h2 : u (i + 2) = x) (h3 : u (i + 3) = x + 1) :
    N u 2 i x = 1 / 2 ∧ N u 2 (i + 1) x = 1 / 2 ∧ N u 2 (i + 2) x = 0 := by
  have n0 : N u 0 i x = 0 := by rw [N, if_neg]; rintro ⟨-, h⟩; rw [h1] at h; linarith
  have n1 : N u 0 (i + 1) x = 0 := by rw [N, if_neg]; rintro ⟨-, h⟩; rw [show i + 1 + 1 = i + 2 from rfl, h2] at h; exact lt_irrefl _ h
  have n2 : N u 0 (i + 2) x = 1 := by rw [N, if_pos]; exact ⟨h2.le, by rw [h3]; linarith⟩
  have n3 : N u 0 (i + 3) x = 0 := by rw [N, if_neg]; rintro ⟨h, -⟩; rw [h3] at h; linarith
  have n4 : N u 0 (i + 4) x = 0 := by
    rw [N, if_neg]; rintro ⟨h, -⟩
    have := hu (show i + 3 ≤ i + 4 by omega)
    rw [h3] at this; linarith
  have m0 : N u 1 i x = 0 := by rw [N]; simp [n0, n1]
  have m1 : N u 1 (i + 1) x = 1 := by
    rw [N]
    simp only [Nat.add_zero, show i + 1 + 1 = i + 2 from rfl, show i + 1 + 0 + 2 = i + 3 from rfl, n1, n2, h2, h3]
    simp
  have m2 : N u 1 (i + 2) x = 0 := by
    rw [N]
    simp only [show i + 2 + 1 = i + 3 from rfl, n3, h2]
    simp
  have m3 : N u 1 (i + 3) x = 0 := by
    rw [N]
    simp only [show i + 3 + 1 = i + 4 from rfl, n3, n4]
    simp
  have hne : x + 1 ≠ x - 1 := fun h => by linarith
  have hd : x + 1 - (x - 1) = 2 := by ring
  refine ⟨?_, ?_, ?_⟩
  · rw [N, m0, m1]
    simp only [show i + 1 + 2 = i + 3 from rfl, h1, h3, hd, if_neg hne]
    simp
  · rw [N, m1]
    simp only [show i + 1 + 1 = i + 2 from rfl, show i + 1 + 1 + 1 = i + 3 from rfl, m2, h1, h3, hd, if_neg hne]
    simp
  · rw [N, m2]
    simp only [show i + 2 + 1 = i + 3 from rfl, m3]
    simp

/-- C252, the next degree: a spline of degree 2 without given knots goes, at the parameter `i` inside its range, through the middle of its control points
of indices `i` and `i + 1`. -/
theorem spline_middles (s : BSpline K) (h : IsUniform s) (hd : s.degree = 2) (i : Nat) (hi : 1 ≤ i) (hn : i + 3 ≤ s.points.length) (p q : Vec K)
    (hp : s.points[i]? = some p) (hq : s.points[i + 1]? = some q) :
    s.pointAt i = .ok ⟨(p.x + q.x) / 2, (p.y + q.y) / 2⟩ := by
  obtain ⟨hv, hr, -⟩ := pointAt_uniform s h
  have hm := knotAt_mono s.knots hv.1.sorted
  have k1 : knotAt s.knots (i + 1) = (i : K) - 1 := by
    rw [uniform_knotAt h _ (by omega), hd, ← Nat.cast_pred (by omega)]; congr 1; omega
  have k2 : knotAt s.knots (i + 2) = (i : K) := by
    rw [uniform_knotAt h _ (by omega), hd]; congr 1; omega
  have k3 : knotAt s.knots (i + 3) = (i : K) + 1 := by
    rw [uniform_knotAt h _ (by omega), hd, ← Nat.cast_succ]; congr 1; omega
  obtain ⟨b0, b1, b2⟩ := quadratic_basis (knotAt s.knots) hm i _ k1 k2 k3
  have key : ∀ f : Nat → K, ∑ j ∈ Finset.range s.points.length, f j * N (knotAt s.knots) 2 j (i : K) = (f i + f (i + 1)) / 2 := by
    intro f
    rw [weighted_span (knotAt s.knots) hm 2 (i + 2) s.points.length f i (by omega) (by omega) k2.le (by rw [k3]; linarith)]
    simp only [Finset.sum_range_succ, Finset.sum_range_zero, Nat.add_sub_cancel, Nat.add_zero, b0, b1, b2]
    ring
  have hlt : (i : K) < (s.points.length : K) - s.degree := by
    rw [hd, ← Nat.cast_sub (by omega)]; exact_mod_cast (by omega : i < s.points.length - 2)
  rw [pointAt_curve s hv _ ((hr _).2 ⟨Nat.cast_nonneg i, hlt⟩)]
  congr 1
  rw [curve, hd, weighted, weighted, List.length_map, List.length_map, key, key]
  simp [List.getD_eq_getElem?_getD, hp, hq]

/-- A spline of degree 1. -/
def linear : BSpline Rat := ⟨[⟨0, 0⟩, ⟨1, 2⟩, ⟨3, 2⟩], 1, false, [0, 0, 1, 2, 2], true⟩

example : IsUniform linear ∧ linear.degree = 1 := ⟨⟨rfl, by decide +kernel⟩, rfl⟩
example : linear.pointAt (3 / 2) = .ok ⟨2, 2⟩ := by decide +kernel

/-- A spline of degree 2. -/
def quadratic : BSpline Rat := ⟨[⟨0, 0⟩, ⟨1, 2⟩, ⟨3, 2⟩, ⟨4, 0⟩], 2, false, [0, 0, 0, 1, 2, 2, 2], true⟩

example : IsUniform quadratic ∧ quadratic.degree = 2 ∧ 1 + 3 ≤ quadratic.points.length := ⟨⟨rfl, by decide +kernel⟩, rfl, by decide⟩
example : quadratic.pointAt 1 = .ok ⟨2, 2⟩ := by decide +kernel

end Patro.Spline
