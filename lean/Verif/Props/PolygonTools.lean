import Verif.Model.PolygonTools
import Verif.Props.Polygon
import Verif.Props.Vector
/-! # C90 and C91: regular polygons and simplification -/

namespace Patro.Polygon

open Classical

/-! ## C90 -/

/-- The vertex number `i` of a regular polygon, in radians. -/
noncomputable def vertex (center : Vec ℝ) (radius α : ℝ) (n i : Nat) : Vec ℝ :=
  ⟨center.x + radius * Real.cos (α + 2 * (i * (Real.pi / n))), center.y + radius * Real.sin (α + 2 * (i * (Real.pi / n)))⟩

theorem regular_ok (center : Vec ℝ) (radius : ℝ) (n : Nat) (hn : 3 ≤ n) (angle : ℝ) :
    regular center radius n angle =
      .ok { points := (List.range n).map (vertex center radius (Vec.radians angle) n) } := by
  have h0 : (n : ℝ) ≠ 0 := by positivity
  unfold regular create
  rw [if_neg (by omega), if_neg (by simp; omega)]
  congr 2
  simp only [Int.toNat_natCast]
  apply List.map_congr_left
  intro i _
  unfold vertex Vec.fromPolar Vec.fromAngle
  have : Vec.radians (angle + i * edgeAngle n) = Vec.radians angle + 2 * (i * (Real.pi / n)) := by
    unfold Vec.radians edgeAngle
    push_cast
    field_simp
    ring
  rw [this]
  rfl

theorem vertex_get (center : Vec ℝ) (radius α : ℝ) (n i : Nat) (a : Vec ℝ) :
    ((List.range n).map (vertex center radius α n))[i]? = some a ↔ i < n ∧ a = vertex center radius α n i := by
  rw [List.getElem?_map]
  by_cases h : i < n
  · rw [List.getElem?_range h]; simp [h, eq_comm]
  · rw [List.getElem?_eq_none (by simp; omega)]; simp [h]

/-- C90. A regular polygon has the required number of vertices, at the distance `radius` from the centre, and all its edges
have the same length `2 radius sin(π / n)`. -/
theorem regular_spec (center : Vec ℝ) (radius : ℝ) (n : Nat) (hn : 3 ≤ n) (angle : ℝ) :
    ∃ p, regular center radius n angle = .ok p ∧ p.points.length = n ∧
      (∀ q ∈ p.points, distance center q = |radius|) ∧
      (p.points[0]? = some (center + Vec.fromPolar radius angle)) ∧
      (∀ i a b, IsEdge p.points i a b → distance a b = 2 * |radius| * Real.sin (Real.pi / n)) := by
  have hn0 : (0 : ℝ) < n := by positivity
  have hpi := Real.pi_pos
  have hs : 0 ≤ Real.sin (Real.pi / n) :=
    Real.sin_nonneg_of_nonneg_of_le_pi (by positivity) (div_le_self hpi.le (by exact_mod_cast (by omega : 1 ≤ n)))
  refine ⟨_, regular_ok center radius n hn angle, by simp, ?_, ?_, ?_⟩
  · intro q hq
    obtain ⟨i, _, rfl⟩ := List.mem_map.1 hq
    unfold distance vertex
    rw [← Real.sqrt_sq_eq_abs]
    congr 1
    simp only
    linear_combination radius ^ 2 * Real.sin_sq_add_cos_sq (Vec.radians angle + 2 * (i * (Real.pi / n)))
  · show ((List.range n).map _)[0]? = _
    rw [vertex_get]
    refine ⟨by omega, ?_⟩
    unfold vertex Vec.fromPolar Vec.fromAngle
    ext <;> simp
  · rintro i a b ⟨ha, hb⟩
    simp only [List.length_map, List.length_range] at hb
    obtain ⟨hi, rfl⟩ := (vertex_get ..).1 ha
    obtain ⟨hi', rfl⟩ := (vertex_get ..).1 hb
    have key : ∀ u v : ℝ, Real.sin (v - u) ^ 2 = Real.sin (Real.pi / n) ^ 2 →
        Real.sqrt ((center.x + radius * Real.cos (Vec.radians angle + 2 * u) -
          (center.x + radius * Real.cos (Vec.radians angle + 2 * v))) ^ 2 +
          (center.y + radius * Real.sin (Vec.radians angle + 2 * u) -
          (center.y + radius * Real.sin (Vec.radians angle + 2 * v))) ^ 2) = 2 * |radius| * Real.sin (Real.pi / n) := by
      intro u v h
      rw [Real.sqrt_eq_iff_mul_self_eq (by positivity) (by positivity)]
      have e1 : (2 * |radius| * Real.sin (Real.pi / n)) * (2 * |radius| * Real.sin (Real.pi / n)) =
          4 * radius ^ 2 * Real.sin (v - u) ^ 2 := by
        rw [h]; rw [show (4 : ℝ) * radius ^ 2 = 4 * (|radius| ^ 2) by rw [sq_abs]]; ring
      rw [e1]
      have hb : Vec.radians angle + 2 * v = (Vec.radians angle + 2 * u) + 2 * (v - u) := by ring
      rw [hb]
      generalize Vec.radians angle + 2 * u = A
      generalize v - u = d
      rw [Real.cos_add, Real.sin_add, Real.cos_two_mul, Real.sin_two_mul]
      have h1 := Real.sin_sq_add_cos_sq A
      have h2 := Real.sin_sq_add_cos_sq d
      generalize Real.sin A = sa at *
      generalize Real.cos A = ca at *
      generalize Real.sin d = sd at *
      generalize Real.cos d = cd at *
      have hc : cd ^ 2 = 1 - sd ^ 2 := by linarith
      have hca : ca ^ 2 = 1 - sa ^ 2 := by linarith
      have h3 : (2 * cd ^ 2 - 1) = 1 - 2 * sd ^ 2 := by linarith
      rw [h3]
      have : 4 * radius ^ 2 * sd ^ 2 - ((center.x + radius * ca - (center.x + radius * (ca * (1 - 2 * sd ^ 2) - sa * (2 * sd * cd)))) ^ 2 + (center.y + radius * sa - (center.y + radius * (sa * (1 - 2 * sd ^ 2) + ca * (2 * sd * cd)))) ^ 2) = 0 := by
        have : (center.x + radius * ca - (center.x + radius * (ca * (1 - 2 * sd ^ 2) - sa * (2 * sd * cd)))) ^ 2 + (center.y + radius * sa - (center.y + radius * (sa * (1 - 2 * sd ^ 2) + ca * (2 * sd * cd)))) ^ 2 = 4 * radius ^ 2 * sd ^ 2 * (sa ^ 2 + ca ^ 2) * (sd ^ 2 + cd ^ 2) := by ring
        rw [this, h1, h2]; ring
      linarith
    unfold distance vertex
    apply key
    rw [succ_mod _ _ hi]
    split
    · rename_i hl
      have : ((0 : Nat) : ℝ) * (Real.pi / n) - i * (Real.pi / n) = Real.pi / n - Real.pi := by
        have : (i : ℝ) = n - 1 := by rw [← hl]; push_cast; ring
        rw [this]; field_simp; push_cast; ring
      rw [this, Real.sin_sub_pi]; ring
    · congr 2
      push_cast; ring

theorem three_sines (u v : ℝ) :
    Real.sin (2 * u) + Real.sin (2 * v) - Real.sin (2 * u + 2 * v) = 4 * Real.sin u * Real.sin v * Real.sin (u + v) := by
  rw [Real.sin_add (2 * u), Real.sin_add u, Real.sin_two_mul, Real.sin_two_mul, Real.cos_two_mul, Real.cos_two_mul]
  have h1 := Real.sin_sq_add_cos_sq u
  have h2 := Real.sin_sq_add_cos_sq v
  generalize Real.sin u = su at *
  generalize Real.cos u = cu at *
  generalize Real.sin v = sv at *
  generalize Real.cos v = cv at *
  linear_combination (-4 * sv * cv) * h1 + (-4 * su * cu) * h2

/-- C90. A regular polygon of non null radius is strictly convex, in counter-clockwise order: `is_convex` is true. -/
theorem regular_convex (center : Vec ℝ) (radius : ℝ) (hr : radius ≠ 0) (n : Nat) (hn : 3 ≤ n) (angle : ℝ) (p : Polygon ℝ)
    (h : regular center radius n angle = .ok p) : StrictlyConvex p.points ∧ p.getIsConvex.1 = .ok true := by
  have hsc : StrictlyConvex p.points := by
    rw [regular_ok center radius n hn angle] at h
    cases h
    rintro i a b k c ⟨ha, hb⟩ hc n1 n2
    simp only [List.length_map, List.length_range] at hb n2
    obtain ⟨hi, rfl⟩ := (vertex_get ..).1 ha
    obtain ⟨hj, rfl⟩ := (vertex_get ..).1 hb
    obtain ⟨hk, rfl⟩ := (vertex_get ..).1 hc
    have hpi := Real.pi_pos
    have hn0 : (0 : ℝ) < n := by positivity
    -- sines of multiples of π / n
    have hs : ∀ m : Nat, 0 < m → m < n → 0 < Real.sin (m * (Real.pi / n)) := by
      intro m h0 h1
      have h0' : (0 : ℝ) < m := by exact_mod_cast h0
      have h1' : (m : ℝ) < n := by exact_mod_cast h1
      apply Real.sin_pos_of_pos_of_lt_pi (by positivity)
      rw [← mul_div_assoc, div_lt_iff₀ hn0, mul_comm]
      exact mul_lt_mul_of_pos_left h1' hpi
    have expand : ∀ u v w : ℝ,
        (center.x + radius * Real.cos (Vec.radians angle + 2 * v) - (center.x + radius * Real.cos (Vec.radians angle + 2 * u))) *
        (center.y + radius * Real.sin (Vec.radians angle + 2 * w) - (center.y + radius * Real.sin (Vec.radians angle + 2 * u))) -
        (center.y + radius * Real.sin (Vec.radians angle + 2 * v) - (center.y + radius * Real.sin (Vec.radians angle + 2 * u))) *
        (center.x + radius * Real.cos (Vec.radians angle + 2 * w) - (center.x + radius * Real.cos (Vec.radians angle + 2 * u))) =
        radius ^ 2 * (4 * Real.sin (v - u) * Real.sin (w - v) * Real.sin (w - u)) := by
      intro u v w
      have t := three_sines (v - u) (w - v)
      rw [show (v - u) + (w - v) = w - u by ring] at t
      rw [← t]
      have e1 : (2 * (v - u)) = (Vec.radians angle + 2 * v) - (Vec.radians angle + 2 * u) := by ring
      have e2 : (2 * (w - v)) = (Vec.radians angle + 2 * w) - (Vec.radians angle + 2 * v) := by ring
      have e3 : (2 * (v - u)) + (2 * (w - v)) = (Vec.radians angle + 2 * w) - (Vec.radians angle + 2 * u) := by ring
      rw [e3, e1, e2, Real.sin_sub, Real.sin_sub, Real.sin_sub]
      ring
    unfold vertex
    simp only
    rw [expand]
    have hr2 : 0 < radius ^ 2 := by positivity
    apply mul_pos hr2
    rw [succ_mod _ _ hi] at n2 ⊢
    have sub : ∀ a b : Nat, b ≤ a → (a : ℝ) * (Real.pi / n) - b * (Real.pi / n) = ((a - b : Nat) : ℝ) * (Real.pi / n) := by
      intro a b h; rw [Nat.cast_sub h]; ring
    have neg : ∀ x y : ℝ, Real.sin (x - y) = -Real.sin (y - x) := by
      intro x y; rw [← Real.sin_neg]; congr 1; ring
    split at n2
    · rename_i hl
      rw [if_pos hl, neg _ (i * (Real.pi / n)), neg (k * (Real.pi / n)) (i * (Real.pi / n)), sub _ _ (by omega), sub _ _ (by omega),
        sub _ _ (by omega)]
      have a1 := hs (i - 0) (by omega) (by omega)
      have a2 := hs (k - 0) (by omega) (by omega)
      have a3 := hs (i - k) (by omega) (by omega)
      have := mul_pos (mul_pos a1 a2) a3
      linarith
    · rename_i hl
      rw [if_neg hl, sub (i + 1) i (by omega)]
      have a1 := hs (i + 1 - i) (by omega) (by omega)
      rcases Nat.lt_or_ge k i with hki | hki
      · rw [neg _ ((i + 1 : Nat) * (Real.pi / n)), neg _ (i * (Real.pi / n)), sub _ _ (by omega), sub _ _ (by omega)]
        have a2 := hs (i + 1 - k) (by omega) (by omega)
        have a3 := hs (i - k) (by omega) (by omega)
        have := mul_pos (mul_pos a1 a2) a3
        linarith
      · rw [sub _ _ (by omega), sub _ _ (by omega)]
        have a2 := hs (k - (i + 1)) (by omega) (by omega)
        have a3 := hs (k - i) (by omega) (by omega)
        have := mul_pos (mul_pos a1 a2) a3
        linarith
  refine ⟨hsc, isConvex_complete p.points p ?_ (Or.inl hsc)⟩
  rw [regular_ok center radius n hn angle] at h
  cases h
  unfold create
  rw [if_neg (by simp; omega)]

theorem crossTerms_range (v : Nat → Vec ℝ) (c : ℝ) (h : ∀ i, (v i).x * (v (i + 1)).y - (v (i + 1)).x * (v i).y = c) (n : Nat) :
    (crossTerms ((List.range (n + 1)).map v)).sum = n * c := by
  induction n with
  | zero => simp [crossTerms]
  | succ n ih =>
    rw [List.range_succ, List.range_succ, List.map_append, List.map_append, List.append_assoc]
    have := crossTerms_snoc ((List.range n).map v) (v n) (v (n + 1))
    rw [List.range_succ, List.map_append] at ih
    simp only [List.map_cons, List.map_nil, List.cons_append, List.nil_append] at ih this ⊢
    rw [this, ih, h]
    push_cast; ring

/-- C90. The area of a regular polygon is `n radius² sin(2π / n) / 2`. -/
theorem regular_area (center : Vec ℝ) (radius : ℝ) (hr : radius ≠ 0) (n : Nat) (hn : 3 ≤ n) (angle : ℝ) (p : Polygon ℝ)
    (h : regular center radius n angle = .ok p) :
    p.getArea.1 = .ok (some (n * radius ^ 2 * Real.sin (2 * Real.pi / n) / 2)) := by
  have hn0 : (0 : ℝ) < n := by positivity
  have hpi := Real.pi_pos
  obtain ⟨hsc, _⟩ := regular_convex center radius hr n hn angle p h
  rw [regular_ok center radius n hn angle] at h
  cases h
  generalize hpts : (List.range n).map (vertex center radius (Vec.radians angle) n) = pts at hsc
  have hlen : pts.length = n := by rw [← hpts]; simp
  have hcr : create pts = .ok { points := pts } := by unfold create; rw [if_neg (by omega)]
  have hsimple : SimplePolygon pts := convex_simple pts 1 (by omega) fun i a b k c h1 h2 h3 h4 => by
    rw [one_mul]; exact hsc i a b k c h1 h2 h3 h4
  rw [(area_spec pts _ hcr).1 (isSimple_complete pts hsimple)]
  congr 2
  have hsa : signedArea pts = n * radius ^ 2 * Real.sin (2 * Real.pi / n) / 2 := by
    have tr := signedArea_affine pts 1 0 0 1 (-center.x) (-center.y)
    rw [show (1 : ℝ) * 1 - 0 * 0 = 1 by ring, one_mul] at tr
    rw [← tr, ← hpts, List.map_map]
    obtain ⟨m, rfl⟩ : ∃ m, n = m + 1 := ⟨n - 1, by omega⟩
    generalize hv : ((fun p : Vec ℝ => (⟨1 * p.x + 0 * p.y + -center.x, 0 * p.x + 1 * p.y + -center.y⟩ : Vec ℝ)) ∘
      vertex center radius (Vec.radians angle) (m + 1)) = v
    have hvx : ∀ i, v i = ⟨radius * Real.cos (Vec.radians angle + 2 * (i * (Real.pi / (m + 1 : Nat)))),
        radius * Real.sin (Vec.radians angle + 2 * (i * (Real.pi / (m + 1 : Nat))))⟩ := by
      intro i
      rw [← hv]
      ext <;> simp only [Function.comp, vertex] <;> ring
    have hend : v (m + 1) = v 0 := by
      rw [hvx, hvx]
      have : Vec.radians angle + 2 * (((m + 1 : Nat) : ℝ) * (Real.pi / (m + 1 : Nat))) = Vec.radians angle + 2 * Real.pi := by
        field_simp
      rw [this, Real.cos_add_two_pi, Real.sin_add_two_pi]
      simp
    have hc := crossTerms_range v (radius ^ 2 * Real.sin (2 * Real.pi / (m + 1 : Nat))) (by
      intro i
      rw [hvx, hvx]
      simp only
      have : (2 * Real.pi / (m + 1 : Nat) : ℝ) = (Vec.radians angle + 2 * ((i + 1 : Nat) * (Real.pi / (m + 1 : Nat)))) -
          (Vec.radians angle + 2 * (i * (Real.pi / (m + 1 : Nat)))) := by push_cast; ring
      rw [this, Real.sin_sub]
      ring) (m + 1)
    rw [List.range_succ, List.map_append, List.map_cons, List.map_nil, hend, List.range_succ_eq_map, List.map_cons,
      sum_crossTerms, ← List.map_cons, ← List.range_succ_eq_map] at hc
    linarith
  rw [hsa, abs_of_nonneg]
  apply div_nonneg _ (by norm_num)
  apply mul_nonneg (by positivity)
  apply Real.sin_nonneg_of_nonneg_of_le_pi (by positivity)
  rw [div_le_iff₀ hn0]
  have : (2 : ℝ) ≤ n := by exact_mod_cast (by omega : 2 ≤ n)
  nlinarith

/-- C90. Less than three edges is an error. -/
theorem regular_error (center : Vec ℝ) (radius : ℝ) (n : Int) (hn : n < 3) (angle : ℝ) :
    regular center radius n angle = .error .valueError := if_pos hn

end Patro.Polygon
