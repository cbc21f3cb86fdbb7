import Verif.Model.RegularObject
import Verif.Props.PolygonTools
import Verif.Props.Simplify
/-! # C249: regular polygons are copied, transformed and simplified -/

namespace Patro.RegularObject

open Polygon

open Classical

/-- The object made by `RegularPolygon(center, radius, n, angle)`. -/
theorem made (c : Vec ℝ) (r : ℝ) (n : Nat) (hn : 3 ≤ n) (a : ℝ) :
    ∃ p, call [.vector c, .number r, .number n, .number a] = .ok p ∧ p.center = c ∧ p.radius = r ∧ p.angle = a ∧ p.numberOfEdges = n ∧
      regular c r n a = .ok p.polygon := by
  have h := regular_ok c r n hn a
  refine ⟨⟨c, r, a, n, { points := (List.range n).map (vertex c r (Vec.radians a) n) }⟩, ?_, rfl, rfl, rfl, rfl, h⟩
  have hi : (if (0 : ℝ) ≤ (n : ℝ) then ⌊(n : ℝ)⌋ else ⌈(n : ℝ)⌉) = (n : Int) := by
    rw [if_pos (Nat.cast_nonneg n), Int.floor_natCast]
  unfold call make
  simp only [Arg.toVector, Arg.toFloat, Arg.toInt, bind, Except.bind, hi, h, pure, Except.pure]

/-- The constructor refuses points. -/
theorem call_vectors (l : List (Vec ℝ)) : call (l.map .vector) = .error .typeError := by
  match l with
  | [] | [_] | [_, _] => rfl
  | [_, _, _] | [_, _, _, _] => rfl
  | _ :: _ :: _ :: _ :: _ :: _ => rfl

/-- C249 is false of every regular polygon: it cannot be copied, and so not transformed with `clone`, whatever the transformation. -/
theorem regular_clone_wrong (p : Regular) :
    p.clone = .error .typeError ∧ ∀ isIdentity f, p.transform isIdentity f true = .error .typeError := by
  have h : p.clone = .error .typeError := call_vectors _
  refine ⟨h, fun isIdentity f => ?_⟩
  unfold Regular.transform
  simp only [if_true, h, bind, Except.bind]

/-- C249, what holds: a transformation in place replaces the points by their images and keeps the other attributes; one which is marked as the identity
changes nothing. Missing: `regular_clone_wrong` and `circumcircle_iff`. -/
theorem regular_transform_partial (p : Regular) (f : Vec ℝ → Vec ℝ) :
    p.transform true f false = .ok p ∧
    ∃ q, p.transform false f false = .ok q ∧ q.polygon.points = p.polygon.points.map f ∧ q.center = p.center ∧ q.radius = p.radius ∧
      q.angle = p.angle ∧ q.numberOfEdges = p.numberOfEdges :=
  ⟨rfl, _, rfl, rfl, rfl, rfl, rfl, rfl⟩

/-- Several transformations in place. -/
noncomputable def transforms (p : Regular) (fs : List (Vec ℝ → Vec ℝ)) : Except PyErr Regular :=
  fs.foldlM (fun p f => p.transform false f false) p

theorem transforms_points (fs : List (Vec ℝ → Vec ℝ)) : ∀ p, ∃ q, transforms p fs = .ok q ∧
    q.polygon.points = p.polygon.points.map (fun x => fs.foldl (fun x f => f x) x) ∧ q.center = p.center ∧ q.radius = p.radius := by
  induction fs with
  | nil => intro p; exact ⟨p, rfl, by simp, rfl, rfl⟩
  | cons f fs ih =>
    intro p
    obtain ⟨-, p', e, h1, h2, h3, -⟩ := regular_transform_partial p f
    obtain ⟨q, e', g1, g2, g3⟩ := ih p'
    refine ⟨q, ?_, ?_, by rw [g2, h2], by rw [g3, h3]⟩
    · unfold transforms at *
      rw [List.foldlM_cons, e]
      exact e'
    · rw [g1, h1, List.map_map]
      rfl

theorem distance_sq (a b : Vec ℝ) : distance a b ^ 2 = (a.x - b.x) ^ 2 + (a.y - b.y) ^ 2 :=
  Real.sq_sqrt (by positivity)

theorem distance_zero {a b : Vec ℝ} (h : distance a b = 0) : a = b := by
  have := distance_sq a b
  rw [h] at this
  have h1 : (a.x - b.x) = 0 := by nlinarith [sq_nonneg (a.x - b.x), sq_nonneg (a.y - b.y)]
  have h2 : (a.y - b.y) = 0 := by nlinarith [sq_nonneg (a.x - b.x), sq_nonneg (a.y - b.y)]
  exact Vec.ext (by linarith) (by linarith)

theorem distance_self (a : Vec ℝ) : distance a a = 0 := by
  unfold distance
  simp

/-- C249. After any sequence of transformations in place that together multiply the distances by `k > 0`, the vertices are on the circumcircle the
regular polygon gives exactly when the centre has not moved and the distances are kept (or the radius is null). -/
theorem circumcircle_iff (c : Vec ℝ) (r : ℝ) (n : Nat) (hn : 3 ≤ n) (a : ℝ) (fs : List (Vec ℝ → Vec ℝ)) (k : ℝ) (hk : 0 < k)
    (hf : ∀ x y, distance (fs.foldl (fun x f => f x) x) (fs.foldl (fun x f => f x) y) = k * distance x y) :
    ∃ p q, call [.vector c, .number r, .number n, .number a] = .ok p ∧ transforms p fs = .ok q ∧
      ((∀ v ∈ q.polygon.points, distance q.circumcircle.center v = |q.circumcircle.radius|) ↔
        fs.foldl (fun x f => f x) c = c ∧ (k = 1 ∨ r = 0)) := by
  obtain ⟨p, e, p1, p2, -, -, hreg⟩ := made c r n hn a
  obtain ⟨q, e', q1, q2, q3⟩ := transforms_points fs p
  refine ⟨p, q, e, e', ?_⟩
  generalize hF : (fun x => fs.foldl (fun x f => f x) x) = F at *
  have hf' : ∀ x y, distance (F x) (F y) = k * distance x y := by rw [← hF]; exact hf
  have hFc : fs.foldl (fun x f => f x) c = F c := by rw [← hF]
  rw [hFc]
  unfold Regular.circumcircle
  simp only [q2, q3, p1, p2, q1]
  obtain ⟨p', hp', hlen, hdist, -⟩ := regular_spec c r n hn a
  rw [hreg] at hp'
  cases hp'
  have himage : ∀ v ∈ p.polygon.points, distance (F c) (F v) = k * |r| := fun v hv => by rw [hf', hdist v hv]
  constructor
  · intro h
    have h' : ∀ v ∈ p.polygon.points, distance c (F v) = |r| := fun v hv => h (F v) (List.mem_map_of_mem hv)
    obtain ⟨v0, g0⟩ : ∃ v, p.polygon.points[0]? = some v := ⟨_, List.getElem?_eq_getElem (by omega)⟩
    obtain ⟨v1, g1⟩ : ∃ v, p.polygon.points[1]? = some v := ⟨_, List.getElem?_eq_getElem (by omega)⟩
    obtain ⟨v2, g2⟩ : ∃ v, p.polygon.points[2]? = some v := ⟨_, List.getElem?_eq_getElem (by omega)⟩
    have m0 := List.mem_of_getElem? g0
    by_cases hr : r = 0
    · refine ⟨?_, Or.inr hr⟩
      have h1 := himage v0 m0
      have h2 := h' v0 m0
      rw [hr, abs_zero, mul_zero] at h1
      rw [hr, abs_zero] at h2
      rw [distance_zero h1, ← distance_zero h2]
    · have hsc := (regular_convex c r hr n hn a _ hreg).1
      have hcross := hsc 0 v0 v1 2 v2 ⟨g0, by rw [Nat.mod_eq_of_lt (by omega)]; exact g1⟩ g2 (by omega) (by rw [Nat.mod_eq_of_lt (by omega)]; omega)
      have key : ∀ u v, u ∈ p.polygon.points → v ∈ p.polygon.points →
          ((F u).x - (F v).x) * (c.x - (F c).x) + ((F u).y - (F v).y) * (c.y - (F c).y) = 0 := by
        intro u v hu hv
        have a1 := distance_sq (F c) (F u)
        have a2 := distance_sq (F c) (F v)
        have a3 := distance_sq c (F u)
        have a4 := distance_sq c (F v)
        rw [himage u hu] at a1
        rw [himage v hv] at a2
        rw [h' u hu] at a3
        rw [h' v hv] at a4
        linarith
      have k1 := key v1 v0 (List.mem_of_getElem? g1) m0
      have k2 := key v2 v0 (List.mem_of_getElem? g2) m0
      have sq : ∀ u v, ((F u).x - (F v).x) ^ 2 + ((F u).y - (F v).y) ^ 2 = k ^ 2 * ((u.x - v.x) ^ 2 + (u.y - v.y) ^ 2) := by
        intro u v
        rw [← distance_sq, ← distance_sq, hf', mul_pow]
      have s1 := sq v1 v0
      have s2 := sq v2 v0
      have s3 := sq v1 v2
      have hcr : (((F v1).x - (F v0).x) * ((F v2).y - (F v0).y) - ((F v1).y - (F v0).y) * ((F v2).x - (F v0).x)) ^ 2 =
          (k ^ 2 * ((v1.x - v0.x) * (v2.y - v0.y) - (v1.y - v0.y) * (v2.x - v0.x))) ^ 2 := by
        have d : ((F v1).x - (F v0).x) * ((F v2).x - (F v0).x) + ((F v1).y - (F v0).y) * ((F v2).y - (F v0).y) =
            k ^ 2 * ((v1.x - v0.x) * (v2.x - v0.x) + (v1.y - v0.y) * (v2.y - v0.y)) := by linarith
        have id : ∀ x y z w : ℝ, (x * w - y * z) ^ 2 = (x ^ 2 + y ^ 2) * (z ^ 2 + w ^ 2) - (x * z + y * w) ^ 2 := by intros; ring
        rw [id, s1, s2, d]
        ring
      have hne : ((F v1).x - (F v0).x) * ((F v2).y - (F v0).y) - ((F v1).y - (F v0).y) * ((F v2).x - (F v0).x) ≠ 0 := by
        intro h0
        rw [h0] at hcr
        have : 0 < (k ^ 2 * ((v1.x - v0.x) * (v2.y - v0.y) - (v1.y - v0.y) * (v2.x - v0.x))) ^ 2 := by positivity
        rw [← hcr] at this
        norm_num at this
      have hFc' : F c = c := by
        have e1 : c.x - (F c).x = 0 := by
          refine (mul_eq_zero.1 ?_).resolve_left hne
          linear_combination ((F v2).y - (F v0).y) * k1 - ((F v1).y - (F v0).y) * k2
        have e2 : c.y - (F c).y = 0 := by
          refine (mul_eq_zero.1 ?_).resolve_left hne
          linear_combination ((F v1).x - (F v0).x) * k2 - ((F v2).x - (F v0).x) * k1
        exact Vec.ext (by linarith) (by linarith)
      refine ⟨hFc', Or.inl ?_⟩
      have h1 := himage v0 m0
      rw [hFc', h' v0 m0] at h1
      have : |r| ≠ 0 := abs_ne_zero.2 hr
      have : (k - 1) * |r| = 0 := by linarith
      rcases mul_eq_zero.1 this with h | h
      · linarith
      · contradiction
  · rintro ⟨h1, h2⟩ v hv
    obtain ⟨u, hu, rfl⟩ := List.mem_map.1 hv
    have := himage u hu
    rw [h1] at this
    rw [this]
    rcases h2 with h2 | h2
    · rw [h2, one_mul]
    · rw [h2]; simp

/-- C249 is false of every regular polygon which is moved: after a translation its vertices are not all on its circumcircle. -/
theorem circumcircle_wrong (c : Vec ℝ) (r : ℝ) (n : Nat) (hn : 3 ≤ n) (a : ℝ) (v : Vec ℝ) (hv : v ≠ 0) :
    ∃ p q, call [.vector c, .number r, .number n, .number a] = .ok p ∧ p.transform false (fun x => x + v) false = .ok q ∧
      ∃ x ∈ q.polygon.points, distance q.circumcircle.center x ≠ |q.circumcircle.radius| := by
  obtain ⟨p, q, e1, e2, h⟩ := circumcircle_iff c r n hn a [fun x => x + v] 1 one_pos (fun x y => by
    unfold distance
    simp only [List.foldl_cons, List.foldl_nil, Vec.add_x, Vec.add_y, one_mul]
    congr 1
    ring)
  refine ⟨p, q, e1, ?_, ?_⟩
  · simpa [transforms] using e2
  · by_contra hc
    push Not at hc
    have := (h.1 hc).1
    simp only [List.foldl_cons, List.foldl_nil] at this
    apply hv
    have h1 := congrArg Vec.x this
    have h2 := congrArg Vec.y this
    simp only [Vec.add_x, Vec.add_y] at h1 h2
    exact Vec.ext (by simpa using h1) (by simpa using h2)

/-- C249. A regular polygon which is simplified is returned as it is, or `None` is, or `TypeError` is raised: a polygon with less vertices is never
made. -/
theorem regular_simplify (p : Regular) (t : ℝ) (h3 : 3 ≤ p.polygon.points.length) :
    (p.simplify p.polygon.points.length t = some (.ok (some p)) ∧
      Polygon.simplify p.polygon.points.length p.polygon t = some (.ok .self)) ∨
    (p.simplify p.polygon.points.length t = some (.ok none) ∧ Polygon.simplify p.polygon.points.length p.polygon t = some (.ok .none)) ∨
    (p.simplify p.polygon.points.length t = some (.error .typeError) ∧
      (Polygon.simplify p.polygon.points.length p.polygon t = some (.error .valueError) ∨
        ∃ q, Polygon.simplify p.polygon.points.length p.polygon t = some (.ok (.polygon q)))) := by
  have := loop_spec p.polygon.points t h3 (p.polygon.points.length - 1) 0 1 [] rfl (by omega) (by omega) (by simp) (by simp)
    (by intro b h1 h2; omega) (by intro m h1 h2; omega)
  rw [show p.polygon.points.length - 1 + 1 = p.polygon.points.length by omega] at this
  unfold Regular.simplify Polygon.simplify
  rcases this with ⟨e, _⟩ | ⟨removed, e, _⟩
  · right; left
    rw [e]
    exact ⟨rfl, rfl⟩
  · rw [e]
    simp only
    by_cases hr : removed = []
    · left
      rw [if_pos hr, if_pos hr]
      exact ⟨rfl, rfl⟩
    · right; right
      rw [if_neg hr, if_neg hr, call_vectors]
      refine ⟨rfl, ?_⟩
      unfold create
      split
      · exact Or.inl rfl
      · exact Or.inr ⟨_, rfl⟩

/-- C249 is false of every square with a radius: simplified with the radius as threshold, it raises `TypeError`. -/
theorem square_simplify_wrong (c : Vec ℝ) (r : ℝ) (hr : r ≠ 0) (a : ℝ) :
    ∃ p, call [.vector c, .number r, .number 4, .number a] = .ok p ∧ p.simplify 4 |r| = some (.error .typeError) := by
  obtain ⟨p, e, -, -, -, -, hreg⟩ := made c r 4 (by omega) a
  refine ⟨p, by exact_mod_cast e, ?_⟩
  rw [regular_ok c r 4 (by omega) a] at hreg
  have hp : p.polygon.points = [⟨c.x + r * Real.cos (Vec.radians a), c.y + r * Real.sin (Vec.radians a)⟩,
      ⟨c.x - r * Real.sin (Vec.radians a), c.y + r * Real.cos (Vec.radians a)⟩,
      ⟨c.x - r * Real.cos (Vec.radians a), c.y - r * Real.sin (Vec.radians a)⟩,
      ⟨c.x + r * Real.sin (Vec.radians a), c.y - r * Real.cos (Vec.radians a)⟩] := by
    rw [← (Except.ok.inj hreg)]
    simp only [List.range_succ, List.range_zero, List.nil_append, List.cons_append, List.map_cons, List.map_nil, vertex]
    have e1 : ∀ x : ℝ, x + 2 * ((1 : Nat) * (Real.pi / (4 : Nat))) = x + Real.pi / 2 := by intro x; push_cast; ring
    have e2 : ∀ x : ℝ, x + 2 * ((2 : Nat) * (Real.pi / (4 : Nat))) = x + Real.pi := by intro x; push_cast; ring
    have e3 : ∀ x : ℝ, x + 2 * ((3 : Nat) * (Real.pi / (4 : Nat))) = x + Real.pi + Real.pi / 2 := by intro x; push_cast; ring
    have e0 : ∀ x : ℝ, x + 2 * ((0 : Nat) * (Real.pi / (4 : Nat))) = x := by intro x; push_cast; ring
    simp only [e0, e1, e2, e3, Real.cos_add_pi_div_two, Real.sin_add_pi_div_two, Real.cos_add_pi, Real.sin_add_pi]
    simp only [mul_neg, neg_neg, ← sub_eq_add_neg]
  have hcs := Real.sin_sq_add_cos_sq (Vec.radians a)
  generalize Real.cos (Vec.radians a) = C at *
  generalize Real.sin (Vec.radians a) = S at *
  have hr2 : 0 < r ^ 2 := by positivity
  have hab : |r| * |r| = r ^ 2 := by rw [abs_mul_abs_self, sq]
  have near : ∀ u q v : Vec ℝ, (u.x - v.x) ^ 2 + (u.y - v.y) ^ 2 = 4 * r ^ 2 →
      |(v.x - u.x) * (q.y - u.y) - (v.y - u.y) * (q.x - u.x)| = 2 * r ^ 2 → Near |r| u q v := by
    intro u q v h1 h2
    refine ⟨?_, ?_⟩
    · rintro rfl
      have : (0 : ℝ) = 4 * r ^ 2 := by rw [← h1]; ring
      linarith
    · rw [h2]
      have : distance u v = 2 * |r| := by
        unfold distance
        rw [h1, show 4 * r ^ 2 = (2 * |r|) ^ 2 by rw [mul_pow, sq_abs]; norm_num]
        exact Real.sqrt_sq (by positivity)
      rw [this]
      nlinarith
  have far : ∀ u q v : Vec ℝ, (u.x - v.x) ^ 2 + (u.y - v.y) ^ 2 = 2 * r ^ 2 →
      |(v.x - u.x) * (q.y - u.y) - (v.y - u.y) * (q.x - u.x)| = 2 * r ^ 2 → ¬ Near |r| u q v := by
    rintro u q v h1 h2 ⟨-, h⟩
    rw [h2] at h
    have hd := distance_sq u v
    rw [h1] at hd
    have h4 := mul_self_le_mul_self (by positivity) h
    have : |r| * distance u v * (|r| * distance u v) = 2 * r ^ 2 * r ^ 2 := by
      calc _ = (|r| * |r|) * distance u v ^ 2 := by ring
        _ = _ := by rw [hab, hd]; ring
    rw [this] at h4
    nlinarith [mul_pos hr2 hr2]
  have ne : ∀ u v : Vec ℝ, 0 < (u.x - v.x) ^ 2 + (u.y - v.y) ^ 2 → u ≠ v := by
    rintro u v h rfl
    simp at h
  have hv2 : ∀ x : ℝ, x = 2 * r ^ 2 ∨ x = -(2 * r ^ 2) → |x| = 2 * r ^ 2 := by
    rintro x (rfl | rfl)
    · exact abs_of_pos (by positivity)
    · rw [abs_neg]; exact abs_of_pos (by positivity)
  unfold Regular.simplify
  rw [hp]
  generalize hpts : ([⟨c.x + r * C, c.y + r * S⟩, ⟨c.x - r * S, c.y + r * C⟩, ⟨c.x - r * C, c.y - r * S⟩, ⟨c.x + r * S, c.y - r * C⟩] : List (Vec ℝ)) = pts
  have hl : pts.length = 4 := by rw [← hpts]; rfl
  have g0 : pts[0]? = some ⟨c.x + r * C, c.y + r * S⟩ := by rw [← hpts]; rfl
  have g1 : pts[1]? = some ⟨c.x - r * S, c.y + r * C⟩ := by rw [← hpts]; rfl
  have g2 : pts[2]? = some ⟨c.x - r * C, c.y - r * S⟩ := by rw [← hpts]; rfl
  have g3 : pts[3]? = some ⟨c.x + r * S, c.y - r * C⟩ := by rw [← hpts]; rfl
  have t1 : testEdgePair pts |r| [] 0 1 = .ok true :=
    (test_eq pts |r| [] 0 1 2 _ _ _ g0 g1 g2 (by rw [hl]; rfl) (ne _ _ (by
      rw [show (c.x - r * C - (c.x + r * C)) ^ 2 + (c.y - r * S - (c.y + r * S)) ^ 2 = 4 * r ^ 2 by linear_combination 4 * r ^ 2 * hcs]
      positivity))).1 (near _ _ _ (by simp only; linear_combination 4 * r ^ 2 * hcs) (hv2 _ (Or.inr (by simp only; linear_combination -2 * r ^ 2 * hcs))))
  have t2 : testEdgePair pts |r| [1] 0 2 = .ok false :=
    (test_eq pts |r| [1] 0 2 3 _ _ _ g0 g2 g3 (by rw [hl]; rfl) (ne _ _ (by
      rw [show (c.x + r * S - (c.x + r * C)) ^ 2 + (c.y - r * C - (c.y + r * S)) ^ 2 = 2 * r ^ 2 by linear_combination 2 * r ^ 2 * hcs]
      positivity))).2 (far _ _ _ (by simp only; linear_combination 2 * r ^ 2 * hcs) (hv2 _ (Or.inr (by simp only; linear_combination -2 * r ^ 2 * hcs))))
  have t3 : testEdgePair pts |r| [1] 2 3 = .ok true :=
    (test_eq pts |r| [1] 2 3 0 _ _ _ g2 g3 g0 (by rw [hl]; rfl) (ne _ _ (by
      rw [show (c.x + r * C - (c.x - r * C)) ^ 2 + (c.y + r * S - (c.y - r * S)) ^ 2 = 4 * r ^ 2 by linear_combination 4 * r ^ 2 * hcs]
      positivity))).1 (near _ _ _ (by simp only; linear_combination 4 * r ^ 2 * hcs) (hv2 _ (Or.inr (by simp only; linear_combination -2 * r ^ 2 * hcs))))
  have t4 : testEdgePair pts |r| [1, 3] 2 0 = .ok false :=
    (test_eq pts |r| [1, 3] 2 0 1 _ _ _ g2 g0 g1 (by rw [hl]; rfl) (ne _ _ (by
      rw [show (c.x - r * S - (c.x - r * C)) ^ 2 + (c.y + r * C - (c.y - r * S)) ^ 2 = 2 * r ^ 2 by linear_combination 2 * r ^ 2 * hcs]
      positivity))).2 (far _ _ _ (by simp only; linear_combination 2 * r ^ 2 * hcs) (hv2 _ (Or.inr (by simp only; linear_combination -2 * r ^ 2 * hcs))))
  have hloop : simplifyLoop pts |r| 4 0 1 [] = some (.ok [1, 3]) := by
    simp [simplifyLoop, hl, t1, t2, t3, t4]
  rw [hloop]
  simp only
  rw [if_neg (by simp), call_vectors]
  rfl

/-- An hexagon can be made, but not copied. -/
example : ∃ p, call [.vector ⟨1, 2⟩, .number 3, .number 6, .number 0] = .ok p ∧ p.polygon.points.length = 6 ∧ p.clone = .error .typeError := by
  obtain ⟨p, h, -, -, -, -, hp⟩ := made ⟨1, 2⟩ 3 6 (by omega) 0
  obtain ⟨p', h', hl, -⟩ := regular_spec ⟨1, 2⟩ 3 6 (by omega) 0
  rw [hp] at h'
  cases h'
  exact ⟨p, by exact_mod_cast h, hl, (regular_clone_wrong p).1⟩

end Patro.RegularObject
