import Verif.Proof.Simplify
/-! # C91: simplification of polygons -/

namespace Patro.Polygon

open Classical

theorem keeps_filterMap (l : List (Vec ℝ)) (removed : List Nat) (k : Nat) :
    ((l.zipIdx k).filterMap fun (q, i) => if i ∈ removed then none else some q).map some =
      ((List.range' k l.length).filter fun i => i ∉ removed).map fun i => l[i - k]? := by
  induction l generalizing k with
  | nil => simp
  | cons a l ih =>
    have hshift : ∀ m : List Nat, (∀ i ∈ m, k < i) → (m.map fun i => (a :: l)[i - k]?) = m.map fun i => l[i - (k + 1)]? := by
      intro m hm
      apply List.map_congr_left
      intro i hi
      have := hm i hi
      rw [show i - k = (i - (k + 1)) + 1 by omega, List.getElem?_cons_succ]
    have hlarge : ∀ i ∈ (List.range' (k + 1) l.length).filter fun i => decide (i ∉ removed), k < i := by
      intro i hi
      have := List.mem_of_mem_filter hi
      rw [List.mem_range'_1] at this
      omega
    rw [List.zipIdx_cons, List.length_cons, List.range'_succ]
    by_cases h : k ∈ removed
    · rw [List.filterMap_cons_none (by simp [h]), List.filter_cons_of_neg (by simp [h]), ih (k + 1), hshift _ hlarge]
    · rw [List.filterMap_cons_some (b := a) (by simp [h]), List.filter_cons_of_pos (by simp [h]), List.map_cons, List.map_cons,
        ih (k + 1), hshift _ hlarge]
      simp

theorem keeps_result (points : List (Vec ℝ)) (removed : List Nat) :
    Keeps points removed (points.zipIdx.filterMap fun (q, i) => if i ∈ removed then none else some q) := by
  refine ⟨(List.range' 0 points.length).filter fun i => i ∉ removed, ?_, ?_, keeps_filterMap points removed 0⟩
  · exact (List.pairwise_lt_range').sublist List.filter_sublist
  · intro i
    simp [List.mem_filter, List.mem_range'_1]

/-- C91. `simplify` ends, after at most one turn around the polygon, and never raises `IndexError`. It returns `None`, the
polygon itself when it removes no vertex, or the polygon of the vertices it keeps, in the same order; `ValueError` is raised
when less than three are left. Apart from the first vertex, a vertex is removed exactly when its distance to the line
from the last vertex kept before it to the vertex that follows it is at most `threshold`; the first one is removed exactly when
its distance to the line from the last vertex kept to the second vertex is at most `threshold`, or to the next vertex kept if the last vertex
of the polygon is kept. -/
theorem simplify_partial (p : Polygon ℝ) (threshold : ℝ) (h3 : 3 ≤ p.points.length) :
    simplify p.points.length p threshold = some (.ok .none) ∨
    ∃ removed : List Nat, (∀ r ∈ removed, r < p.points.length) ∧
      FirstDecided p.points threshold removed ∧
      (∀ m, 0 < m → m < p.points.length → ∃ a pa pm pn, a < m ∧ (a ∉ removed ∨ a = 0) ∧
        (∀ b, a < b → b < m → b ∈ removed) ∧ p.points[a]? = some pa ∧ p.points[m]? = some pm ∧
        p.points[(m + 1) % p.points.length]? = some pn ∧ pn ≠ pa ∧ (m ∈ removed ↔ Near threshold pa pm pn)) ∧
      ((removed = [] ∧ simplify p.points.length p threshold = some (.ok .self)) ∨
       (removed ≠ [] ∧ ∃ q, Keeps p.points removed q ∧
        ((3 ≤ q.length ∧ simplify p.points.length p threshold = some (.ok (.polygon { points := q }))) ∨
         (q.length < 3 ∧ simplify p.points.length p threshold = some (.error .valueError))))) := by
  have := loop_spec p.points threshold h3 (p.points.length - 1) 0 1 [] rfl (by omega) (by omega) (by simp) (by simp)
    (by intro b h1 h2; omega) (by intro m h1 h2; omega)
  rw [show p.points.length - 1 + 1 = p.points.length by omega] at this
  rcases this with ⟨e, _⟩ | ⟨removed, e, h1, h0, h2⟩
  · left; unfold simplify; rw [e]
  · right
    refine ⟨removed, h1, h0, h2, ?_⟩
    unfold simplify
    rw [e]
    simp only
    by_cases hr : removed = []
    · left; exact ⟨hr, by rw [if_pos hr]⟩
    · right
      have hk := keeps_result p.points removed
      rw [if_neg hr]
      generalize (p.points.zipIdx.filterMap fun (q, i) => if i ∈ removed then none else some q) = q at hk
      refine ⟨hr, q, hk, ?_⟩
      unfold create
      split
      · right; exact ⟨by assumption, rfl⟩
      · left; exact ⟨by omega, rfl⟩

/-- More iterations do not change the result. -/
theorem simplifyLoop_mono (points : List (Vec ℝ)) (threshold : ℝ) (fuel i j : Nat) (remove : List Nat) (r)
    (h : simplifyLoop points threshold fuel i j remove = some r) :
    simplifyLoop points threshold (fuel + 1) i j remove = some r := by
  induction fuel generalizing i j remove with
  | zero => cases h
  | succ fuel ih =>
    unfold simplifyLoop at h ⊢
    split at h
    · rename_i hi
      rw [if_pos hi]
      split at h
      · exact h
      · split at h
        · rename_i hj; rw [if_pos hj]; exact h
        · rename_i hj; rw [if_neg hj]; exact ih _ _ _ h
      · split at h
        · rename_i hj; rw [if_pos hj]; exact h
        · rename_i hj; rw [if_neg hj]; exact ih _ _ _ h
    · rename_i hi; rw [if_neg hi]; exact h

/-- C91. A negative threshold removes nothing. -/
theorem simplify_negative (p : Polygon ℝ) (threshold : ℝ) (h3 : 3 ≤ p.points.length) (ht : threshold < 0) :
    simplify p.points.length p threshold = some (.ok .none) ∨ simplify p.points.length p threshold = some (.ok .self) := by
  have hn : ∀ a q b, ¬ Near threshold a q b := by
    rintro a q b ⟨hne, h⟩
    have hd : 0 < distance a b := by
      unfold distance
      apply Real.sqrt_pos.2
      by_contra hc
      apply hne
      have h1 := sq_nonneg (a.x - b.x)
      have h2 := sq_nonneg (a.y - b.y)
      have e1 : (a.x - b.x) ^ 2 = 0 := by linarith
      have e2 : (a.y - b.y) ^ 2 = 0 := by linarith
      have := pow_eq_zero_iff (two_ne_zero) |>.1 e1
      have := pow_eq_zero_iff (two_ne_zero) |>.1 e2
      exact Vec.ext (by linarith) (by linarith)
    have := abs_nonneg ((b.x - a.x) * (q.y - a.y) - (b.y - a.y) * (q.x - a.x))
    have := mul_neg_of_neg_of_pos ht hd
    linarith
  rcases simplify_partial p threshold h3 with e | ⟨removed, h1, h0, h2, ⟨_, e⟩ | ⟨hr, _⟩⟩
  · exact Or.inl e
  · exact Or.inr e
  · exfalso
    obtain ⟨i, hi⟩ := List.exists_mem_of_ne_nil _ hr
    by_cases hi0 : i = 0
    · rw [hi0] at hi
      obtain ⟨_, _, pa, p0, pk, _, _, _, _, _, _, _, h⟩ := h0
      exact hn _ _ _ (h.1 hi)
    · obtain ⟨a, pa, pm, pn, _, _, _, _, _, _, _, g⟩ := h2 i (by omega) (h1 i hi)
      exact hn _ _ _ (g.1 hi)

/-- The test for a threshold of 1, with squares in place of lengths. -/
theorem test_one (points : List (Vec ℝ)) (remove : List Nat) (i j k : Nat) (p1 p2 p3 : Vec ℝ)
    (h1 : points[i]? = some p1) (h2 : points[j]? = some p2) (h3 : points[k]? = some p3)
    (ek : (if i = points.length - 1 then skipRemoved remove (points.length - (j + 1) % points.length)
      ((j + 1) % points.length) else (j + 1) % points.length) = k) (hne : p3 ≠ p1) :
    testEdgePair points 1 remove i j = .ok (decide (((p3.x - p1.x) * (p2.y - p1.y) - (p3.y - p1.y) * (p2.x - p1.x)) ^ 2 ≤
      (p3.x - p1.x) ^ 2 + (p3.y - p1.y) ^ 2)) := by
  obtain ⟨hi, rfl⟩ := List.getElem?_eq_some_iff.1 h1
  obtain ⟨hj, rfl⟩ := List.getElem?_eq_some_iff.1 h2
  obtain ⟨hk, rfl⟩ := List.getElem?_eq_some_iff.1 h3
  have key : ∀ p1 p2 p3 : Vec ℝ, p3 ≠ p1 → (Near 1 p1 p2 p3 ↔ ((p3.x - p1.x) * (p2.y - p1.y) - (p3.y - p1.y) * (p2.x - p1.x)) ^ 2 ≤
      (p3.x - p1.x) ^ 2 + (p3.y - p1.y) ^ 2) := by
    intro p1 p2 p3 hne
    unfold Near distance
    rw [and_iff_right hne, one_mul, Real.le_sqrt (abs_nonneg _) (by positivity), sq_abs]
    rw [show (p1.x - p3.x) ^ 2 + (p1.y - p3.y) ^ 2 = (p3.x - p1.x) ^ 2 + (p3.y - p1.y) ^ 2 by ring]
  rcases test_spec points 1 remove i j k hi hj hk ek with ⟨h, _⟩ | ⟨_, hn, e⟩ | ⟨_, hn, e⟩
  · exact absurd h hne
  · rw [e, decide_eq_true ((key _ _ _ hne).1 hn)]
  · rw [e, decide_eq_false (fun h => hn ((key _ _ _ hne).2 h))]

/-- C91 fails: with the threshold 1 the vertex (3, 0) is removed from this polygon, though its distance to the boundary of the
result is more than 2. -/
theorem simplify_wrong :
    let points : List (Vec ℝ) := [⟨0, 0⟩, ⟨3, 0⟩, ⟨3, 1⟩, ⟨3, 2⟩, ⟨3, 3⟩, ⟨-10, 10⟩]
    simplify 6 { points := points } 1 = some (.ok (.polygon { points := [⟨0, 0⟩, ⟨3, 3⟩, ⟨-10, 10⟩] })) ∧
    ∀ q, Between ⟨0, 0⟩ ⟨3, 3⟩ q ∨ Between ⟨3, 3⟩ ⟨-10, 10⟩ q ∨ Between ⟨-10, 10⟩ ⟨0, 0⟩ q → 2 < distance ⟨3, 0⟩ q := by
  intro points
  constructor
  · have e : simplifyLoop points 1 6 0 1 [] = some (.ok [1, 2, 3]) := by
      have t1 : testEdgePair points 1 [] 0 1 = .ok true := by
        rw [test_one points [] 0 1 2 ⟨0, 0⟩ ⟨3, 0⟩ ⟨3, 1⟩ rfl rfl rfl rfl (by simp [Vec.ext_iff])]; norm_num
      have t2 : testEdgePair points 1 [1] 0 2 = .ok true := by
        rw [test_one points [1] 0 2 3 ⟨0, 0⟩ ⟨3, 1⟩ ⟨3, 2⟩ rfl rfl rfl rfl (by simp [Vec.ext_iff])]; norm_num
      have t3 : testEdgePair points 1 [1, 2] 0 3 = .ok true := by
        rw [test_one points [1, 2] 0 3 4 ⟨0, 0⟩ ⟨3, 2⟩ ⟨3, 3⟩ rfl rfl rfl rfl (by simp [Vec.ext_iff])]; norm_num
      have t4 : testEdgePair points 1 [1, 2, 3] 0 4 = .ok false := by
        rw [test_one points [1, 2, 3] 0 4 5 ⟨0, 0⟩ ⟨3, 3⟩ ⟨-10, 10⟩ rfl rfl rfl rfl (by simp [Vec.ext_iff])]; norm_num
      have t5 : testEdgePair points 1 [1, 2, 3] 4 5 = .ok false := by
        rw [test_one points [1, 2, 3] 4 5 0 ⟨3, 3⟩ ⟨-10, 10⟩ ⟨0, 0⟩ rfl rfl rfl (by simp [points]) (by simp [Vec.ext_iff])]; norm_num
      have t6 : testEdgePair points 1 [1, 2, 3] 5 0 = .ok false := by
        rw [test_one points [1, 2, 3] 5 0 4 ⟨-10, 10⟩ ⟨0, 0⟩ ⟨3, 3⟩ rfl rfl rfl rfl (by simp [Vec.ext_iff])]; norm_num
      have hl : points.length = 6 := rfl
      simp [simplifyLoop, hl, t1, t2, t3, t4, t5, t6]
    unfold simplify
    simp only [e]
    simp [points, create, Except.map]
  · have gt : ∀ q : Vec ℝ, 4 < (3 - q.x) ^ 2 + (0 - q.y) ^ 2 → 2 < distance ⟨3, 0⟩ q := by
      intro q h
      unfold distance
      rw [Real.lt_sqrt (by norm_num)]
      simpa using (by linarith : (2:ℝ) ^ 2 < (3 - q.x) ^ 2 + (0 - q.y) ^ 2)
    rintro q (⟨t, t0, t1, rfl⟩ | ⟨t, t0, t1, rfl⟩ | ⟨t, t0, t1, rfl⟩) <;> apply gt <;> simp only
    · nlinarith [sq_nonneg (2 * t - 1)]
    · nlinarith [sq_nonneg t]
    · nlinarith [sq_nonneg t, sq_nonneg (t - 1)]

/-! ## When there is no answer -/

/-- The vertices near the lines from the vertex `a` are removed one after the other. -/
theorem loop_removes (points : List (Vec ℝ)) (t : ℝ) (a s J : Nat) (hJ : J < points.length) (haJ : a + 1 < points.length) (hs : a < s)
    (hnear : ∀ m, s ≤ m → m < J → NearFrom points t a m) :
    ∀ j fuel, s ≤ j → j ≤ J → simplifyLoop points t (fuel + (J - j)) a j (List.range' s (j - s)) =
      simplifyLoop points t fuel a J (List.range' s (J - s)) := by
  intro j fuel h1 h2
  induction hm : J - j generalizing j with
  | zero =>
    obtain rfl : j = J := by omega
    rfl
  | succ m ih =>
    obtain ⟨pa, pm, pn, q1, q2, q3, q4⟩ := hnear j h1 (by omega)
    have htest : testEdgePair points t (List.range' s (j - s)) a j = .ok true := by
      obtain ⟨ha, rfl⟩ := List.getElem?_eq_some_iff.1 q1
      obtain ⟨hj, rfl⟩ := List.getElem?_eq_some_iff.1 q2
      obtain ⟨hk, rfl⟩ := List.getElem?_eq_some_iff.1 q3
      rcases test_spec points t (List.range' s (j - s)) a j _ ha hj hk (by rw [if_neg (by omega)]) with ⟨h, _⟩ | ⟨_, _, e⟩ | ⟨_, hn, _⟩
      · exact absurd h q4.1
      · exact e
      · exact absurd q4 hn
    rw [← Nat.add_assoc]
    conv_lhs => rw [simplifyLoop]
    rw [if_pos (by omega), htest]
    simp only
    rw [if_neg (by omega), Nat.mod_eq_of_lt (by omega)]
    have hr : List.range' s (j - s) ++ [j] = List.range' s (j + 1 - s) := by
      rw [show j + 1 - s = (j - s) + 1 by omega, List.range'_concat]
      simp; omega
    rw [hr]
    exact ih (j + 1) (by omega) (by omega) (by omega)

/-- C91. For distinct vertices, `None` is returned exactly when all the vertices but the first and the last one are near the line from the
first vertex to the vertex that follows them, or when the second vertex is not and all the vertices after it are near the line from the second
vertex to the vertex that follows them: in both cases no polygon would be left. -/
theorem simplify_none_iff (p : Polygon ℝ) (t : ℝ) (h3 : 3 ≤ p.points.length) (hnd : p.points.Nodup) :
    simplify p.points.length p t = some (.ok .none) ↔
      (∀ m, 0 < m → m + 1 < p.points.length → NearFrom p.points t 0 m) ∨
      (¬ NearFrom p.points t 0 1 ∧ ∀ m, 1 < m → m < p.points.length → NearFrom p.points t 1 m) := by
  constructor
  · intro h
    have := loop_spec p.points t h3 (p.points.length - 1) 0 1 [] rfl (by omega) (by omega) (by simp) (by simp)
      (by intro b h1 h2; omega) (by intro m h1 h2; omega)
    rw [show p.points.length - 1 + 1 = p.points.length by omega] at this
    rcases this with ⟨_, hd⟩ | ⟨removed, e, _⟩
    · rcases hd with hd | hd
      · exact absurd hnd hd
      · exact hd
    · exfalso
      unfold simplify at h
      rw [e] at h
      simp only at h
      split at h
      · simp at h
      · unfold create at h
        split at h <;> simp [Except.map] at h
  · intro h
    obtain ⟨l, hl⟩ : ∃ l, p.points.length = l + 3 := ⟨p.points.length - 3, by omega⟩
    have err : ∀ remove i j (hi : i < p.points.length), j < p.points.length → i + 1 < p.points.length → (j + 1) % p.points.length = i → ∀ fuel,
        simplifyLoop p.points t (fuel + 1) i j remove = some (.error .zeroDivisionError) := by
      intro remove i j hi hj hi1 hij fuel
      rw [simplifyLoop, if_pos hi]
      rcases test_spec p.points t remove i j i hi hj hi (by rw [if_neg (by omega), hij]) with ⟨_, e⟩ | ⟨hne, _⟩ | ⟨hne, _⟩
      · rw [e]
      · exact absurd rfl hne
      · exact absurd rfl hne
    have key : simplifyLoop p.points t p.points.length 0 1 [] = some (.error .zeroDivisionError) := by
      rcases h with h | ⟨h1, h⟩
      · have := loop_removes p.points t 0 1 (l + 2) (by omega) (by omega) (by omega) (fun m m1 m2 => h m m1 (by omega)) 1 2 le_rfl (by omega)
        rw [show 2 + (l + 2 - 1) = l + 3 by omega, Nat.sub_self, List.range'_zero] at this
        rw [hl, this]
        exact err _ 0 (l + 2) (by omega) (by omega) (by omega) (by rw [hl]; exact Nat.mod_self _) 1
      · have t1 : testEdgePair p.points t [] 0 1 = .ok false := by
          have hm : (1 + 1) % p.points.length = 2 := Nat.mod_eq_of_lt (by omega)
          rcases test_spec p.points t [] 0 1 2 (by omega) (by omega) (by omega) (by rw [if_neg (by omega), hm]) with ⟨h', _⟩ | ⟨_, hn, _⟩ | ⟨_, _, e⟩
          · exact absurd ((List.Nodup.getElem_inj_iff hnd).1 h') (by omega)
          · exact absurd ⟨_, _, _, List.getElem?_eq_getElem _, List.getElem?_eq_getElem _, by rw [hm]; exact List.getElem?_eq_getElem _, hn⟩ h1
          · exact e
        have := loop_removes p.points t 1 2 (l + 2) (by omega) (by omega) (by omega) (fun m m1 m2 => h m m1 (by omega)) 2 2 le_rfl (by omega)
        rw [show 2 + (l + 2 - 2) = l + 2 by omega, Nat.sub_self, List.range'_zero] at this
        rw [hl, simplifyLoop, if_pos (by omega), t1]
        simp only [Nat.not_lt_zero, if_false]
        rw [show (1 + 1) % p.points.length = 2 from Nat.mod_eq_of_lt (by omega), this]
        obtain ⟨pa, pm, pn, q1, q2, q3, q4⟩ := h (l + 2) (by omega) (by omega)
        have htest : testEdgePair p.points t (List.range' 2 (l + 2 - 2)) 1 (l + 2) = .ok true := by
          obtain ⟨ha, rfl⟩ := List.getElem?_eq_some_iff.1 q1
          obtain ⟨hj, rfl⟩ := List.getElem?_eq_some_iff.1 q2
          obtain ⟨hk, rfl⟩ := List.getElem?_eq_some_iff.1 q3
          rcases test_spec p.points t (List.range' 2 (l + 2 - 2)) 1 (l + 2) _ ha hj hk (by rw [if_neg (by omega)]) with ⟨h, _⟩ | ⟨_, _, e⟩ | ⟨_, hn, _⟩
          · exact absurd h q4.1
          · exact e
          · exact absurd q4 hn
        rw [simplifyLoop, if_pos (by omega), htest]
        simp only
        rw [if_neg (by omega), show (l + 2 + 1) % p.points.length = 0 by rw [hl]; exact Nat.mod_self _]
        exact err _ 1 0 (by omega) (by omega) (by omega) (Nat.mod_eq_of_lt (by omega)) 0
    unfold simplify
    rw [key]

/-- A triangle is `None` as soon as its second vertex is near the line of the two others. -/
example : simplify 3 ({ points := [⟨0, 0⟩, ⟨4, 1⟩, ⟨8, 0⟩] } : Polygon ℝ) 1 = some (.ok .none) := by
  refine (simplify_none_iff { points := [⟨0, 0⟩, ⟨4, 1⟩, ⟨8, 0⟩] } 1 (by simp) (by simp)).2 (Or.inl fun m m0 m1 => ?_)
  obtain rfl : m = 1 := by simp at m1; omega
  refine ⟨_, _, _, rfl, rfl, rfl, by simp, ?_⟩
  unfold distance
  rw [show ((0 : ℝ) - 8) ^ 2 + (0 - 0) ^ 2 = 8 ^ 2 by norm_num, Real.sqrt_sq (by norm_num)]
  norm_num

/-! ## The distance is not bounded -/

/-- The test, for the points given by their indices. -/
theorem test_eq (points : List (Vec ℝ)) (t : ℝ) (remove : List Nat) (i j k : Nat) (p1 p2 p3 : Vec ℝ)
    (h1 : points[i]? = some p1) (h2 : points[j]? = some p2) (h3 : points[k]? = some p3)
    (ek : (if i = points.length - 1 then skipRemoved remove (points.length - (j + 1) % points.length)
      ((j + 1) % points.length) else (j + 1) % points.length) = k) (hne : p3 ≠ p1) :
    (Near t p1 p2 p3 → testEdgePair points t remove i j = .ok true) ∧ (¬ Near t p1 p2 p3 → testEdgePair points t remove i j = .ok false) := by
  obtain ⟨hi, rfl⟩ := List.getElem?_eq_some_iff.1 h1
  obtain ⟨hj, rfl⟩ := List.getElem?_eq_some_iff.1 h2
  obtain ⟨hk, rfl⟩ := List.getElem?_eq_some_iff.1 h3
  rcases test_spec points t remove i j k hi hj hk ek with ⟨h, _⟩ | ⟨_, hn, e⟩ | ⟨_, hn, e⟩
  · exact absurd h hne
  · exact ⟨fun _ => e, fun h => absurd hn h⟩
  · exact ⟨fun h => absurd h hn, fun _ => e⟩

/-- A triangle with the side from the origin to `(n t, n t)` replaced by a horizontal line and a column of points at the distance `t` of each other. -/
noncomputable def column (n : Nat) (t : ℝ) : List (Vec ℝ) :=
  ⟨0, 0⟩ :: ((List.range n).map (fun k : Nat => (⟨n * t, k * t⟩ : Vec ℝ)) ++ [⟨n * t, n * t⟩, ⟨-(n * t), n * t⟩])

theorem column_length (n : Nat) (t : ℝ) : (column n t).length = n + 3 := by simp [column]

theorem column_get (n : Nat) (t : ℝ) : (column n t)[0]? = some ⟨0, 0⟩ ∧ (∀ k ≤ n, (column n t)[k + 1]? = some ⟨n * t, k * t⟩) ∧
    (column n t)[n + 2]? = some ⟨-(n * t), n * t⟩ := by
  refine ⟨rfl, fun k hk => ?_, ?_⟩
  · rw [column, List.getElem?_cons_succ]
    rcases Nat.lt_or_ge k n with h | h
    · rw [List.getElem?_append_left (by simpa using h)]
      simp [h]
    · obtain rfl : k = n := by omega
      rw [List.getElem?_append_right (by simp)]
      simp
  · rw [column, List.getElem?_cons_succ, List.getElem?_append_right (by simp)]
    simp

theorem skip_range (n : Nat) : ∀ (fuel k : Nat), 1 ≤ k → k ≤ n + 1 → n + 1 - k ≤ fuel → skipRemoved (List.range' 1 n) fuel k = n + 1 := by
  intro fuel
  induction fuel with
  | zero => intro k h1 h2 h3; rw [skipRemoved]; omega
  | succ fuel ih =>
    intro k h1 h2 h3
    rw [skipRemoved]
    by_cases h : k ≤ n
    · rw [if_pos (by rw [List.mem_range'_1]; omega)]
      exact ih (k + 1) (by omega) (by omega) (by omega)
    · rw [if_neg (by rw [List.mem_range'_1]; omega)]
      omega

/-- C91 fails without any bound: for every threshold and every distance there is a polygon with a vertex which is removed, though it is further than
this distance from the whole boundary of the result. -/
theorem simplify_unbounded_wrong (t d : ℝ) (ht : 0 < t) :
    ∃ (points q : List (Vec ℝ)) (p : Vec ℝ), simplify points.length { points := points } t = some (.ok (.polygon { points := q })) ∧ p ∈ points ∧
      ∀ i a b, IsEdge q i a b → ∀ x, Between a b x → d < distance p x := by
  obtain ⟨n, hn⟩ := exists_nat_gt (max (2 * |d| / t) 3)
  have hn3 : (3 : ℝ) < n := lt_of_le_of_lt (le_max_right _ _) hn
  have hn3' : 3 < n := by exact_mod_cast hn3
  have hnd : 2 * |d| < n * t := by
    have := lt_of_le_of_lt (le_max_left _ _) hn
    rwa [div_lt_iff₀ ht] at this
  set H : ℝ := n * t with hH
  have hHt : 3 * t < H := by rw [hH]; nlinarith
  have hH0 : 0 < H := by linarith
  obtain ⟨g0, gk, gf⟩ := column_get n t
  have gE : (column n t)[n + 1]? = some ⟨H, H⟩ := gk n le_rfl
  have hlen := column_length n t
  -- far points
  have far : ∀ a q b : Vec ℝ, b ≠ a → (t * t) * ((a.x - b.x) ^ 2 + (a.y - b.y) ^ 2) <
      ((b.x - a.x) * (q.y - a.y) - (b.y - a.y) * (q.x - a.x)) ^ 2 → ¬ Near t a q b := by
    rintro a q b - h ⟨-, h'⟩
    have h2 := mul_self_le_mul_self (abs_nonneg _) h'
    rw [abs_mul_abs_self] at h2
    have h3 : distance a b * distance a b = (a.x - b.x) ^ 2 + (a.y - b.y) ^ 2 := by
      unfold distance; exact Real.mul_self_sqrt (by positivity)
    nlinarith
  have hcol : ∀ j fuel, 1 ≤ j → j ≤ n + 1 → simplifyLoop (column n t) t (fuel + (n + 1 - j)) 0 j (List.range' 1 (j - 1)) =
      simplifyLoop (column n t) t fuel 0 (n + 1) (List.range' 1 n) := by
    intro j fuel h1 h2
    induction hm : n + 1 - j generalizing j with
    | zero =>
      obtain rfl : j = n + 1 := by omega
      rfl
    | succ m ih =>
      have hj := gk (j - 1) (by omega)
      rw [Nat.sub_add_cancel h1] at hj
      have hj1 := gk j (by omega)
      have hmod : (j + 1) % (column n t).length = j + 1 := Nat.mod_eq_of_lt (by omega)
      have hne : (⟨H, j * t⟩ : Vec ℝ) ≠ ⟨0, 0⟩ := fun e => by
        have := congrArg Vec.x e
        simp only at this
        linarith
      have hnear : Near t ⟨0, 0⟩ ⟨H, ((j - 1 : Nat) : ℝ) * t⟩ ⟨H, j * t⟩ := by
        refine ⟨hne, ?_⟩
        have e : (H - 0) * (((j - 1 : Nat) : ℝ) * t - 0) - (j * t - 0) * (H - 0) = -(H * t) := by
          rw [Nat.cast_sub h1]; push_cast; ring
        simp only [e, abs_neg]
        rw [abs_of_pos (by positivity), mul_comm]
        apply mul_le_mul_of_nonneg_left _ ht.le
        unfold distance
        apply Real.le_sqrt_of_sq_le
        nlinarith [sq_nonneg ((j : ℝ) * t)]
      have htest := (test_eq (column n t) t (List.range' 1 (j - 1)) 0 j (j + 1) _ _ _ g0 hj hj1 (by rw [if_neg (by omega), hmod]) hne).1 hnear
      rw [← Nat.add_assoc]
      conv_lhs => rw [simplifyLoop]
      rw [if_pos (by omega), htest]
      simp only [Nat.not_lt_zero, if_false]
      rw [hmod]
      have hr : List.range' 1 (j - 1) ++ [j] = List.range' 1 (j + 1 - 1) := by
        rw [show j + 1 - 1 = (j - 1) + 1 by omega, List.range'_concat]
        simp; omega
      rw [hr]
      exact ih (j + 1) (by omega) (by omega) (by omega)
  have hE : (⟨-H, H⟩ : Vec ℝ) ≠ ⟨0, 0⟩ := fun e => by
    have := congrArg Vec.y e
    simp only at this
    linarith
  have hF : (⟨0, 0⟩ : Vec ℝ) ≠ ⟨H, H⟩ := fun e => by
    have := congrArg Vec.y e
    simp only at this
    linarith
  have hG : (⟨H, H⟩ : Vec ℝ) ≠ ⟨-H, H⟩ := fun e => by
    have := congrArg Vec.x e
    simp only at this
    linarith
  have hHH : 9 * (t * t) < H * H := by nlinarith
  have t1 := (test_eq (column n t) t (List.range' 1 n) 0 (n + 1) (n + 2) _ _ _ g0 gE gf
    (by rw [if_neg (by omega), Nat.mod_eq_of_lt (by omega)]) hE).2 (far _ _ _ hE (by simp only; nlinarith [mul_pos hH0 hH0]))
  have t2 := (test_eq (column n t) t (List.range' 1 n) (n + 1) (n + 2) 0 _ _ _ gE gf g0
    (by rw [if_neg (by omega), hlen]; exact Nat.mod_self _) hF).2 (far _ _ _ hF (by simp only; nlinarith [mul_pos hH0 hH0]))
  have t3 := (test_eq (column n t) t (List.range' 1 n) (n + 2) 0 (n + 1) _ _ _ gf g0 gE
    (by rw [if_pos (by omega), hlen, Nat.mod_eq_of_lt (by omega)]; exact skip_range n _ _ (by omega) (by omega) (by omega)) hG).2
      (far _ _ _ hG (by simp only; nlinarith [mul_pos hH0 hH0]))
  have hloop : simplifyLoop (column n t) t (n + 3) 0 1 [] = some (.ok (List.range' 1 n)) := by
    have := hcol 1 3 le_rfl (by omega)
    rw [show 3 + (n + 1 - 1) = n + 3 by omega] at this
    simp only [Nat.sub_self, List.range'_zero] at this
    rw [this]
    have m1 : (n + 1 + 1) % (column n t).length = n + 2 := Nat.mod_eq_of_lt (by omega)
    have m2 : (n + 2 + 1) % (column n t).length = 0 := by rw [hlen]; exact Nat.mod_self _
    rw [simplifyLoop, if_pos (by omega), t1]
    simp only [Nat.not_lt_zero, if_false]
    rw [m1, simplifyLoop, if_pos (by omega), t2]
    simp only
    rw [if_neg (by omega), m2, simplifyLoop, if_pos (by omega), t3]
    simp
  have hkept : (column n t).zipIdx.filterMap (fun (q, i) => if i ∈ List.range' 1 n then none else some q) = [⟨0, 0⟩, ⟨H, H⟩, ⟨-H, H⟩] := by
    unfold column
    rw [List.zipIdx_cons, List.zipIdx_append, List.filterMap_cons, List.filterMap_append]
    have : (((List.range n).map (fun k : Nat => (⟨n * t, k * t⟩ : Vec ℝ))).zipIdx (0 + 1)).filterMap
        (fun (q, i) => if i ∈ List.range' 1 n then none else some q) = [] := by
      rw [List.filterMap_eq_nil_iff]
      rintro ⟨q, i⟩ hqi
      have := List.mem_zipIdx hqi
      simp only [List.length_map, List.length_range] at this
      simp only
      rw [if_pos (by rw [List.mem_range'_1]; omega)]
    rw [this]
    have c0 : ¬ (0 ∈ List.range' 1 n) := by rw [List.mem_range'_1]; omega
    have c1 : ¬ (0 + 1 + n ∈ List.range' 1 n) := by rw [List.mem_range'_1]; omega
    have c2 : ¬ (0 + 1 + n + 1 ∈ List.range' 1 n) := by rw [List.mem_range'_1]; omega
    simp only [List.length_map, List.length_range, List.zipIdx_cons, List.zipIdx_nil, List.filterMap_cons, List.filterMap_nil, if_neg c0,
      if_neg c1, if_neg c2, List.nil_append, hH]
  refine ⟨column n t, [⟨0, 0⟩, ⟨H, H⟩, ⟨-H, H⟩], ⟨H, 0⟩, ?_, ?_, ?_⟩
  · unfold simplify
    simp only [hlen, hloop]
    rw [if_neg (by rw [← List.length_eq_zero_iff]; simp; omega), hkept]
    simp [create, Except.map]
  · have := gk 0 (by omega)
    simp only [Nat.cast_zero, zero_mul] at this
    exact List.mem_of_getElem? this
  · have gt : ∀ q : Vec ℝ, H ^ 2 / 4 < (H - q.x) ^ 2 + (0 - q.y) ^ 2 → d < distance ⟨H, 0⟩ q := by
      intro q h
      refine lt_of_le_of_lt (le_abs_self d) ?_
      unfold distance
      rw [Real.lt_sqrt (abs_nonneg d)]
      refine lt_trans ?_ h
      nlinarith [abs_nonneg d]
    rintro i a b ⟨h1, h2⟩ x ⟨s, s0, s1, rfl⟩
    have hi : i < 3 := (List.getElem?_eq_some_iff.1 h1).1
    have : i = 0 ∨ i = 1 ∨ i = 2 := by omega
    have hHp := mul_pos hH0 hH0
    rcases this with rfl | rfl | rfl <;> simp at h1 h2 <;> subst h1 h2 <;> apply gt <;> simp only
    · have e : (H - ((1 - s) * 0 + s * H)) ^ 2 + (0 - ((1 - s) * 0 + s * H)) ^ 2 = H * H * ((1 - s) ^ 2 + s ^ 2) := by ring
      rw [e]
      nlinarith [sq_nonneg (2 * s - 1)]
    · nlinarith [sq_nonneg (H * s)]
    · nlinarith [mul_nonneg s0 (sub_nonneg.2 s1), mul_nonneg hHp.le (sq_nonneg s), mul_nonneg hHp.le (mul_nonneg s0 (sub_nonneg.2 s1)),
        mul_nonneg hHp.le s0]

end Patro.Polygon
