import Verif.Props.Spline
import Mathlib.Tactic.IntervalCases
/-! # C54, C106: insertion at the end, conversion of B-splines to Bézier curves -/

namespace Patro.Spline

variable {K : Type} [Field K] [LinearOrder K] [IsStrictOrderedRing K] [FloorRing K]

/-- C54, at the end of a spline without given knots, for a degree that is not null: the last point is repeated, and the curve is unchanged
before the end. -/
theorem insertKnot_end (s : BSpline K) (h : IsUniform s) (hd : 1 ≤ s.degree) :
    ∃ s' p, s.points.getLast? = some p ∧ s.insertKnot ((s.points.length : K) - s.degree) = .ok s' ∧ s'.points = s.points ++ [p] ∧
      s'.degree = s.degree ∧ Valid s' ∧ s'.knots.Perm (((s.points.length : K) - s.degree) :: s.knots) ∧
      ∀ x, curve s'.knots s'.degree s'.points x = curve s.knots s.degree s.points x := by
  have hw := uniform_wellFormed h
  have hn := hw.points
  have hlen := hw.length
  have hm := knotAt_mono s.knots hw.sorted
  obtain ⟨t, et⟩ : ∃ t, t = (s.points.length : K) - s.degree := ⟨_, rfl⟩
  have hend : ∀ j, s.points.length ≤ j → knotAt s.knots j = t := by
    intro j hj
    rw [et, ← Nat.cast_sub (by omega)]
    rcases Nat.lt_or_ge j s.knots.length with h1 | h1
    · rw [uniform_knotAt h _ (by omega), min_eq_right (by omega)]
    · rw [knotAt_ge _ _ h1, ← knotAt_last _ (by omega), uniform_knotAt h _ (by omega), min_eq_right (by omega)]
  have hlt : ∀ j, j < s.points.length → knotAt s.knots j < t := by
    intro j hj
    rw [et, ← Nat.cast_sub (by omega), uniform_knotAt h _ (by omega)]
    exact_mod_cast (by omega : min (j - s.degree) (s.points.length - s.degree) < s.points.length - s.degree)
  have hspan := (span_uniform s h t).2.1 et
  have hne : s.points ≠ [] := List.length_pos_iff.1 (by omega)
  have hget : ∀ i, i < s.points.length → Py.getItem s.points i = .ok (s.points.getD i 0) := by
    intro i hi
    apply getItem_ok
    rw [List.getD_eq_getElem?_getD, List.getElem?_eq_getElem (by omega)]; rfl
  have hpt : ∀ i ∈ List.range (s.points.length + 1), insertPoint s.points s.knots s.degree s.points.length t i =
      .ok (if i < s.points.length then s.points.getD i 0 else s.points.getLast hne) := by
    intro i hi
    rw [List.mem_range] at hi
    have hw' : insertWeight s.knots s.degree s.points.length t i = .ok (if i < s.points.length then 1 else 0) := by
      unfold insertWeight
      by_cases h1 : i + s.degree ≤ s.points.length
      · rw [if_pos (by omega), if_pos (by omega)]
      · rw [if_neg (by omega), if_neg (by omega), knotAt_getItem _ _ (by omega), knotAt_getItem _ _ (by omega), hend (i + s.degree) (by omega)]
        dsimp only [bind, Except.bind, pure, Except.pure]
        by_cases h2 : i < s.points.length
        · have := hlt i h2
          rw [if_pos h2, if_pos (by simp only [gt_iff_lt, sub_pos]; exact this), div_self (sub_ne_zero.2 this.ne')]
        · rw [if_neg h2, hend i (by omega), if_neg (by simp)]
    unfold insertPoint
    rw [hw']
    dsimp only [bind, Except.bind]
    by_cases h2 : i < s.points.length
    · simp only [if_pos h2, if_neg (one_ne_zero : (1 : K) ≠ 0), if_true]
      exact hget i h2
    · simp only [if_neg h2, if_true]
      rw [show (i : Int) - 1 = ((s.points.length - 1 : Nat) : Int) by omega, getItemInt_nat]
      apply getItem_ok
      rw [List.getLast_eq_getElem, List.getElem?_eq_getElem]
  have hnew := mapM_ok_of _ _ _ hpt
  have hlist : ((List.range (s.points.length + 1)).map fun i => if i < s.points.length then s.points.getD i 0 else s.points.getLast hne) =
      s.points ++ [s.points.getLast hne] := by
    rw [List.range_succ, List.map_append, List.map_singleton, if_neg (lt_irrefl _)]
    congr 1
    apply List.ext_getElem?
    intro i
    rcases Nat.lt_or_ge i s.points.length with hi | hi
    · rw [List.getElem?_map, List.getElem?_range hi, Option.map_some, if_pos hi, List.getD_eq_getElem?_getD, List.getElem?_eq_getElem hi]; rfl
    · rw [List.getElem?_eq_none (by simpa using hi), List.getElem?_eq_none hi]
  rw [hlist] at hnew
  have hk : ∀ j, knotAt (s.knots.take (s.points.length + 1) ++ [t] ++ s.knots.drop (s.points.length + 1)) j = knotAt s.knots j := by
    intro j
    rw [knotAt_insert s.knots s.points.length t (by omega) j]
    unfold insertAt
    split
    · rfl
    · split
      · rw [hend j (by omega)]
      · rw [hend j (by omega), hend (j - 1) (by omega)]
  have hsorted : (s.knots.take (s.points.length + 1) ++ [t] ++ s.knots.drop (s.points.length + 1)).Pairwise (· ≤ ·) := by
    apply sorted_of_mono
    intro i j hij _
    rw [hk, hk]; exact hm hij.le
  have hperm : (s.knots.take (s.points.length + 1) ++ [t] ++ s.knots.drop (s.points.length + 1)).Perm (t :: s.knots) := by
    rw [List.append_assoc, List.singleton_append]
    refine List.perm_middle.trans (List.Perm.cons _ ?_)
    rw [List.take_append_drop]
  rw [← et]
  refine ⟨⟨s.points ++ [s.points.getLast hne], s.degree, false, _, false⟩, s.points.getLast hne, List.getLast?_eq_some_getLast hne, ?_, rfl, rfl,
    ⟨⟨hsorted, ?_, ?_⟩, ?_⟩, hperm, ?_⟩
  · simp only [BSpline.insertKnot, hspan]
    dsimp only [bind, Except.bind]
    rw [hnew]
    dsimp only
    rw [new_sorted _ _ _ _ hsorted]
  · rw [hperm.length_eq]; simp; omega
  · simp; omega
  · intro h; simp at h
  · intro x
    have hN : knotAt (s.knots.take (s.points.length + 1) ++ [t] ++ s.knots.drop (s.points.length + 1)) = knotAt s.knots := funext hk
    have hz : N (knotAt s.knots) s.degree s.points.length x = 0 := by
      apply N_empty _ hm
      rw [hend _ le_rfl, hend _ (by omega)]
    have hs : ∀ c d : List K, c.length = s.points.length → d.length = 1 →
        weighted (knotAt s.knots) s.degree (c ++ d) x = weighted (knotAt s.knots) s.degree c x := by
      intro c d hc hd'
      unfold weighted
      rw [List.length_append, hd', hc, Finset.sum_range_succ, hz, mul_zero, add_zero]
      apply Finset.sum_congr rfl
      intro i hi
      rw [Finset.mem_range] at hi
      rw [List.getD_eq_getElem?_getD, List.getD_eq_getElem?_getD, List.getElem?_append_left (by omega)]
    ext
    · simp only [curve, hN, List.map_append]; exact hs _ _ (by simp) (by simp)
    · simp only [curve, hN, List.map_append]; exact hs _ _ (by simp) (by simp)

/-! ## The Bézier form -/

theorem insertTimes_spec (t : K) : ∀ (k : Nat) (s : BSpline K), Valid s → InRange s t →
    ∃ s', insertTimes t k s = .ok s' ∧ Valid s' ∧ s'.degree = s.degree ∧ s'.points.length = s.points.length + k ∧
      s'.knots.Perm (List.replicate k t ++ s.knots) ∧ s'.points.getLast? = s.points.getLast? ∧ (∀ x, InRange s' x ↔ InRange s x) ∧
      ∀ x, curve s'.knots s'.degree s'.points x = curve s.knots s.degree s.points x := by
  intro k
  induction k with
  | zero => intro s hv _; exact ⟨s, rfl, hv, rfl, rfl, List.Perm.refl _, rfl, fun _ => Iff.rfl, fun _ => rfl⟩
  | succ k ih =>
    intro s hv ht
    obtain ⟨s1, a1, a2, -, a4, a5, a6, a7, a8, a9⟩ := insertKnot_spec s hv t ht
    obtain ⟨s2, b1, b2, b4, b5, b6, b7, b8, b9⟩ := ih s1 a2 ((a8 t).2 ht)
    refine ⟨s2, ?_, b2, b4.trans a4, by omega, ?_, b7.trans a7, fun x => (b8 x).trans (a8 x), fun x => (b9 x).trans (a9 x)⟩
    · simp only [insertTimes, a1]; exact b1
    · refine b6.trans ((List.Perm.append_left _ a6).trans ?_)
      rw [List.replicate_succ]
      exact List.perm_middle

theorem insertAll_spec (p : Nat) (cnt : Nat → Nat) : ∀ (ts : List Nat) (s : BSpline K), Valid s → (∀ t ∈ ts, InRange s (t : K) ∧ cnt t = p) →
    ∃ s', ts.foldlM (fun ns (t : Nat) => insertTimes (t : K) (cnt t) ns) s = .ok s' ∧ Valid s' ∧ s'.degree = s.degree ∧
      s'.points.length = s.points.length + p * ts.length ∧
      s'.knots.Perm (ts.flatMap (fun (t : Nat) => List.replicate p (t : K)) ++ s.knots) ∧ s'.points.getLast? = s.points.getLast? ∧
      (∀ x, InRange s' x ↔ InRange s x) ∧ ∀ x, curve s'.knots s'.degree s'.points x = curve s.knots s.degree s.points x := by
  intro ts
  induction ts with
  | nil => intro s hv _; exact ⟨s, rfl, hv, rfl, by simp, List.Perm.refl _, rfl, fun _ => Iff.rfl, fun _ => rfl⟩
  | cons t ts ih =>
    intro s hv ht
    obtain ⟨s1, a1, a2, a4, a5, a6, a7, a8, a9⟩ := insertTimes_spec (t : K) p s hv (ht t List.mem_cons_self).1
    obtain ⟨s2, b1, b2, b4, b5, b6, b7, b8, b9⟩ := ih s1 a2 (fun x hx => ⟨(a8 _).2 (ht x (List.mem_cons_of_mem _ hx)).1,
      (ht x (List.mem_cons_of_mem _ hx)).2⟩)
    refine ⟨s2, ?_, b2, b4.trans a4, ?_, ?_, b7.trans a7, fun x => (b8 x).trans (a8 x), fun x => (b9 x).trans (a9 x)⟩
    · rw [List.foldlM_cons, (ht t List.mem_cons_self).2, a1]; exact b1
    · rw [b5, a5, List.length_cons, Nat.mul_succ]; omega
    · refine b6.trans ((List.Perm.append_left _ a6).trans ?_)
      rw [List.flatMap_cons, ← List.append_assoc]
      exact List.Perm.append_right _ List.perm_append_comm

omit [IsStrictOrderedRing K] [FloorRing K] in
/-- For sorted knots, the multiplicity is the number of occurrences. -/
theorem multiplicity_count (a : K) : ∀ l : List K, l.Pairwise (· ≤ ·) → multiplicity a l = l.count a
  | [], _ => rfl
  | t :: ts, h => by
    obtain ⟨h1, h2⟩ := List.pairwise_cons.1 h
    rw [multiplicity]
    by_cases e : t = a
    · subst e; rw [if_pos rfl, List.count_cons_self, multiplicity_count t ts h2]
    · rw [if_neg e, List.count_cons_of_ne e]
      by_cases g : t > a
      · rw [if_pos g, eq_comm, List.count_eq_zero]
        intro hm; exact absurd (h1 a hm) (not_le.2 g)
      · rw [if_neg g, multiplicity_count a ts h2]

omit [FloorRing K] in
theorem multiplicity_uniform (s : BSpline K) (h : IsUniform s) (t : Nat) (h1 : 1 ≤ t) (h2 : t < s.points.length - s.degree) :
    multiplicity (t : K) s.knots = 1 := by
  have hw := uniform_wellFormed h
  have hn := hw.points
  rw [multiplicity_count _ _ hw.sorted]
  have hk := isUniform_knots h
  rw [uniformKnots_ok _ _ hn] at hk
  injection hk with hk
  have hnd : ((List.range (s.points.length - s.degree + 1)).map (Nat.cast : Nat → K)).Nodup := List.nodup_range.map Nat.cast_injective
  have hmem : (t : K) ∈ (List.range (s.points.length - s.degree + 1)).map (Nat.cast : Nat → K) :=
    List.mem_map.2 ⟨t, List.mem_range.2 (by omega), rfl⟩
  rw [← hk, List.count_append, List.count_append, List.count_eq_one_of_mem hnd hmem, List.count_eq_zero.2, List.count_eq_zero.2]
  · intro hm
    have := List.eq_of_mem_replicate hm
    have := Nat.cast_injective this
    omega
  · intro hm
    have := List.eq_of_mem_replicate hm
    have : t = 0 := by exact_mod_cast this
    omega

/-- Knots in blocks. -/
def blocks (p m : Nat) : List K := (List.range m).flatMap fun (i : Nat) => List.replicate (p + 1) (i : K)

omit [LinearOrder K] [IsStrictOrderedRing K] [FloorRing K] in
theorem blocks_eq (p m : Nat) : (blocks p m : List K) = (List.range (m * (p + 1))).map fun j => ((j / (p + 1) : Nat) : K) := by
  induction m with
  | zero => simp [blocks]
  | succ m ih =>
    unfold blocks at ih ⊢
    rw [List.range_succ, List.flatMap_append, ih, Nat.succ_mul, List.range_add, List.map_append]
    congr 1
    rw [List.map_map]
    simp only [List.flatMap_cons, List.flatMap_nil, List.append_nil]
    apply List.ext_getElem?
    intro j
    rcases Nat.lt_or_ge j (p + 1) with hj | hj
    · rw [List.getElem?_replicate, if_pos hj, List.getElem?_map, List.getElem?_range hj]
      simp only [Option.map_some, Function.comp]
      rw [show (m * (p + 1) + j) / (p + 1) = m by rw [Nat.mul_comm, Nat.mul_add_div (by omega), Nat.div_eq_of_lt hj]; rfl]
    · rw [List.getElem?_eq_none (by simpa using hj), List.getElem?_eq_none (by simpa using hj)]

/-- The Bézier form of a spline without given knots traces the same curve, and all its knots have the multiplicity of the degree plus one. -/
theorem toBezierForm_spec (s : BSpline K) (h : IsUniform s) :
    ∃ s', s.toBezierForm = .ok s' ∧ Valid s' ∧ s'.degree = s.degree ∧
      s'.points.length = (s.points.length - s.degree) * (s.degree + 1) ∧ s'.knots = blocks s.degree (s.points.length - s.degree + 1) ∧
      s'.points.getLast? = s.points.getLast? ∧ (∀ x, InRange s' x ↔ InRange s x) ∧
      ∀ x, curve s'.knots s'.degree s'.points x = curve s.knots s.degree s.points x := by
  obtain ⟨hv, hr, -⟩ := pointAt_uniform s h
  have hn := hv.1.points
  obtain ⟨s', a1, a2, a3, a4, a5, a6, a7, a8⟩ := insertAll_spec s.degree (fun (t : Nat) => s.degree + 1 - multiplicity (t : K) s.knots)
    (List.range' 1 (s.points.length - s.degree - 1)) s hv (by
      intro t ht
      rw [List.mem_range'_1] at ht
      refine ⟨(hr _).2 ⟨Nat.cast_nonneg _, ?_⟩, ?_⟩
      · rw [← Nat.cast_sub (by omega)]; exact_mod_cast (by omega : t < s.points.length - s.degree)
      · rw [multiplicity_uniform s h t (by omega) (by omega)]; omega)
  have hform : s.toBezierForm = .ok s' := by
    rw [BSpline.toBezierForm, if_neg (by simp [h.1])]
    exact a1
  refine ⟨s', hform, a2, a3, ?_, ?_, a6, a7, a8⟩
  · rw [a4, List.length_range']
    obtain ⟨m, hm⟩ : ∃ m, s.points.length = s.degree + (m + 1) := ⟨s.points.length - s.degree - 1, by omega⟩
    rw [hm, show s.degree + (m + 1) - s.degree - 1 = m by omega, show s.degree + (m + 1) - s.degree = m + 1 by omega]
    ring
  · apply List.Perm.eq_of_pairwise' a2.1.sorted
    · rw [blocks_eq, List.pairwise_map]
      refine List.pairwise_lt_range.imp ?_
      intro a b hab
      exact_mod_cast Nat.div_le_div_right hab.le
    · refine a5.trans ?_
      have hk := isUniform_knots h
      rw [uniformKnots_ok _ _ hn] at hk
      injection hk with hk
      rw [← hk]
      obtain ⟨m, hm⟩ : ∃ m, s.points.length = s.degree + (m + 1) := ⟨s.points.length - s.degree - 1, by omega⟩
      rw [hm, show s.degree + (m + 1) - s.degree - 1 = m by omega, show s.degree + (m + 1) - s.degree = m + 1 by omega]
      have hb : (blocks s.degree (m + 1 + 1) : List K).Perm
          ((List.range (m + 1 + 1)).flatMap (fun (i : Nat) => List.replicate s.degree (i : K)) ++ (List.range (m + 1 + 1)).map Nat.cast) := by
        refine List.Perm.symm ?_
        have := List.flatMap_append_perm (List.range (m + 1 + 1)) (fun (i : Nat) => List.replicate s.degree (i : K)) (fun (i : Nat) => [(i : K)])
        rw [← List.map_eq_flatMap] at this
        refine this.trans (List.Perm.of_eq ?_)
        unfold blocks
        congr 1
        funext i
        rw [List.replicate_succ', ]
      refine List.Perm.trans ?_ hb.symm
      have hr : List.range (m + 1 + 1) = 0 :: List.range' 1 m ++ [m + 1] := by
        rw [List.range_succ, List.range_eq_range', List.range'_succ]
      rw [show (List.range (m + 1 + 1)).flatMap (fun (i : Nat) => List.replicate s.degree (i : K)) = List.replicate s.degree 0 ++
        (List.range' 1 m).flatMap (fun (i : Nat) => List.replicate s.degree (i : K)) ++ List.replicate s.degree ((m + 1 : Nat) : K) by
          rw [hr, List.flatMap_append, List.flatMap_cons]; simp]
      generalize (List.range' 1 m).flatMap (fun (i : Nat) => List.replicate s.degree (i : K)) = A
      generalize (List.range (m + 1 + 1)).map (Nat.cast : Nat → K) = B
      generalize List.replicate s.degree (0 : K) = C
      generalize List.replicate s.degree ((m + 1 : Nat) : K) = D
      rw [List.perm_iff_count]
      intro a
      simp only [List.count_append]
      omega

omit [FloorRing K] in
/-- In a span between two knots of multiplicity `p + 1`, the basis functions are the Bernstein polynomials. -/
theorem N_block (u : Nat → K) (b p : Nat) (a t : K) (h0 : ∀ j, j ≤ p → u (b + j) = a) (h1 : ∀ j, j ≤ p → u (b + p + 1 + j) = a + 1)
    (ht0 : a ≤ t) (ht1 : t < a + 1) :
    ∀ k, k ≤ p → ∀ j, j ≤ k → N u k (b + p - k + j) t = (k.choose j : K) * (t - a) ^ j * (1 - (t - a)) ^ (k - j) := by
  intro k
  induction k with
  | zero =>
    intro _ j hj
    have : j = 0 := by omega
    subst this
    have e0 := h0 p le_rfl
    have e1 := h1 0 (by omega)
    rw [Nat.add_zero] at e1
    rw [N, Nat.sub_zero, Nat.add_zero, e0, e1, if_pos ⟨ht0, ht1⟩]
    simp
  | succ k ih =>
    intro hk j hj
    rw [N]
    have e0 : u (b + p - (k + 1) + j) = a := by
      rw [show b + p - (k + 1) + j = b + (p - (k + 1) + j) by omega]; exact h0 _ (by omega)
    have e3 : u (b + p - (k + 1) + j + k + 2) = a + 1 := by
      rw [show b + p - (k + 1) + j + k + 2 = b + p + 1 + j by omega]; exact h1 _ (by omega)
    rw [e0, e3]
    rcases Nat.eq_zero_or_pos j with hj0 | hj0
    · subst hj0
      have e1 : u (b + p - (k + 1) + 0 + k + 1) = a := by
        rw [show b + p - (k + 1) + 0 + k + 1 = b + p by omega]; exact h0 _ le_rfl
      have e2 : u (b + p - (k + 1) + 0 + 1) = a := by
        rw [show b + p - (k + 1) + 0 + 1 = b + (p - k) by omega]; exact h0 _ (by omega)
      rw [e1, e2, if_pos rfl, if_neg (by simp), show b + p - (k + 1) + 0 + 1 = b + p - k + 0 by omega, ih (by omega) 0 (by omega)]
      simp only [Nat.choose_zero_right, pow_zero, Nat.sub_zero, pow_succ]
      rw [show a + 1 - a = 1 by ring, div_one]
      push_cast
      ring
    · have e1 : u (b + p - (k + 1) + j + k + 1) = a + 1 := by
        rw [show b + p - (k + 1) + j + k + 1 = b + p + 1 + (j - 1) by omega]; exact h1 _ (by omega)
      rw [e1, if_neg (by simp), show a + 1 - a = 1 by ring, div_one]
      obtain ⟨j, rfl⟩ : ∃ i, j = i + 1 := ⟨j - 1, by omega⟩
      rw [show b + p - (k + 1) + (j + 1) = b + p - k + j by omega, ih (by omega) j (by omega)]
      rcases Nat.lt_or_ge j k with hjk | hjk
      · have e2 : u (b + p - k + j + 1) = a := by
          rw [show b + p - k + j + 1 = b + (p - k + j + 1) by omega]; exact h0 _ (by omega)
        rw [e2, if_neg (by simp), show a + 1 - a = 1 by ring, div_one, show b + p - k + j + 1 = b + p - k + (j + 1) by omega,
          ih (by omega) (j + 1) (by omega), Nat.choose_succ_succ]
        obtain ⟨q, hq⟩ : ∃ q, k - j = q + 1 := ⟨k - j - 1, by omega⟩
        rw [show k + 1 - (j + 1) = q + 1 by omega, show k - (j + 1) = q by omega, hq]
        push_cast
        ring
      · have : j = k := by omega
        subst this
        have e2 : u (b + p - j + j + 1) = a + 1 := by
          rw [show b + p - j + j + 1 = b + p + 1 + 0 by omega]; exact h1 _ (by omega)
        rw [e2, if_pos rfl]
        simp only [Nat.choose_self, Nat.sub_self, pow_zero]
        ring

/-- The points of a block give the curve of the span. -/
theorem block_curve (s : BSpline K) (hw : WellFormed s) (m : Nat) (hpts : s.points.length = m * (s.degree + 1))
    (hk : s.knots = blocks s.degree (m + 1)) (i : Nat) (hi : i < m) (x : K) (hx0 : 0 ≤ x) (hx1 : x < 1) (f : Nat → K) :
    ∑ j ∈ Finset.range s.points.length, f j * N (knotAt s.knots) s.degree j (i + x) =
    ∑ j ∈ Finset.range (s.degree + 1), f (i * (s.degree + 1) + j) * ((s.degree.choose j : K) * x ^ j * (1 - x) ^ (s.degree - j)) := by
  have hm := knotAt_mono s.knots hw.sorted
  have hu : ∀ i' j, i' ≤ m → j ≤ s.degree → knotAt s.knots (i' * (s.degree + 1) + j) = (i' : K) := by
    intro i' j hi' hj
    have hlt : i' * (s.degree + 1) + j < (m + 1) * (s.degree + 1) := by
      have := Nat.mul_le_mul_right (s.degree + 1) (by omega : i' + 1 ≤ m + 1)
      rw [Nat.succ_mul] at this
      omega
    have h1 : s.knots[i' * (s.degree + 1) + j]? = some (i' : K) := by
      rw [hk, blocks_eq, List.getElem?_map, List.getElem?_range hlt, Option.map_some, Nat.mul_comm, Nat.mul_add_div (by omega),
        Nat.div_eq_of_lt (by omega), Nat.add_zero]
    have hl := (List.getElem?_eq_some_iff.1 h1).1
    rw [knotAt_lt _ _ hl] at h1
    injection h1
  have e1 : knotAt s.knots (i * (s.degree + 1) + s.degree) = (i : K) := hu i s.degree (by omega) le_rfl
  have e2 : knotAt s.knots (i * (s.degree + 1) + s.degree + 1) = (i : K) + 1 := by
    have := hu (i + 1) 0 (by omega) (by omega)
    rw [Nat.succ_mul] at this
    rw [Nat.add_assoc]
    simpa using this
  have hlast : i * (s.degree + 1) + s.degree < s.points.length := by
    rw [hpts]
    have := Nat.mul_le_mul_right (s.degree + 1) (by omega : i + 1 ≤ m)
    rw [Nat.succ_mul] at this
    omega
  rw [weighted_span _ hm s.degree (i * (s.degree + 1) + s.degree) s.points.length f (i + x) (by omega) hlast (by rw [e1]; linarith)
    (by rw [e2]; linarith)]
  apply Finset.sum_congr rfl
  intro j hj
  rw [Finset.mem_range] at hj
  rw [Nat.add_sub_cancel]
  congr 1
  have := N_block (knotAt s.knots) (i * (s.degree + 1)) s.degree (i : K) (i + x) (fun j hj => hu i j (by omega) hj)
    (fun j hj => by
      have := hu (i + 1) j (by omega) hj
      rw [Nat.succ_mul] at this
      rw [Nat.add_assoc (i * (s.degree + 1))]
      simpa using this) (by linarith) (by linarith) s.degree le_rfl j (by omega)
  rw [Nat.add_sub_cancel, show (i : K) + x - i = x by ring] at this
  exact this

theorem slice3 (l : List (Vec K)) (b : Nat) (h : b + 3 ≤ l.length) :
    (l.drop b).take 3 = [l.getD (b + 0) 0, l.getD (b + 1) 0, l.getD (b + 2) 0] := by
  apply List.ext_getElem?
  intro i
  rcases Nat.lt_or_ge i 3 with hi | hi
  · rw [List.getElem?_take, if_pos hi, List.getElem?_drop, List.getElem?_eq_getElem (by omega)]
    interval_cases i <;> simp [List.getD_eq_getElem?_getD] <;> rw [List.getElem?_eq_getElem (by omega)] <;> rfl
  · rw [List.getElem?_eq_none (by simp; omega), List.getElem?_eq_none (by simp; omega)]

theorem slice4 (l : List (Vec K)) (b : Nat) (h : b + 4 ≤ l.length) :
    (l.drop b).take 4 = [l.getD (b + 0) 0, l.getD (b + 1) 0, l.getD (b + 2) 0, l.getD (b + 3) 0] := by
  apply List.ext_getElem?
  intro i
  rcases Nat.lt_or_ge i 4 with hi | hi
  · rw [List.getElem?_take, if_pos hi, List.getElem?_drop, List.getElem?_eq_getElem (by omega)]
    interval_cases i <;> simp [List.getD_eq_getElem?_getD] <;> rw [List.getElem?_eq_getElem (by omega)] <;> rfl
  · rw [List.getElem?_eq_none (by simp; omega), List.getElem?_eq_none (by simp; omega)]

theorem mapM_getElem {α β : Type} (f : α → Except PyErr β) (g : α → β) (l : List α) (h : ∀ a ∈ l, f a = .ok (g a)) :
    l.mapM f = .ok (l.map g) := mapM_ok_of f g l h

/-- C106. A spline of degree 2 or 3 without given knots and not closed is converted to as many Bézier curves as it has spans; each traces
the spline on its span, and the last one ends at the last control point. -/
theorem toBezier_spec (s : BSpline K) (h : IsUniform s) (hc : s.closed = false) (hd : s.degree = 2 ∨ s.degree = 3) :
    ∃ cs, s.toBezier = .ok cs ∧ cs.length = s.points.length - s.degree ∧
      (∀ (i : Nat) (c : Curve K), cs[i]? = some c → ∀ x : K, 0 ≤ x → x < 1 → s.pointAt (i + x) = .ok (c.pointAt x)) ∧
      ∃ c, cs.getLast? = some c ∧ s.pointAt ((s.points.length : K) - s.degree) = .ok (c.pointAt 1) := by
  obtain ⟨hv, hr, -, ⟨pe, hpe1, hpe2⟩, -⟩ := pointAt_uniform s h
  obtain ⟨s', a1, a2, a3, a4, a5, a6, a7, a8⟩ := toBezierForm_spec s h
  have hn := hv.1.points
  obtain ⟨m, hm⟩ : ∃ m, m = s.points.length - s.degree := ⟨_, rfl⟩
  rw [← hm] at a4 a5
  have hm1 : 1 ≤ m := by omega
  have hspans : s.numberOfSpans = .ok m := by
    rw [BSpline.numberOfSpans, if_pos h.1, hc, hm]; rfl
  have hrange : ∀ i : Nat, i < m → ∀ x : K, 0 ≤ x → x < 1 → s.pointAt (i + x) = .ok (curve s'.knots s'.degree s'.points (i + x)) := by
    intro i hi x hx0 hx1
    rw [a8]
    apply pointAt_curve s hv
    rw [hr]
    refine ⟨by positivity, ?_⟩
    rw [← Nat.cast_sub (by omega), ← hm]
    have : ((i + 1 : Nat) : K) ≤ (m : K) := by exact_mod_cast hi
    push_cast at this
    linarith
  have hblock : ∀ i, i < m → i * (s.degree + 1) + (s.degree + 1) ≤ s'.points.length := by
    intro i hi
    rw [a4]
    have := Nat.mul_le_mul_right (s.degree + 1) (by omega : i + 1 ≤ m)
    rw [Nat.succ_mul] at this
    omega
  have hcurve : ∀ i : Nat, i < m → ∀ x : K, 0 ≤ x → x < 1 → ∀ f : Nat → K,
      ∑ j ∈ Finset.range s'.points.length, f j * N (knotAt s'.knots) s'.degree j (i + x) =
      ∑ j ∈ Finset.range (s'.degree + 1), f (i * (s'.degree + 1) + j) * ((s'.degree.choose j : K) * x ^ j * (1 - x) ^ (s'.degree - j)) := by
    intro i hi x hx0 hx1 f
    exact block_curve s' a2.1 m (by rw [a3]; exact a4) (by rw [a3]; exact a5) i hi x hx0 hx1 f
  have hlast : s'.points.getD (m * (s.degree + 1) - 1) 0 = pe := by
    rw [← a4, List.getD_eq_getElem?_getD, ← List.getLast?_eq_getElem?, a6, hpe1]; rfl
  rcases hd with hd | hd
  · obtain ⟨g, hg⟩ : ∃ g : Nat → Curve K, g = fun i => .quad ⟨s'.points.getD (i * 3 + 0) 0, s'.points.getD (i * 3 + 1) 0, s'.points.getD (i * 3 + 2) 0⟩ :=
      ⟨_, rfl⟩
    have hgo : s.toBezier = .ok ((List.range m).map g) := by
      simp only [BSpline.toBezier, a1, hspans]
      dsimp only [bind, Except.bind]
      apply mapM_ok_of
      intro i hi
      rw [List.mem_range] at hi
      have hb := hblock i hi
      rw [hd] at hb
      rw [a3, hd, slice3 _ _ hb, hg]
      rfl
    refine ⟨_, hgo, by simp [hm], ?_, g (m - 1), ?_, ?_⟩
    · intro i c hc x hx0 hx1
      have hi : i < m := by
        have := (List.getElem?_eq_some_iff.1 hc).1
        simpa using this
      rw [List.getElem?_map, List.getElem?_range hi] at hc
      simp only [Option.map_some, Option.some.injEq] at hc
      rw [hrange i hi x hx0 hx1, ← hc, hg]
      congr 1
      have hcv := hcurve i hi x hx0 hx1
      rw [a3, hd] at hcv
      rw [a3, hd]
      ext
      · simp only [curve, weighted, List.length_map]
        rw [hcv (fun j => (s'.points.map Vec.x).getD j 0)]
        simp only [Finset.sum_range_succ, Finset.sum_range_zero, getD_map_x, Curve.pointAt, Bezier.Quad.pointAt, Vec.add_x, Vec.smul_x]
        simp [Nat.choose]
        ring
      · simp only [curve, weighted, List.length_map]
        rw [hcv (fun j => (s'.points.map Vec.y).getD j 0)]
        simp only [Finset.sum_range_succ, Finset.sum_range_zero, getD_map_y, Curve.pointAt, Bezier.Quad.pointAt, Vec.add_y, Vec.smul_y]
        simp [Nat.choose]
        ring
    · rw [List.getLast?_eq_getElem?, List.length_map, List.length_range, List.getElem?_map, List.getElem?_range (by omega)]; rfl
    · rw [hpe2, hg]
      congr 1
      rw [hd] at hlast
      rw [← hlast, show m * (2 + 1) - 1 = (m - 1) * 3 + 2 by omega]
      ext <;> simp [Curve.pointAt, Bezier.Quad.pointAt]
  · obtain ⟨g, hg⟩ : ∃ g : Nat → Curve K, g = fun i => .cubic ⟨s'.points.getD (i * 4 + 0) 0, s'.points.getD (i * 4 + 1) 0,
      s'.points.getD (i * 4 + 2) 0, s'.points.getD (i * 4 + 3) 0⟩ := ⟨_, rfl⟩
    have hgo : s.toBezier = .ok ((List.range m).map g) := by
      simp only [BSpline.toBezier, a1, hspans]
      dsimp only [bind, Except.bind]
      apply mapM_ok_of
      intro i hi
      rw [List.mem_range] at hi
      have hb := hblock i hi
      rw [hd] at hb
      rw [a3, hd, slice4 _ _ hb, hg]
      rfl
    refine ⟨_, hgo, by simp [hm], ?_, g (m - 1), ?_, ?_⟩
    · intro i c hc x hx0 hx1
      have hi : i < m := by
        have := (List.getElem?_eq_some_iff.1 hc).1
        simpa using this
      rw [List.getElem?_map, List.getElem?_range hi] at hc
      simp only [Option.map_some, Option.some.injEq] at hc
      rw [hrange i hi x hx0 hx1, ← hc, hg]
      congr 1
      have hcv := hcurve i hi x hx0 hx1
      rw [a3, hd] at hcv
      rw [a3, hd]
      ext
      · simp only [curve, weighted, List.length_map]
        rw [hcv (fun j => (s'.points.map Vec.x).getD j 0)]
        simp only [Finset.sum_range_succ, Finset.sum_range_zero, getD_map_x, Curve.pointAt, Bezier.Cubic.pointAt, Vec.add_x, Vec.sub_x, Vec.smul_x]
        simp [Nat.choose]
        ring
      · simp only [curve, weighted, List.length_map]
        rw [hcv (fun j => (s'.points.map Vec.y).getD j 0)]
        simp only [Finset.sum_range_succ, Finset.sum_range_zero, getD_map_y, Curve.pointAt, Bezier.Cubic.pointAt, Vec.add_y, Vec.sub_y, Vec.smul_y]
        simp [Nat.choose]
        ring
    · rw [List.getLast?_eq_getElem?, List.length_map, List.length_range, List.getElem?_map, List.getElem?_range (by omega)]; rfl
    · rw [hpe2, hg]
      congr 1
      rw [hd] at hlast
      rw [← hlast, show m * (3 + 1) - 1 = (m - 1) * 4 + 3 by omega]
      ext <;> simp [Curve.pointAt, Bezier.Cubic.pointAt] <;> ring

theorem mapM_error {α β : Type} (f : α → Except PyErr β) (e : PyErr) : ∀ (l : List α) (k : Nat) (g : α → β) (a : α),
    l[k]? = some a → f a = .error e → (∀ i b, i < k → l[i]? = some b → f b = .ok (g b)) → l.mapM f = .error e
  | [], k, g, a, h, _, _ => by simp at h
  | x :: l, 0, g, a, h, he, _ => by
    simp only [List.getElem?_cons_zero, Option.some.injEq] at h
    subst h
    rw [List.mapM_cons, he]; rfl
  | x :: l, k + 1, g, a, h, he, hok => by
    rw [List.mapM_cons, hok 0 x (by omega) rfl, mapM_error f e l k g a (by simpa using h) he
      (fun i b hi hb => hok (i + 1) b (by omega) (by simpa using hb))]
    rfl

/-- C106 is false of closed splines, of degree 2 or 3, without given knots: one span more than the curve has is looked for, and
`TypeError` is raised. -/
theorem toBezier_closed_wrong (s : BSpline K) (h : IsUniform s) (hc : s.closed = true) (hd : s.degree = 2 ∨ s.degree = 3) :
    s.toBezier = .error .typeError := by
  obtain ⟨s', a1, a2, a3, a4, a5, a6, a7, a8⟩ := toBezierForm_spec s h
  have hw := uniform_wellFormed h
  have hn := hw.points
  obtain ⟨m, hm⟩ : ∃ m, m = s.points.length - s.degree := ⟨_, rfl⟩
  rw [← hm] at a4 a5
  have hspans : s.numberOfSpans = .ok (m + 1) := by
    rw [BSpline.numberOfSpans, if_pos h.1, hc, hm]; rfl
  have hblock : ∀ i, i < m → i * (s.degree + 1) + (s.degree + 1) ≤ s'.points.length := by
    intro i hi
    rw [a4]
    have := Nat.mul_le_mul_right (s.degree + 1) (by omega : i + 1 ≤ m)
    rw [Nat.succ_mul] at this
    omega
  simp only [BSpline.toBezier, a1, hspans]
  dsimp only [bind, Except.bind]
  rcases hd with hd | hd
  · apply mapM_error _ _ _ m (fun i => .quad ⟨s'.points.getD (i * 3 + 0) 0, s'.points.getD (i * 3 + 1) 0, s'.points.getD (i * 3 + 2) 0⟩) m
      (List.getElem?_range (by omega))
    · rw [a3, List.drop_eq_nil_of_le (by omega), hd]; rfl
    · intro i b hi hb
      rw [List.getElem?_range (by omega)] at hb
      injection hb with hb
      subst hb
      have hb := hblock i hi
      rw [hd] at hb
      rw [a3, hd, slice3 _ _ hb]
      rfl
  · apply mapM_error _ _ _ m (fun i => .cubic ⟨s'.points.getD (i * 4 + 0) 0, s'.points.getD (i * 4 + 1) 0, s'.points.getD (i * 4 + 2) 0,
      s'.points.getD (i * 4 + 3) 0⟩) m (List.getElem?_range (by omega))
    · rw [a3, List.drop_eq_nil_of_le (by omega), hd]; rfl
    · intro i b hi hb
      rw [List.getElem?_range (by omega)] at hb
      injection hb with hb
      subst hb
      have hb := hblock i hi
      rw [hd] at hb
      rw [a3, hd, slice4 _ _ hb]
      rfl

omit [Field K] [LinearOrder K] [IsStrictOrderedRing K] [FloorRing K] in
theorem makeCurve_low (p : Nat) (l : List (Vec K)) (h : p < 2) : makeCurve p l = .error .unboundLocalError := by
  unfold makeCurve
  rw [if_neg (by omega), if_neg (by omega)]

omit [Field K] [LinearOrder K] [IsStrictOrderedRing K] [FloorRing K] in
theorem makeCurve_high (p : Nat) (l : List (Vec K)) (h : 3 < p) (hl : l.length = p + 1) : makeCurve p l = .error .typeError := by
  unfold makeCurve
  rw [if_neg (by omega), if_pos (by omega)]
  rcases l with _ | ⟨a, _ | ⟨b, _ | ⟨c, _ | ⟨d, _ | ⟨e, l⟩⟩⟩⟩⟩ <;> simp at hl <;> first | omega | rfl

/-- C106 is false of the other degrees: below 2 `UnboundLocalError` is raised, above 3 `TypeError`. -/
theorem toBezier_degree_wrong (s : BSpline K) (h : IsUniform s) :
    (s.degree < 2 → s.toBezier = .error .unboundLocalError) ∧ (3 < s.degree → s.toBezier = .error .typeError) := by
  obtain ⟨s', a1, a2, a3, a4, a5, a6, a7, a8⟩ := toBezierForm_spec s h
  have hw := uniform_wellFormed h
  have hn := hw.points
  obtain ⟨m, hm⟩ : ∃ m, s.points.length - s.degree = m + 1 := ⟨s.points.length - s.degree - 1, by omega⟩
  obtain ⟨n, hspans⟩ : ∃ n, s.numberOfSpans = .ok (n + 1) := by
    rw [BSpline.numberOfSpans, if_pos h.1, hm]
    exact ⟨m + if s.closed then 1 else 0, by congr 1; omega⟩
  have hgo : s.toBezier = (List.range (n + 1)).mapM fun i => makeCurve s.degree ((s'.points.drop (i * (s.degree + 1))).take (s.degree + 1)) := by
    simp only [BSpline.toBezier, a1, hspans]
    dsimp only [bind, Except.bind]
    rw [a3]
  constructor
  · intro hd
    rw [hgo, List.range_eq_range', List.range'_succ, List.mapM_cons, makeCurve_low _ _ hd]
    rfl
  · intro hd
    rw [hgo, List.range_eq_range', List.range'_succ, List.mapM_cons, makeCurve_high _ _ hd]
    · rfl
    · rw [Nat.zero_mul, List.drop_zero, List.length_take, a4, hm, Nat.succ_mul]
      omega

/-- C106 is false of splines with given knots: the conversion raises `ValueError`. -/
theorem toBezier_given_wrong (s : BSpline K) (hu : s.uniform = false) : s.toBezier = .error .valueError := by
  simp only [BSpline.toBezier, BSpline.toBezierForm, hu]; rfl

example : sample.toBezier = .ok [.quad ⟨⟨0, 0⟩, ⟨1, 2⟩, ⟨2, 5 / 2⟩⟩, .quad ⟨⟨2, 5 / 2⟩, ⟨3, 3⟩, ⟨4, 0⟩⟩] := by decide +kernel

end Patro.Spline
