import Verif.Proof.Spline
import Mathlib.Tactic.NormNum
import Mathlib.Data.Rat.Floor
import Mathlib.Data.List.GetD
import Mathlib.Data.List.Sort
import Mathlib.Data.List.Perm.Basic
import Mathlib.Data.Nat.Choose.Basic
/-! # C50–C54: B-splines -/

namespace Patro.Spline

variable {K : Type _} [Field K] [LinearOrder K]

/-! ## Indexing -/

theorem getItem_ok {α : Type _} {l : List α} {i : Nat} {x : α} (h : l[i]? = some x) : Py.getItem l i = .ok x := by
  simp [Py.getItem, h]

theorem getItemInt_nat {α : Type _} (l : List α) (i : Nat) : Py.getItemInt l (i : Int) = Py.getItem l i := by
  rw [Py.getItemInt, if_pos (by omega), Int.toNat_natCast]

theorem getItemInt_last {α : Type _} (l : List α) (h : l ≠ []) : Py.getItemInt l (-1) = .ok (l.getLast h) := by
  have hl := List.length_pos_iff.2 h
  rw [Py.getItemInt, if_neg (by omega), if_pos (by omega)]
  apply getItem_ok
  rw [show (-1 + (l.length : Int)).toNat = l.length - 1 by omega, List.getLast_eq_getElem, List.getElem?_eq_getElem]

theorem knotAt_lt (knots : List K) (i : Nat) (h : i < knots.length) : knots[i]? = some (knotAt knots i) := by
  rw [knotAt, List.getD_eq_getElem?_getD, List.getElem?_eq_getElem h]; simp

theorem knotAt_getItem (knots : List K) (i : Nat) (h : i < knots.length) : Py.getItem knots i = .ok (knotAt knots i) :=
  getItem_ok (knotAt_lt knots i h)

theorem knotAt_ge (knots : List K) (i : Nat) (h : knots.length ≤ i) : knotAt knots i = knots.getLastD 0 := by
  rw [knotAt, List.getD_eq_default _ _ h]

theorem knotAt_last (knots : List K) (h : 0 < knots.length) : knotAt knots (knots.length - 1) = knots.getLastD 0 := by
  have h1 := knotAt_lt knots (knots.length - 1) (by omega)
  have hne : knots ≠ [] := List.length_pos_iff.1 h
  rw [List.getLastD_eq_getLast?, List.getLast?_eq_getElem?, h1]
  rfl

theorem knotAt_mono (knots : List K) (h : knots.Pairwise (· ≤ ·)) : Monotone (knotAt knots) := by
  apply monotone_nat_of_le_succ
  intro i
  rcases Nat.lt_trichotomy (i + 1) knots.length with h1 | h1 | h1
  · have := List.pairwise_iff_getElem.1 h i (i + 1) (by omega) h1 (by omega)
    have e1 := knotAt_lt knots i (by omega)
    have e2 := knotAt_lt knots (i + 1) h1
    rw [List.getElem?_eq_getElem (by omega)] at e1 e2
    injection e1 with e1
    injection e2 with e2
    rwa [e1, e2] at this
  · rw [knotAt_ge knots (i + 1) (by omega), show i = knots.length - 1 by omega, knotAt_last knots (by omega)]
  · rw [knotAt_ge knots (i + 1) (by omega), knotAt_ge knots i (by omega)]

/-! ## C50 -/

theorem uniformKnots_ok (p n : Nat) (h : p + 1 ≤ n) :
    uniformKnots (K := K) p n = .ok (List.replicate p 0 ++ (List.range (n - p + 1)).map (Nat.cast : Nat → K) ++ List.replicate p ((n - p : Nat) : K)) := by
  simp only [uniformKnots]
  rw [if_neg (by omega)]

theorem uniform_knot (p n : Nat) (knots : List K) (h : uniformKnots p n = .ok knots) :
    p + 1 ≤ n ∧ knots.length = n + p + 1 ∧ ∀ i, i < n + p + 1 → knots[i]? = some (((min (i - p) (n - p) : Nat)) : K) := by
  simp only [uniformKnots] at h
  split at h
  · simp at h
  · rename_i hn
    injection h with h
    subst h
    refine ⟨by omega, by simp; omega, ?_⟩
    intro i hi
    rcases Nat.lt_or_ge i p with h1 | h1
    · rw [List.getElem?_append_left (by simp; omega), List.getElem?_append_left (by simp; omega), List.getElem?_replicate, if_pos h1]
      rw [show i - p = 0 by omega]; simp
    · rcases Nat.lt_or_ge i (n + 1) with h2 | h2
      · rw [List.getElem?_append_left (by simp; omega), List.getElem?_append_right (by simp; omega), List.length_replicate,
          List.getElem?_map, List.getElem?_range (by omega), Option.map_some, min_eq_left (by omega)]
      · rw [List.getElem?_append_right (by simp; omega), List.getElem?_replicate, if_pos (by simp; omega), min_eq_right (by omega)]

/-- C50. For at least `p + 1` points, the knots are `n + p + 1` numbers: the knot of index `i` is `i - p`, cut to the range from 0 to
`n - p`. So they do not decrease, the `p + 1` first ones are 0 and the `p + 1` last ones are `n - p`. For fewer points `ValueError` is
raised. -/
theorem uniformKnots_spec [IsStrictOrderedRing K] (p n : Nat) :
    (n < p + 1 → uniformKnots (K := K) p n = .error .valueError) ∧
    (p + 1 ≤ n → ∃ knots : List K, uniformKnots p n = .ok knots ∧ knots.length = n + p + 1 ∧ knots.Pairwise (· ≤ ·) ∧
      (∀ i, i ≤ p → knots[i]? = some 0) ∧ (∀ i, n ≤ i → i ≤ n + p → knots[i]? = some ((n : K) - p)) ∧
      ∀ i, i ≤ n - p → knots[p + i]? = some (i : K)) := by
  constructor
  · intro h; simp only [uniformKnots]; rw [if_pos h]
  · intro h
    obtain ⟨knots, hk⟩ : ∃ knots : List K, uniformKnots p n = .ok knots := ⟨_, uniformKnots_ok p n h⟩
    obtain ⟨-, hl, hi⟩ := uniform_knot p n knots hk
    refine ⟨knots, hk, hl, ?_, ?_, ?_, ?_⟩
    · rw [List.pairwise_iff_getElem]
      intro i j hi' hj' hij
      have e1 := hi i (by omega)
      have e2 := hi j (by omega)
      rw [List.getElem?_eq_getElem (by omega)] at e1 e2
      injection e1 with e1
      injection e2 with e2
      rw [e1, e2]
      exact_mod_cast (by omega : min (i - p) (n - p) ≤ min (j - p) (n - p))
    · intro i h'; rw [hi i (by omega), show i - p = 0 by omega]; simp
    · intro i h1 h2
      rw [hi i (by omega), min_eq_right (by omega), Nat.cast_sub (by omega)]
    · intro i h'; rw [hi (p + i) (by omega), show min (p + i - p) (n - p) = i by omega]

example : uniformKnots (K := ℚ) 2 4 = .ok [0, 0, 0, 1, 2, 2, 2] := by decide +kernel
example : uniformKnots (K := ℚ) 3 3 = .error .valueError := by decide +kernel

/-! ## C51 -/

/-- What the constructor makes of the default knots. -/
theorem isUniform_knots {s : BSpline K} (h : IsUniform s) : uniformKnots s.degree s.points.length = .ok s.knots := by
  obtain ⟨-, h⟩ := h
  simp only [BSpline.new] at h
  cases hk : uniformKnots (K := K) s.degree s.points.length with
  | error e => rw [hk] at h; simp [bind, Except.bind] at h
  | ok k =>
    rw [hk] at h
    simp only [bind, Except.bind, pure, Except.pure, Except.ok.injEq] at h
    rw [← h]

theorem uniform_wellFormed [IsStrictOrderedRing K] {s : BSpline K} (h : IsUniform s) : WellFormed s := by
  have hk := isUniform_knots h
  obtain ⟨hn, hl, -⟩ := uniform_knot _ _ _ hk
  obtain ⟨k', hk', -, hs, -⟩ := (uniformKnots_spec (K := K) s.degree s.points.length).2 hn
  rw [hk] at hk'
  injection hk' with e
  exact ⟨e ▸ hs, hl, hn⟩

/-- The knots of a spline without given knots. -/
theorem uniform_knotAt {s : BSpline K} (h : IsUniform s) (i : Nat) (hi : i ≤ s.points.length + s.degree) :
    knotAt s.knots i = (min (i - s.degree) (s.points.length - s.degree) : Nat) := by
  obtain ⟨hn, hl, hk⟩ := uniform_knot _ _ _ (isUniform_knots h)
  have := hk i (by omega)
  rw [knotAt_lt s.knots i (by omega)] at this
  injection this

variable [IsStrictOrderedRing K] [FloorRing K]

/-- C51, splines without given knots: the range is from 0 to the number of points minus the degree. Inside, `span` gives the index of
the knots around `t`; at the end, it gives the number of points, which is not such an index. Outside it raises `ValueError`. -/
theorem span_uniform (s : BSpline K) (h : IsUniform s) (t : K) :
    (0 ≤ t → t < (s.points.length : K) - s.degree → ∃ l, s.span t = .ok (some l) ∧ s.degree ≤ l ∧ l < s.points.length ∧
      ∃ a b, s.knots[l]? = some a ∧ s.knots[l + 1]? = some b ∧ a ≤ t ∧ t < b) ∧
    (t = (s.points.length : K) - s.degree → s.span t = .ok (some s.points.length)) ∧
    (t < 0 ∨ (s.points.length : K) - s.degree < t → s.span t = .error .valueError) := by
  have hwf := uniform_wellFormed h
  have hlen := hwf.length
  have hn := hwf.points
  have hspan : s.span t = if ¬ (0 ≤ t ∧ t ≤ (s.points.length : K) - s.degree) then .error .valueError
      else .ok (some (⌊t⌋.toNat + s.degree)) := by
    simp only [BSpline.span, BSpline.startKnot, BSpline.endKnot, h.1, if_true]
    rfl
  have hcast : ((s.points.length - s.degree : Nat) : K) = (s.points.length : K) - s.degree := Nat.cast_sub (by omega)
  refine ⟨fun h0 h1 => ?_, fun h1 => ?_, fun h1 => ?_⟩
  · rw [hspan, if_neg (not_not.2 ⟨h0, h1.le⟩)]
    have hf0 : 0 ≤ ⌊t⌋ := Int.floor_nonneg.2 h0
    obtain ⟨k, hk⟩ := Int.eq_ofNat_of_zero_le hf0
    have hk1 : (k : K) ≤ t := by
      have := Int.floor_le t; rw [hk] at this; exact_mod_cast this
    have hk2 : t < (k : K) + 1 := by
      have := Int.lt_floor_add_one t; rw [hk] at this; exact_mod_cast this
    have hkn : k < s.points.length - s.degree := by
      rw [← hcast] at h1
      exact_mod_cast lt_of_le_of_lt hk1 h1
    rw [hk, Int.toNat_natCast]
    refine ⟨k + s.degree, rfl, by omega, by omega, _, _, knotAt_lt _ _ (by omega), knotAt_lt _ _ (by omega), ?_, ?_⟩
    · rw [uniform_knotAt h _ (by omega), show min (k + s.degree - s.degree) (s.points.length - s.degree) = k by omega]; exact hk1
    · rw [uniform_knotAt h _ (by omega), show min (k + s.degree + 1 - s.degree) (s.points.length - s.degree) = k + 1 by omega]
      push_cast; exact hk2
  · rw [hspan, if_neg]
    · rw [h1, ← hcast, Int.floor_natCast, Int.toNat_natCast]
      congr 2
      omega
    · rw [h1, not_not]
      exact ⟨hcast ▸ Nat.cast_nonneg _, le_rfl⟩
  · rw [hspan, if_pos]
    rintro ⟨h2, h3⟩
    rcases h1 with h1 | h1
    · exact absurd h2 (not_le.2 h1)
    · exact absurd h3 (not_le.2 h1)

/-- C51, splines with given knots: the range is from the first knot to the last one. Inside, `span` gives the index of the knots around
`t`; at the end, it gives `None`; outside it raises `ValueError`. -/
theorem span_given (s : BSpline K) (hu : s.uniform = false) (hs : s.knots.Pairwise (· ≤ ·)) (t a b : K)
    (ha : s.knots.head? = some a) (hb : s.knots.getLast? = some b) :
    (a ≤ t → t < b → ∃ l, s.span t = .ok (some l) ∧ ∃ x y, s.knots[l]? = some x ∧ s.knots[l + 1]? = some y ∧ x ≤ t ∧ t < y) ∧
    (t = b → s.span t = .ok none) ∧ (t < a ∨ b < t → s.span t = .error .valueError) := by
  have hne : s.knots ≠ [] := by rintro e; rw [e] at ha; simp at ha
  have hstart : s.startKnot = .ok a := by
    rw [BSpline.startKnot, hu]
    simp only [Bool.false_eq_true, if_false]
    exact getItem_ok (by rw [← List.head?_eq_getElem?]; exact ha)
  have hstop : s.endKnot = .ok b := by
    rw [BSpline.endKnot, hu]
    simp only [Bool.false_eq_true, if_false]
    rw [getItemInt_last _ hne]
    rw [List.getLast?_eq_some_getLast hne] at hb
    injection hb with hb; rw [hb]
  have hab : ∀ x ∈ s.knots, a ≤ x ∧ x ≤ b := by
    intro x hx
    constructor
    · obtain ⟨y, l, hy⟩ : ∃ y l, s.knots = y :: l := List.exists_cons_of_ne_nil hne
      rw [hy] at ha hx hs
      simp only [List.head?_cons, Option.some.injEq] at ha
      rcases List.mem_cons.1 hx with rfl | hx
      · exact ha ▸ le_rfl
      · exact ha ▸ (List.pairwise_cons.1 hs).1 x hx
    · obtain ⟨i, hi⟩ := List.mem_iff_getElem?.1 hx
      obtain ⟨hi', hi⟩ := List.getElem?_eq_some_iff.1 hi
      rw [List.getLast?_eq_getElem?, List.getElem?_eq_getElem (by omega)] at hb
      injection hb with hb
      rw [← hi, ← hb]
      rcases Nat.lt_or_ge i (s.knots.length - 1) with h | h
      · exact List.pairwise_iff_getElem.1 hs i _ hi' (by omega) h
      · have : i = s.knots.length - 1 := by omega
        subst this; exact le_rfl
  have hspan : s.span t = if ¬ (a ≤ t ∧ t ≤ b) then .error .valueError
      else .ok ((s.knots.findIdx? fun k => decide (t < k)).map (· - 1)) := by
    simp only [BSpline.span, hstart, hstop, hu]
    rfl
  refine ⟨fun h0 h1 => ?_, fun h1 => ?_, fun h1 => ?_⟩
  · rw [hspan, if_neg (not_not.2 ⟨h0, h1.le⟩)]
    cases hf : s.knots.findIdx? fun k => decide (t < k) with
    | none =>
      rw [List.findIdx?_eq_none_iff] at hf
      have := hf b (List.mem_of_getLast? hb)
      simp [h1] at this
    | some i =>
      rw [List.findIdx?_eq_some_iff_getElem] at hf
      obtain ⟨hi, h2, h3⟩ := hf
      simp only [decide_eq_true_eq] at h2
      have hi0 : i ≠ 0 := by
        rintro rfl
        have : s.knots[0] = a := by
          rw [List.head?_eq_getElem?, List.getElem?_eq_getElem hi] at ha; injection ha
        rw [this] at h2
        exact absurd h0 (not_le.2 h2)
      have h4 := h3 (i - 1) (by omega)
      simp only [decide_eq_true_eq, not_lt] at h4
      refine ⟨i - 1, rfl, s.knots[i - 1], s.knots[i], List.getElem?_eq_getElem _, ?_, h4, h2⟩
      rw [show i - 1 + 1 = i by omega]
      exact List.getElem?_eq_getElem _
  · subst h1
    rw [hspan, if_neg (not_not.2 ⟨(hab t (List.mem_of_getLast? hb)).1, le_rfl⟩)]
    have : (s.knots.findIdx? fun k => decide (t < k)) = none := by
      rw [List.findIdx?_eq_none_iff]
      intro x hx
      simp [(hab x hx).2]
    rw [this]; rfl
  · rw [hspan, if_pos]
    rintro ⟨h2, h3⟩
    rcases h1 with h1 | h1
    · exact absurd h2 (not_le.2 h1)
    · exact absurd h3 (not_le.2 h1)

/-- The spline of the examples: four points, degree 2. -/
def sample : BSpline ℚ := ⟨[⟨0, 0⟩, ⟨1, 2⟩, ⟨3, 3⟩, ⟨4, 0⟩], 2, false, [0, 0, 0, 1, 2, 2, 2], true⟩
/-- A spline with given knots, not repeated at the ends. -/
def sampleGiven : BSpline ℚ := ⟨[⟨0, 0⟩, ⟨1, 2⟩, ⟨3, 3⟩], 1, false, [0, 1, 2, 3, 4], false⟩

example : IsUniform sample := by unfold IsUniform; decide +kernel
example : sample.span (1 / 2) = .ok (some 2) ∧ sample.span 2 = .ok (some 4) ∧ sample.span 3 = .error .valueError := by decide +kernel
example : sampleGiven.span (5 / 2) = .ok (some 2) ∧ sampleGiven.span 4 = .ok none := by decide +kernel

/-! ## C52 -/

omit [IsStrictOrderedRing K] [FloorRing K] in
/-- The basis functions of the code are the ones of Cox and de Boor. -/
theorem basisFunction_eq (knots : List K) (t : K) : ∀ k i, i + k + 1 < knots.length →
    basisFunction knots t k i = .ok (N (knotAt knots) k i t) := by
  intro k
  induction k with
  | zero =>
    intro i h
    simp only [basisFunction, knotAt_getItem knots i (by omega), knotAt_getItem knots (i + 1) (by omega), N]
    dsimp only [bind, Except.bind, pure, Except.pure]
    by_cases h1 : knotAt knots i ≤ t
    · by_cases h2 : t < knotAt knots (i + 1) <;> simp [h1, h2]
    · simp [h1]
  | succ k ih =>
    intro i h
    simp only [basisFunction, knotAt_getItem knots i (by omega), knotAt_getItem knots (i + 1) (by omega),
      knotAt_getItem knots (i + (k + 1)) (by omega), knotAt_getItem knots (i + (k + 1) + 1) (by omega), N]
    rw [ih i (by omega), ih (i + 1) (by omega)]
    dsimp only [bind, Except.bind, pure, Except.pure]
    rw [show i + (k + 1) = i + k + 1 by omega, show i + k + 1 + 1 = i + k + 2 by omega]
    by_cases h1 : knotAt knots (i + k + 1) = knotAt knots i <;> by_cases h2 : knotAt knots (i + k + 2) = knotAt knots (i + 1) <;>
      simp [h1, h2]

omit [IsStrictOrderedRing K] [FloorRing K] in
theorem mapM_ok_of {α β : Type} (f : α → Except PyErr β) (g : α → β) : ∀ l : List α, (∀ a ∈ l, f a = .ok (g a)) → l.mapM f = .ok (l.map g)
  | [], _ => rfl
  | a :: l, h => by
    rw [List.mapM_cons, h a List.mem_cons_self, mapM_ok_of f g l (fun b hb => h b (List.mem_cons_of_mem _ hb))]
    rfl

/-- C52. For a spline with non-decreasing knots, every basis function of every degree that has its knots is defined; it is never negative,
and it is null out of the `k + 1` spans from its knot. -/
theorem basis_spec {K : Type} [Field K] [LinearOrder K] [IsStrictOrderedRing K] (s : BSpline K) (hs : s.knots.Pairwise (· ≤ ·)) (i k : Nat)
    (t : K) (h : i + k + 1 < s.knots.length) :
    ∃ b, s.basis i k t = .ok b ∧ 0 ≤ b ∧
      ∀ lo hi, s.knots[i]? = some lo → s.knots[i + k + 1]? = some hi → t < lo ∨ hi ≤ t → b = 0 := by
  have hm := knotAt_mono s.knots hs
  refine ⟨_, basisFunction_eq s.knots t k i h, N_nonneg _ hm t k i, ?_⟩
  intro lo hi h1 h2 h3
  rw [knotAt_lt _ _ (by omega)] at h1 h2
  injection h1 with h1
  injection h2 with h2
  apply N_support _ hm
  rw [h1, h2]; exact h3

/-- The span of a parameter in the range. -/
theorem exists_span {K : Type} [Field K] [LinearOrder K] (s : BSpline K) (hw : WellFormed s) (t : K) (ht : InRange s t) :
    ∃ l, s.degree ≤ l ∧ l < s.points.length ∧ knotAt s.knots l ≤ t ∧ t < knotAt s.knots (l + 1) := by
  have hex : ∃ j, t < knotAt s.knots (s.degree + j + 1) := ⟨s.points.length - s.degree - 1, by
    have := hw.points
    rw [show s.degree + (s.points.length - s.degree - 1) + 1 = s.points.length by omega]; exact ht.2⟩
  have hmin := Nat.find_spec hex
  have hle : s.degree + Nat.find hex < s.points.length := by
    have := hw.points
    have := Nat.find_min' hex (m := s.points.length - s.degree - 1) (by
      rw [show s.degree + (s.points.length - s.degree - 1) + 1 = s.points.length by omega]; exact ht.2)
    omega
  refine ⟨s.degree + Nat.find hex, by omega, hle, ?_, hmin⟩
  rcases Nat.eq_zero_or_pos (Nat.find hex) with h0 | h0
  · rw [h0]; exact ht.1
  · have := Nat.find_min hex (m := Nat.find hex - 1) (by omega)
    rw [not_lt, show s.degree + (Nat.find hex - 1) + 1 = s.degree + Nat.find hex by omega] at this
    exact this

/-- C52. On the range of the curve, the basis functions of the degree of the spline sum to one. -/
theorem basis_sum {K : Type} [Field K] [LinearOrder K] [IsStrictOrderedRing K] (s : BSpline K) (hw : WellFormed s) (t : K) (ht : InRange s t) :
    ∃ bs : List K, (List.range s.points.length).mapM (fun i => s.basis i s.degree t) = .ok bs ∧ bs.sum = 1 := by
  have hm := knotAt_mono s.knots hw.sorted
  have hlen := hw.length
  refine ⟨_, mapM_ok_of _ (fun i => N (knotAt s.knots) s.degree i t) _ (fun i hi => ?_), ?_⟩
  · rw [List.mem_range] at hi
    exact basisFunction_eq s.knots t _ _ (by omega)
  · obtain ⟨l, h1, h2, h3, h4⟩ := exists_span s hw t ht
    have := weighted_span (knotAt s.knots) hm s.degree l s.points.length (fun _ => 1) t h1 h2 h3 h4
    simp only [one_mul] at this
    exact this.trans (N_sum_span _ hm t _ _ h1 h3 h4)

example : InRange sample (1 / 2) ∧ WellFormed sample :=
  ⟨by unfold InRange; decide +kernel, ⟨by decide +kernel, by decide +kernel, by decide +kernel⟩⟩
example : sample.basis 1 2 (1 / 2) = .ok (5 / 8) ∧ sample.basis 3 2 (1 / 2) = .ok 0 := by decide +kernel

/-! ## C53 -/

/-- The blend of two points. -/
def lerp (a b : Vec K) (w : K) : Vec K := a.smul (1 - w) + b.smul w

omit [IsStrictOrderedRing K] [FloorRing K] in
theorem blend_eq (a b : Vec K) (w : K) : (if w = 0 then a else if w = 1 then b else a.smul (1 - w) + b.smul w) = lerp a b w := by
  split
  · rename_i h; subst h; ext <;> simp [lerp]
  · split
    · rename_i h; subst h; ext <;> simp [lerp]
    · rfl

omit [IsStrictOrderedRing K] [FloorRing K] in
/-- The body of the loops of `_deboor`, when the indices are in range. -/
theorem deboorStep_ok (knots : List K) (p l : Nat) (t : K) (r j : Nat) (pts : List (Vec K)) (hp : p ≤ l) (hr : 1 ≤ r) (hrj : r ≤ j)
    (hj : j ≤ p) (hlen : l + p < knots.length) (hpts : pts.length = p + 1) :
    deboorStep knots p l t r pts j = .ok (pts.set j (lerp (pts.getD (j - 1) 0) (pts.getD j 0)
      ((t - knotAt knots (l - p + j)) / (knotAt knots (j + 1 + l - r) - knotAt knots (l - p + j))))) := by
  have e1 : Py.getItemInt knots ((j : Int) + 1 + l - r) = .ok (knotAt knots (j + 1 + l - r)) := by
    rw [show (j : Int) + 1 + l - r = ((j + 1 + l - r : Nat) : Int) by omega, getItemInt_nat, knotAt_getItem _ _ (by omega)]
  have e2 : Py.getItemInt knots ((j : Int) + ((l : Int) - p)) = .ok (knotAt knots (l - p + j)) := by
    rw [show (j : Int) + ((l : Int) - p) = ((l - p + j : Nat) : Int) by omega, getItemInt_nat, knotAt_getItem _ _ (by omega)]
  have e3 : Py.getItemInt pts ((j : Int) - 1) = .ok (pts.getD (j - 1) 0) := by
    rw [show (j : Int) - 1 = ((j - 1 : Nat) : Int) by omega, getItemInt_nat]
    apply getItem_ok
    rw [List.getD_eq_getElem?_getD, List.getElem?_eq_getElem (by omega)]; rfl
  have e4 : Py.getItem pts j = .ok (pts.getD j 0) := by
    apply getItem_ok
    rw [List.getD_eq_getElem?_getD, List.getElem?_eq_getElem (by omega)]; rfl
  simp only [deboorStep, e1, e2, e3, e4]
  dsimp only [bind, Except.bind, pure, Except.pure]
  rw [blend_eq]
  congr 4
  split
  · rename_i h; rw [h, div_zero]
  · rfl

omit [IsStrictOrderedRing K] [FloorRing K] in
/-- The inner loop of `_deboor`. -/
theorem deboorRow_loop (knots : List K) (p l : Nat) (t : K) (r : Nat) (hp : p ≤ l) (hr : 1 ≤ r) (hlen : l + p < knots.length) :
    ∀ (k : Nat) (pts : List (Vec K)), r + k ≤ p + 1 → pts.length = p + 1 →
    ∃ pts', ((List.range' r k).reverse).foldlM (deboorStep knots p l t r) pts = .ok pts' ∧ pts'.length = p + 1 ∧
      ∀ j, pts'.getD j 0 = if r ≤ j ∧ j < r + k then lerp (pts.getD (j - 1) 0) (pts.getD j 0)
        ((t - knotAt knots (l - p + j)) / (knotAt knots (j + 1 + l - r) - knotAt knots (l - p + j))) else pts.getD j 0 := by
  intro k
  induction k with
  | zero =>
    intro pts _ hpts
    refine ⟨pts, rfl, hpts, fun j => ?_⟩
    rw [if_neg (by omega)]
  | succ k ih =>
    intro pts hk hpts
    rw [List.range'_concat, List.reverse_append]
    simp only [List.reverse_cons, List.reverse_nil, List.nil_append, List.singleton_append, List.foldlM_cons, Nat.one_mul]
    rw [deboorStep_ok knots p l t r (r + k) pts hp hr (by omega) (by omega) hlen hpts]
    dsimp only [bind, Except.bind]
    obtain ⟨pts', h1, h2, h3⟩ := ih (pts.set (r + k) (lerp (pts.getD (r + k - 1) 0) (pts.getD (r + k) 0)
      ((t - knotAt knots (l - p + (r + k))) / (knotAt knots (r + k + 1 + l - r) - knotAt knots (l - p + (r + k)))))) (by omega) (by simpa using hpts)
    refine ⟨pts', h1, h2, fun j => ?_⟩
    rw [h3 j]
    have hset : ∀ i v, i ≠ r + k → (pts.set (r + k) v).getD i 0 = pts.getD i 0 := by
      intro i v hi
      rw [List.getD_eq_getElem?_getD, List.getElem?_set_ne (by omega), ← List.getD_eq_getElem?_getD]
    rcases Nat.lt_trichotomy j (r + k) with hj | hj | hj
    · rw [hset j _ (by omega), hset (j - 1) _ (by omega)]
      by_cases hrj : r ≤ j
      · rw [if_pos ⟨hrj, hj⟩, if_pos ⟨hrj, by omega⟩]
      · rw [if_neg (by omega), if_neg (by omega)]
    · subst hj
      rw [if_neg (by omega), if_pos (by omega), List.getD_eq_getElem?_getD, List.getElem?_set_self (by omega)]
      rfl
    · rw [if_neg (by omega), if_neg (by omega), hset j _ (by omega)]

omit [FloorRing K] in
/-- The outer loop of `_deboor`: a weighted sum is preserved. -/
theorem deboor_loop (knots : List K) (hs : Monotone (knotAt knots)) (p l : Nat) (t : K) (hp : p ≤ l) (hlen : l + p < knots.length)
    (h1 : knotAt knots l ≤ t) (h2 : t < knotAt knots (l + 1)) :
    ∀ (q r : Nat) (pts : List (Vec K)), r + q = p → pts.length = p + 1 →
    ∃ pts', (List.range' (r + 1) q).foldlM (deboorRow knots p l t) pts = .ok pts' ∧ pts'.length = p + 1 ∧
      (pts'.getD p 0).x = ∑ j ∈ Finset.range (q + 1), (pts.getD (r + j) 0).x * N (knotAt knots) q (l - p + r + j) t ∧
      (pts'.getD p 0).y = ∑ j ∈ Finset.range (q + 1), (pts.getD (r + j) 0).y * N (knotAt knots) q (l - p + r + j) t := by
  intro q
  induction q with
  | zero =>
    intro r pts hq hpts
    refine ⟨pts, rfl, hpts, ?_, ?_⟩ <;>
    · rw [Finset.sum_range_one, N, if_pos (by rw [show l - p + r + 0 = l by omega]; exact ⟨h1, h2⟩), show r + 0 = p by omega, mul_one]
  | succ q ih =>
    intro r pts hq hpts
    rw [List.range'_succ, List.foldlM_cons]
    obtain ⟨pts1, e1, e2, e3⟩ := deboorRow_loop knots p l t (r + 1) hp (by omega) hlen (p + 1 - (r + 1)) pts (by omega) hpts
    obtain ⟨pts2, f1, f2, f3, f4⟩ := ih (r + 1) pts1 (by omega) e2
    refine ⟨pts2, ?_, f2, ?_, ?_⟩
    · rw [deboorRow, e1]; exact f1
    · rw [f3]
      have := deboor_sum_step (knotAt knots) hs (fun i => (pts.getD (i - (l - p)) 0).x) t (l - p + r) q
        (by rw [show l - p + r + q + 1 = l by omega]; exact h1) (by rw [show l - p + r + q + 2 = l + 1 by omega]; exact h2)
      have e : ∀ j, l - p + r + j - (l - p) = r + j := by intro j; omega
      simp only [e] at this
      rw [this]
      apply Finset.sum_congr rfl
      intro j hj
      rw [Finset.mem_range] at hj
      rw [e3 (r + 1 + j), if_pos (by omega), show l - p + (r + 1) + j = l - p + r + 1 + j by omega]
      congr 1
      simp only [lerp, Vec.add_x, Vec.smul_x]
      rw [show r + 1 + j - 1 = r + j by omega, show l - p + r + j + 1 - (l - p) = r + 1 + j by omega,
        show l - p + (r + 1 + j) = l - p + r + j + 1 by omega, show r + 1 + j + 1 + l - (r + 1) = l - p + r + j + q + 2 by omega]
      ring
    · rw [f4]
      have := deboor_sum_step (knotAt knots) hs (fun i => (pts.getD (i - (l - p)) 0).y) t (l - p + r) q
        (by rw [show l - p + r + q + 1 = l by omega]; exact h1) (by rw [show l - p + r + q + 2 = l + 1 by omega]; exact h2)
      have e : ∀ j, l - p + r + j - (l - p) = r + j := by intro j; omega
      simp only [e] at this
      rw [this]
      apply Finset.sum_congr rfl
      intro j hj
      rw [Finset.mem_range] at hj
      rw [e3 (r + 1 + j), if_pos (by omega), show l - p + (r + 1) + j = l - p + r + 1 + j by omega]
      congr 1
      simp only [lerp, Vec.add_y, Vec.smul_y]
      rw [show r + 1 + j - 1 = r + j by omega, show l - p + r + j + 1 - (l - p) = r + 1 + j by omega,
        show l - p + (r + 1 + j) = l - p + r + j + 1 by omega, show r + 1 + j + 1 + l - (r + 1) = l - p + r + j + q + 2 by omega]
      ring

omit [LinearOrder K] [IsStrictOrderedRing K] [FloorRing K] in
theorem getD_map_x (l : List (Vec K)) (i : Nat) : (l.map Vec.x).getD i 0 = (l.getD i 0).x := by
  rw [List.getD_eq_getElem?_getD, List.getD_eq_getElem?_getD, List.getElem?_map]
  cases l[i]? <;> rfl

omit [LinearOrder K] [IsStrictOrderedRing K] [FloorRing K] in
theorem getD_map_y (l : List (Vec K)) (i : Nat) : (l.map Vec.y).getD i 0 = (l.getD i 0).y := by
  rw [List.getD_eq_getElem?_getD, List.getD_eq_getElem?_getD, List.getElem?_map]
  cases l[i]? <;> rfl

/-- De Boor's algorithm on a span gives the point of the curve. -/
theorem deboor_span {K : Type} [Field K] [LinearOrder K] [IsStrictOrderedRing K] [FloorRing K] (s : BSpline K) (hw : WellFormed s) (t : K)
    (l : Nat) (hspan : s.span t = .ok (some l)) (hp : s.degree ≤ l) (hl : l < s.points.length)
    (h1 : knotAt s.knots l ≤ t) (h2 : t < knotAt s.knots (l + 1)) : s.deboor t = .ok (curve s.knots s.degree s.points t) := by
  have hm := knotAt_mono s.knots hw.sorted
  have hlen := hw.length
  have hpts : (List.range (s.degree + 1)).mapM (fun (j : Nat) => Py.getItemInt s.points ((j : Int) + ((l : Int) - s.degree))) =
      .ok ((List.range (s.degree + 1)).map fun j => s.points.getD (l - s.degree + j) 0) := by
    apply mapM_ok_of
    intro j hj
    rw [List.mem_range] at hj
    rw [show (j : Int) + ((l : Int) - s.degree) = ((l - s.degree + j : Nat) : Int) by omega, getItemInt_nat]
    apply getItem_ok
    rw [List.getD_eq_getElem?_getD, List.getElem?_eq_getElem (by omega)]; rfl
  obtain ⟨pts', e1, e2, e3, e4⟩ := deboor_loop s.knots hm s.degree l t hp (by omega) h1 h2 s.degree 0
    ((List.range (s.degree + 1)).map fun j => s.points.getD (l - s.degree + j) 0) (by omega) (by simp)
  have hgo : s.deboor t = .ok (pts'.getD s.degree 0) := by
    simp only [BSpline.deboor, hspan]
    dsimp only [bind, Except.bind]
    rw [hpts]
    dsimp only
    rw [Nat.zero_add] at e1
    rw [e1]
    apply getItem_ok
    rw [List.getD_eq_getElem?_getD, List.getElem?_eq_getElem (by omega)]; rfl
  rw [hgo]
  congr 1
  have hget : ∀ j, j < s.degree + 1 → ((List.range (s.degree + 1)).map fun j => s.points.getD (l - s.degree + j) 0).getD (0 + j) 0 =
      s.points.getD (l - s.degree + j) 0 := by
    intro j hj
    rw [List.getD_eq_getElem?_getD, List.getElem?_map, Nat.zero_add, List.getElem?_range hj]; rfl
  ext
  · rw [e3]
    simp only [curve, weighted, List.length_map]
    rw [weighted_span _ hm s.degree l s.points.length (fun i => (s.points.map Vec.x).getD i 0) t hp hl h1 h2]
    apply Finset.sum_congr rfl
    intro j hj
    rw [Finset.mem_range] at hj
    rw [hget j hj, Nat.add_zero, getD_map_x]
  · rw [e4]
    simp only [curve, weighted, List.length_map]
    rw [weighted_span _ hm s.degree l s.points.length (fun i => (s.points.map Vec.y).getD i 0) t hp hl h1 h2]
    apply Finset.sum_congr rfl
    intro j hj
    rw [Finset.mem_range] at hj
    rw [hget j hj, Nat.add_zero, getD_map_y]

/-- `span` inside the range of a spline. -/
theorem span_valid (s : BSpline K) (hv : Valid s) (t : K) (ht : InRange s t) :
    ∃ l, s.span t = .ok (some l) ∧ s.degree ≤ l ∧ l < s.points.length ∧ knotAt s.knots l ≤ t ∧ t < knotAt s.knots (l + 1) := by
  obtain ⟨hw, hu⟩ := hv
  have hm := knotAt_mono s.knots hw.sorted
  have hlen := hw.length
  cases hun : s.uniform with
  | true =>
    have h := hu hun
    have hn := hw.points
    have h0 : 0 ≤ t := by
      have := ht.1
      rw [uniform_knotAt h _ (by omega)] at this
      simpa using this
    have h1 : t < (s.points.length : K) - s.degree := by
      have := ht.2
      rw [uniform_knotAt h _ (by omega), min_self, Nat.cast_sub (by omega)] at this
      exact this
    obtain ⟨l, e1, e2, e3, a, b, e4, e5, e6, e7⟩ := (span_uniform s h t).1 h0 h1
    rw [knotAt_lt _ _ (by omega)] at e4 e5
    injection e4 with e4
    injection e5 with e5
    exact ⟨l, e1, e2, e3, e4 ▸ e6, e5 ▸ e7⟩
  | false =>
    have ha : s.knots.head? = some (knotAt s.knots 0) := by rw [List.head?_eq_getElem?]; exact knotAt_lt _ _ (by omega)
    have hb : s.knots.getLast? = some (knotAt s.knots (s.knots.length - 1)) := by
      rw [List.getLast?_eq_getElem?]; exact knotAt_lt _ _ (by omega)
    obtain ⟨l, e1, x, y, e4, e5, e6, e7⟩ := (span_given s hun hw.sorted t _ _ ha hb).1 ((hm (by omega)).trans ht.1)
      (lt_of_lt_of_le ht.2 (hm (by omega)))
    have hl : l + 1 < s.knots.length := (List.getElem?_eq_some_iff.1 e5).1
    rw [knotAt_lt _ _ (by omega)] at e4 e5
    injection e4 with e4
    injection e5 with e5
    subst e4 e5
    refine ⟨l, e1, ?_, ?_, e6, e7⟩
    · by_contra hc
      exact absurd (lt_of_lt_of_le e7 (hm (by omega : l + 1 ≤ s.degree))) (not_lt.2 ht.1)
    · by_contra hc
      exact absurd (lt_of_le_of_lt ((hm (by omega : s.points.length ≤ l)).trans e6) ht.2) (lt_irrefl _)

omit [FloorRing K] in
/-- At a knot repeated as often as the degree plus one, only one basis function does not vanish. -/
theorem N_left (u : Nat → K) (hu : Monotone u) (p : Nat) (t : K) (h0 : ∀ i, i ≤ p → u i = t) (h1 : t < u (p + 1)) :
    ∀ k, k ≤ p → ∀ i, N u k i t = if i = p - k then 1 else 0 := by
  intro k
  induction k with
  | zero =>
    intro _ i
    rw [N]
    rcases Nat.lt_trichotomy i p with h | h | h
    · rw [if_neg, if_neg (by omega)]
      rw [h0 (i + 1) (by omega)]; exact fun h => lt_irrefl _ h.2
    · subst h; rw [if_pos ⟨(h0 _ le_rfl).le, h1⟩, if_pos (by omega)]
    · rw [if_neg, if_neg (by omega)]
      rintro ⟨h2, -⟩
      exact absurd (lt_of_lt_of_le h1 (hu (by omega : p + 1 ≤ i))) (not_lt.2 h2)
  | succ k ih =>
    intro hk i
    rw [N, ih (by omega), ih (by omega)]
    by_cases hi : i = p - (k + 1)
    · rw [if_pos hi, if_neg (by omega : ¬ i = p - k), if_pos (by omega : i + 1 = p - k), show i + k + 2 = p + 1 by omega, h0 (i + 1) (by omega),
        if_neg h1.ne', mul_zero, ite_self, zero_add, mul_one]
      exact div_self (sub_ne_zero.2 h1.ne')
    · rw [if_neg hi, if_neg (by omega : ¬ i + 1 = p - k), mul_zero, ite_self, add_zero]
      by_cases hi' : i = p - k
      · rw [h0 i (by omega)]; simp
      · rw [if_neg hi']; simp

/-- The first point of a spline without given knots is the point of the curve at 0. -/
theorem curve_zero (s : BSpline K) (h : IsUniform s) : curve s.knots s.degree s.points 0 = s.points.getD 0 0 := by
  have hw := uniform_wellFormed h
  have hn := hw.points
  have hm := knotAt_mono s.knots hw.sorted
  have h0 : ∀ i, i ≤ s.degree → knotAt s.knots i = 0 := by
    intro i hi
    rw [uniform_knotAt h i (by omega), show i - s.degree = 0 by omega]; simp
  have h1 : 0 < knotAt s.knots (s.degree + 1) := by
    rw [uniform_knotAt h _ (by omega)]
    exact_mod_cast (by omega : 0 < min (s.degree + 1 - s.degree) (s.points.length - s.degree))
  have hN := N_left _ hm s.degree 0 h0 h1 s.degree le_rfl
  have hsum : ∀ c : List K, c.length = s.points.length → weighted (knotAt s.knots) s.degree c 0 = c.getD 0 0 := by
    intro c hc
    rw [weighted, Finset.sum_eq_single 0]
    · rw [hN, if_pos (by omega), mul_one]
    · intro i _ hi; rw [hN, if_neg (by omega), mul_zero]
    · intro hi; exact absurd (Finset.mem_range.2 (by omega)) hi
  ext
  · rw [← getD_map_x]; exact hsum _ (by simp)
  · rw [← getD_map_y]; exact hsum _ (by simp)

/-- C53. Inside its range, a spline, whether its knots are given or not, is evaluated to the sum of its control points weighted by the
basis functions of its degree. -/
theorem pointAt_curve {K : Type} [Field K] [LinearOrder K] [IsStrictOrderedRing K] [FloorRing K] (s : BSpline K) (hv : Valid s) (t : K)
    (ht : InRange s t) : s.pointAt t = .ok (curve s.knots s.degree s.points t) := by
  obtain ⟨l, e1, e2, e3, e4, e5⟩ := span_valid s hv t ht
  have hd := deboor_span s hv.1 t l e1 e2 e3 e4 e5
  have hn := hv.1.points
  rw [BSpline.pointAt]
  split
  · rename_i h
    obtain ⟨hu, rfl⟩ := h
    rw [curve_zero s (hv.2 hu)]
    apply getItem_ok
    rw [List.getD_eq_getElem?_getD, List.getElem?_eq_getElem (by omega)]; rfl
  · rw [if_neg]
    · exact hd
    · rintro ⟨hu, h⟩
      have := ht.2
      rw [uniform_knotAt (hv.2 hu) _ (by omega), min_self, Nat.cast_sub (by omega), ← h] at this
      exact lt_irrefl _ this

/-- C53. A spline without given knots starts at its first control point and ends at its last one; the range is the one of the
parameters from 0 to the number of points minus the degree, out of which `ValueError` is raised. -/
theorem pointAt_uniform {K : Type} [Field K] [LinearOrder K] [IsStrictOrderedRing K] [FloorRing K] (s : BSpline K) (h : IsUniform s) :
    Valid s ∧ (∀ t, InRange s t ↔ 0 ≤ t ∧ t < (s.points.length : K) - s.degree) ∧
    (∃ p, s.points.head? = some p ∧ s.pointAt 0 = .ok p) ∧
    (∃ p, s.points.getLast? = some p ∧ s.pointAt ((s.points.length : K) - s.degree) = .ok p) ∧
    ∀ t, t < 0 ∨ (s.points.length : K) - s.degree < t → s.pointAt t = .error .valueError := by
  have hw := uniform_wellFormed h
  have hn := hw.points
  have hpos : (0 : K) < (s.points.length : K) - s.degree := by
    rw [← Nat.cast_sub (by omega)]; exact_mod_cast (by omega : 0 < s.points.length - s.degree)
  refine ⟨⟨hw, fun _ => h⟩, fun t => ?_, ?_, ?_, ?_⟩
  · rw [InRange, uniform_knotAt h _ (by omega), uniform_knotAt h _ (by omega), min_self, Nat.cast_sub (by omega)]
    simp
  · refine ⟨s.points[0]'(by omega), by rw [List.head?_eq_getElem?, List.getElem?_eq_getElem], ?_⟩
    rw [BSpline.pointAt, if_pos ⟨h.1, rfl⟩]
    exact getItem_ok (List.getElem?_eq_getElem _)
  · have hne : s.points ≠ [] := List.length_pos_iff.1 (by omega)
    refine ⟨s.points.getLast hne, List.getLast?_eq_some_getLast hne, ?_⟩
    rw [BSpline.pointAt, if_neg, if_pos ⟨h.1, rfl⟩, getItemInt_last _ hne]
    rintro ⟨-, e⟩
    exact absurd e hpos.ne'
  · intro t ht
    have hs := (span_uniform s h t).2.2 ht
    rw [BSpline.pointAt, if_neg, if_neg]
    · simp only [BSpline.deboor, hs]; rfl
    · rintro ⟨-, e⟩; rcases ht with ht | ht
      · exact absurd (e ▸ hpos) (not_lt.2 ht.le)
      · exact absurd e ht.ne'
    · rintro ⟨-, e⟩; subst e; rcases ht with ht | ht
      · exact lt_irrefl _ ht
      · exact absurd hpos (not_lt.2 ht.le)

/-- C53 is false at the end of a spline with given knots: its last parameter, which `span` accepts, raises `TypeError`. -/
theorem pointAt_end_wrong {K : Type} [Field K] [LinearOrder K] [IsStrictOrderedRing K] [FloorRing K] (s : BSpline K)
    (hu : s.uniform = false) (hw : WellFormed s) (t : K) (ht : s.knots.getLast? = some t) : s.pointAt t = .error .typeError := by
  have hlen := hw.length
  have ha : s.knots.head? = some (knotAt s.knots 0) := by rw [List.head?_eq_getElem?]; exact knotAt_lt _ _ (by omega)
  have := (span_given s hu hw.sorted t _ _ ha ht).2.1 rfl
  rw [BSpline.pointAt, if_neg (by simp [hu]), if_neg (by simp [hu])]
  simp only [BSpline.deboor, this]; rfl

theorem getItemInt_in {α : Type _} (l : List α) (i : Int) (h1 : -l.length ≤ i) (h2 : i < l.length) : ∃ x, Py.getItemInt l i = .ok x := by
  unfold Py.getItemInt
  split
  · exact ⟨_, getItem_ok (List.getElem?_eq_getElem (by omega))⟩
  · rw [if_pos (by omega)]
    exact ⟨_, getItem_ok (List.getElem?_eq_getElem (by omega))⟩

theorem mapM_in {α β : Type _} (f : α → Except PyErr β) (l : List α) (h : ∀ x ∈ l, ∃ y, f x = .ok y) :
    ∃ ys, l.mapM f = .ok ys ∧ ys.length = l.length := by
  induction l with
  | nil => exact ⟨[], rfl, rfl⟩
  | cons x l ih =>
    obtain ⟨y, hy⟩ := h x (by simp)
    obtain ⟨ys, h1, h2⟩ := ih fun z hz => h z (by simp [hz])
    exact ⟨y :: ys, by rw [List.mapM_cons, hy, h1]; rfl, by simp [h2]⟩

theorem foldlM_in {α β : Type _} (P : β → Prop) (f : β → α → Except PyErr β) (l : List α)
    (h : ∀ x ∈ l, ∀ b, P b → ∃ b', f b x = .ok b' ∧ P b') (b : β) (hb : P b) : ∃ b', l.foldlM f b = .ok b' ∧ P b' := by
  induction l generalizing b with
  | nil => exact ⟨b, rfl, hb⟩
  | cons x l ih =>
    obtain ⟨b', h1, h2⟩ := h x (by simp) b hb
    obtain ⟨c, h3, h4⟩ := ih (fun y hy => h y (by simp [hy])) b' h2
    exact ⟨c, by rw [List.foldlM_cons, h1]; exact h3, h4⟩

theorem wellFormed_mono {K : Type} [Field K] [LinearOrder K] (s : BSpline K) (hw : WellFormed s) (i j : Nat) (hij : i ≤ j)
    (hj : j < s.knots.length) : knotAt s.knots i ≤ knotAt s.knots j := by
  have h1 := knotAt_lt s.knots i (by omega)
  have h2 := knotAt_lt s.knots j hj
  rcases hij.eq_or_lt with rfl | hij
  · exact le_rfl
  · have := List.pairwise_iff_getElem.1 hw.sorted i j (by omega) hj hij
    rw [List.getElem?_eq_getElem (by omega)] at h1 h2
    injection h1 with h1
    injection h2 with h2
    rwa [h1, h2] at this

/-- C53 is false before the range of every spline with given knots: every parameter from the first knot is accepted, and a point is given, since
the points are taken from the end of the list by negative indices. -/
theorem pointAt_before_wrong {K : Type} [Field K] [LinearOrder K] [IsStrictOrderedRing K] [FloorRing K] (s : BSpline K)
    (hu : s.uniform = false) (hw : WellFormed s) (t : K) (h0 : knotAt s.knots 0 ≤ t) (ht : t < knotAt s.knots s.degree) :
    ¬ InRange s t ∧ ∃ p, s.pointAt t = .ok p := by
  have hlen := hw.length
  have hn := hw.points
  refine ⟨fun h => absurd h.1 (not_le.2 ht), ?_⟩
  have ha : s.knots.head? = some (knotAt s.knots 0) := by rw [List.head?_eq_getElem?]; exact knotAt_lt _ _ (by omega)
  have hb : s.knots.getLast? = some (knotAt s.knots (s.knots.length - 1)) := by
    rw [List.getLast?_eq_getElem?]; exact knotAt_lt _ _ (by omega)
  have hmono := wellFormed_mono s hw
  obtain ⟨l, hl, x, y, hx, hy, hxt, hty⟩ := (span_given s hu hw.sorted t _ _ ha hb).1 h0
    (ht.trans_le (hmono _ _ (by omega) (by omega)))
  have hlk : l < s.knots.length := (List.getElem?_eq_some_iff.1 hx).1
  have hld : l < s.degree := by
    by_contra hc
    have h1 := hmono s.degree l (by omega) hlk
    have h2 := knotAt_lt s.knots l hlk
    rw [hx] at h2
    injection h2 with h2
    rw [← h2] at h1
    exact absurd (h1.trans hxt) (not_le.2 ht)
  rw [BSpline.pointAt, if_neg (by simp [hu]), if_neg (by simp [hu]), if_neg (by simp)]
  obtain ⟨points, h1, h2⟩ := mapM_in (fun j : Nat => Py.getItemInt s.points ((j : Int) + ((l : Int) - s.degree))) (List.range (s.degree + 1))
    (fun j hj => getItemInt_in _ _ (by have := List.mem_range.1 hj; omega) (by have := List.mem_range.1 hj; omega))
  rw [List.length_range] at h2
  obtain ⟨points', h3, h4⟩ := foldlM_in (fun ps : List (Vec K) => ps.length = s.degree + 1) (deboorRow s.knots s.degree l t)
    (List.range' 1 s.degree) (by
      intro r hr ps hps
      have hr := List.mem_range'_1.1 hr
      refine foldlM_in (fun ps : List (Vec K) => ps.length = s.degree + 1) (deboorStep s.knots s.degree l t r) _ ?_ ps hps
      intro j hj ps hps
      have hj := List.mem_range'_1.1 (List.mem_reverse.1 hj)
      obtain ⟨hi, g1⟩ := getItemInt_in s.knots ((j : Int) + 1 + l - r) (by omega) (by omega)
      obtain ⟨lo, g2⟩ := getItemInt_in s.knots ((j : Int) + ((l : Int) - s.degree)) (by omega) (by omega)
      obtain ⟨left, g3⟩ := getItemInt_in ps ((j : Int) - 1) (by omega) (by omega)
      have g4 : Py.getItem ps j = .ok (ps[j]'(by omega)) := getItem_ok (List.getElem?_eq_getElem _)
      have e : ∃ q, deboorStep s.knots s.degree l t r ps j = .ok (ps.set j q) := by
        simp only [deboorStep, g1, g2, g3, g4, bind, Except.bind, pure, Except.pure]
        exact ⟨_, rfl⟩
      obtain ⟨q, e⟩ := e
      exact ⟨_, e, by rw [List.length_set]; exact hps⟩) points h2
  refine ⟨points'[s.degree]'(by omega), ?_⟩
  simp only [BSpline.deboor, hl, bind, Except.bind]
  rw [h1]
  dsimp only
  rw [h3]
  exact getItem_ok (List.getElem?_eq_getElem _)

theorem mapM_out {α β : Type _} (f : α → Except PyErr β) (l : List α) (e : PyErr) (h : ∀ x ∈ l, (∃ y, f x = .ok y) ∨ f x = .error e)
    (x : α) (hx : x ∈ l) (hf : f x = .error e) : l.mapM f = .error e := by
  induction l with
  | nil => cases hx
  | cons y l ih =>
    rw [List.mapM_cons]
    rcases h y (by simp) with ⟨z, hz⟩ | hz
    · rw [hz]
      have hx' : x ∈ l := by
        rcases List.mem_cons.1 hx with rfl | h'
        · rw [hf] at hz; cases hz
        · exact h'
      simp only [ih (fun w hw => h w (by simp [hw])) hx', bind, Except.bind]
    · rw [hz]
      rfl

/-- C53. After the range of a spline with given knots `IndexError` is raised, up to its last knot. -/
theorem pointAt_after {K : Type} [Field K] [LinearOrder K] [IsStrictOrderedRing K] [FloorRing K] (s : BSpline K)
    (hu : s.uniform = false) (hw : WellFormed s) (t : K) (h0 : knotAt s.knots s.points.length ≤ t)
    (ht : t < knotAt s.knots (s.knots.length - 1)) : s.pointAt t = .error .indexError := by
  have hlen := hw.length
  have hn := hw.points
  have ha : s.knots.head? = some (knotAt s.knots 0) := by rw [List.head?_eq_getElem?]; exact knotAt_lt _ _ (by omega)
  have hb : s.knots.getLast? = some (knotAt s.knots (s.knots.length - 1)) := by
    rw [List.getLast?_eq_getElem?]; exact knotAt_lt _ _ (by omega)
  have hmono := wellFormed_mono s hw
  obtain ⟨l, hl, x, y, hx, hy, hxt, hty⟩ := (span_given s hu hw.sorted t _ _ ha hb).1 ((hmono _ _ (by omega) (by omega)).trans h0) ht
  have hlk : l + 1 < s.knots.length := (List.getElem?_eq_some_iff.1 hy).1
  have hld : s.points.length ≤ l := by
    by_contra hc
    have h1 := hmono (l + 1) s.points.length (by omega) (by omega)
    have h2 := knotAt_lt s.knots (l + 1) hlk
    rw [hy] at h2
    injection h2 with h2
    rw [← h2] at h1
    exact absurd (h1.trans h0) (not_le.2 hty)
  rw [BSpline.pointAt, if_neg (by simp [hu]), if_neg (by simp [hu]), if_neg (by simp)]
  have hout : ∀ i : Int, s.points.length ≤ i → Py.getItemInt s.points i = .error .indexError := by
    intro i hi
    rw [Py.getItemInt, if_pos (by omega), Py.getItem, List.getElem?_eq_none (by omega)]
  have h1 := mapM_out (fun j : Nat => Py.getItemInt s.points ((j : Int) + ((l : Int) - s.degree))) (List.range (s.degree + 1)) .indexError
    (fun j _ => by
      by_cases hj : (j : Int) + ((l : Int) - s.degree) < s.points.length
      · exact .inl (getItemInt_in _ _ (by omega) hj)
      · exact .inr (hout _ (by omega))) s.degree (by simp) (hout _ (by omega))
  simp only [BSpline.deboor, hl, bind, Except.bind]
  rw [h1]

/-- The spline of the example at a parameter before its range. -/
example : sampleGiven.pointAt (1 / 2) = .ok ⟨3 / 2, 3 / 2⟩ ∧ ¬ InRange sampleGiven (1 / 2) ∧
    sampleGiven.pointAt (7 / 2) = .error .indexError := by
  unfold InRange; decide +kernel

/-- C53 is false of the option `naive`: the basis functions are computed, then `TypeError` is raised, except at the two ends of a spline
without given knots. -/
theorem naive_wrong {K : Type} [Field K] [LinearOrder K] [IsStrictOrderedRing K] [FloorRing K] (s : BSpline K) (hv : Valid s) (t : K)
    (ht : InRange s t) (h0 : ¬ (s.uniform = true ∧ t = 0)) : s.pointAt t true = .error .typeError := by
  have hn := hv.1.points
  have hlen := hv.1.length
  rw [BSpline.pointAt, if_neg h0, if_neg]
  · rw [if_pos rfl, BSpline.naive, mapM_ok_of _ (fun i => N (knotAt s.knots) s.degree i t) _ (fun i hi => ?_)]
    · rfl
    · rw [List.mem_range] at hi
      exact basisFunction_eq s.knots t _ _ (by omega)
  · rintro ⟨hu, h⟩
    have := ht.2
    rw [uniform_knotAt (hv.2 hu) _ (by omega), min_self, Nat.cast_sub (by omega), ← h] at this
    exact lt_irrefl _ this

example : sample.pointAt (1 / 2) = .ok ⟨1, 13 / 8⟩ ∧ sample.pointAt 2 = .ok ⟨4, 0⟩ ∧ sampleGiven.pointAt 4 = .error .typeError := by
  decide +kernel

/-! ## C54 -/

omit [IsStrictOrderedRing K] [FloorRing K] in
/-- The knots after an insertion. -/
theorem knotAt_insert (knots : List K) (l : Nat) (t : K) (hl : l + 1 < knots.length) (j : Nat) :
    knotAt (knots.take (l + 1) ++ [t] ++ knots.drop (l + 1)) j = insertAt (knotAt knots) l t j := by
  have hlen : (knots.take (l + 1) ++ [t] ++ knots.drop (l + 1)).length = knots.length + 1 := by simp; omega
  have key : ∀ j, j < knots.length + 1 →
      (knots.take (l + 1) ++ [t] ++ knots.drop (l + 1))[j]? = some (insertAt (knotAt knots) l t j) := by
    intro j hj
    unfold insertAt
    split
    · rw [List.append_assoc, List.getElem?_append_left (by simp; omega), List.getElem?_take, if_pos (by omega), knotAt_lt _ _ (by omega)]
    · split
      · rename_i h; subst h
        rw [List.getElem?_append_left (by simp; omega), List.getElem?_append_right (by simp)]
        simp [Nat.min_eq_left (by omega : l + 1 ≤ knots.length)]
      · rw [List.getElem?_append_right (by simp; omega), List.getElem?_drop]
        rw [← knotAt_lt _ _ (by omega)]
        congr 1
        simp; omega
  rcases Nat.lt_or_ge j (knots.length + 1) with hj | hj
  · have h1 := key j hj
    rw [knotAt_lt _ _ (by omega)] at h1
    injection h1
  · have h1 := key knots.length (by omega)
    rw [knotAt_lt _ _ (by omega)] at h1
    injection h1 with h1
    rw [knotAt_ge _ _ (by omega), ← knotAt_last _ (by omega), hlen, Nat.add_sub_cancel, h1]
    unfold insertAt
    rw [if_neg (by omega), if_neg (by omega), if_neg (by omega), if_neg (by omega), knotAt_last _ (by omega), knotAt_ge _ (j - 1) (by omega)]

omit [IsStrictOrderedRing K] [FloorRing K] in
theorem sorted_of_mono (knots : List K) (h : ∀ i j, i < j → j < knots.length → knotAt knots i ≤ knotAt knots j) : knots.Pairwise (· ≤ ·) := by
  rw [List.pairwise_iff_getElem]
  intro i j hi hj hij
  have h1 := knotAt_lt knots i hi
  have h2 := knotAt_lt knots j hj
  rw [List.getElem?_eq_getElem hi] at h1
  rw [List.getElem?_eq_getElem hj] at h2
  injection h1 with h1
  injection h2 with h2
  rw [h1, h2]; exact h i j hij hj

omit [FloorRing K] in
/-- The constructor accepts knots that do not decrease. -/
theorem new_sorted (points : List (Vec K)) (p : Nat) (c : Bool) (knots : List K) (h : knots.Pairwise (· ≤ ·)) :
    BSpline.new points p c (some knots) = .ok ⟨points, p, c, knots, false⟩ := by
  simp only [BSpline.new]
  rw [if_pos]
  rw [List.all_eq_true]
  intro q hq
  simp only [ge_iff_le, decide_eq_true_eq, sub_nonneg]
  obtain ⟨i, hi, e⟩ := List.mem_iff_getElem.1 hq
  rw [List.length_zip, List.length_tail] at hi
  rw [List.getElem_zip] at e
  rw [← e]
  simp only [List.getElem_tail]
  exact List.pairwise_iff_getElem.1 h i (i + 1) (by omega) (by omega) (by omega)

omit [FloorRing K] in
/-- A new point. -/
theorem insertPoint_ok (points : List (Vec K)) (knots : List K) (p l : Nat) (t : K) (i : Nat) (hm : Monotone (knotAt knots)) (hp : p ≤ l)
    (hl : l < points.length) (hlen : knots.length = points.length + p + 1) (h1 : knotAt knots l ≤ t) (h2 : t < knotAt knots (l + 1))
    (hi : i < points.length + 1) :
    insertPoint points knots p l t i = .ok (lerp (points.getD (i - 1) 0) (points.getD i 0) (weight (knotAt knots) l t p i)) := by
  have hw : insertWeight knots p l t i = .ok (weight (knotAt knots) l t p i) := by
    unfold insertWeight weight
    by_cases ha : i + p ≤ l
    · rw [if_pos (by omega), if_pos ha]
    · rw [if_neg (by omega), if_neg ha]
      by_cases hb : i > l
      · rw [if_pos hb, if_pos hb]
      · rw [if_neg hb, if_neg hb, knotAt_getItem _ _ (by omega), knotAt_getItem _ _ (by omega)]
        dsimp only [bind, Except.bind, pure, Except.pure]
        have a1 : knotAt knots i ≤ t := (hm (by omega)).trans h1
        have a2 : t < knotAt knots (i + p) := lt_of_lt_of_le h2 (hm (by omega))
        rw [if_pos (by simp only [gt_iff_lt, sub_pos]; exact lt_of_le_of_lt a1 a2)]
  have hw0 : i = 0 → weight (knotAt knots) l t p i = 1 := by
    rintro rfl; rw [weight, if_pos (by omega)]
  have hwn : i = points.length → weight (knotAt knots) l t p i = 0 := by
    rintro rfl
    unfold weight
    rw [if_neg (by omega), if_pos (by omega)]
  unfold insertPoint
  rw [hw]
  dsimp only [bind, Except.bind]
  generalize weight (knotAt knots) l t p i = w at hw0 hwn ⊢
  rw [← blend_eq]
  have g1 : i ≠ 0 → Py.getItemInt points ((i : Int) - 1) = .ok (points.getD (i - 1) 0) := by
    intro h
    rw [show (i : Int) - 1 = ((i - 1 : Nat) : Int) by omega, getItemInt_nat]
    apply getItem_ok
    rw [List.getD_eq_getElem?_getD, List.getElem?_eq_getElem (by omega)]; rfl
  have g2 : i ≠ points.length → Py.getItem points i = .ok (points.getD i 0) := by
    intro h
    apply getItem_ok
    rw [List.getD_eq_getElem?_getD, List.getElem?_eq_getElem (by omega)]; rfl
  by_cases hz : w = 0
  · rw [if_pos hz, if_pos hz, g1]
    intro h; exact absurd (hw0 h) (by rw [hz]; exact zero_ne_one)
  · have hin : i ≠ points.length := fun h => hz (hwn h)
    rw [if_neg hz, if_neg hz]
    by_cases ho : w = 1
    · rw [if_pos ho, if_pos ho, g2 hin]
    · rw [if_neg ho, if_neg ho, g1 (fun h => ho (hw0 h)), g2 hin]
      rfl

omit [FloorRing K] in
/-- The weighted sum is unchanged by an insertion. -/
theorem weighted_insert (u : Nat → K) (hu : Monotone u) (l : Nat) (t : K) (h1 : u l ≤ t) (h2 : t < u (l + 1)) (x : K) (p n : Nat) (f : Nat → K)
    (hp : p ≤ l) (hl : l < n) :
    ∑ i ∈ Finset.range n, f i * N u p i x =
    ∑ i ∈ Finset.range (n + 1), (f (i - 1) * (1 - weight u l t p i) + f i * weight u l t p i) * N (insertAt u l t) p i x := by
  have e1 : ∑ i ∈ Finset.range (n + 1), (f (i - 1) * (1 - weight u l t p i) + f i * weight u l t p i) * N (insertAt u l t) p i x =
      ∑ i ∈ Finset.range (n + 1), f i * weight u l t p i * N (insertAt u l t) p i x +
      ∑ i ∈ Finset.range (n + 1), f (i - 1) * (1 - weight u l t p i) * N (insertAt u l t) p i x := by
    rw [← Finset.sum_add_distrib]
    exact Finset.sum_congr rfl fun i _ => by ring
  have w0 : weight u l t p 0 = 1 := by rw [weight, if_pos (by omega)]
  have wn : weight u l t p n = 0 := by
    unfold weight
    rw [if_neg (by omega), if_pos (by omega)]
  rw [e1, Finset.sum_range_succ, wn, Finset.sum_range_succ' (n := n), w0]
  simp only [mul_zero, zero_mul, add_zero, sub_self, Nat.add_sub_cancel]
  rw [← Finset.sum_add_distrib]
  apply Finset.sum_congr rfl
  intro i _
  rw [N_insert u hu l t h1 h2 x p i]
  ring

/-- C54. Inserting a knot inside the range of a spline gives a spline of the same degree, with the new knot beside the others and one
point more, which traces the same curve and has the same range. -/
theorem insertKnot_spec {K : Type} [Field K] [LinearOrder K] [IsStrictOrderedRing K] [FloorRing K] (s : BSpline K) (hv : Valid s) (t : K)
    (ht : InRange s t) :
    ∃ s', s.insertKnot t = .ok s' ∧ Valid s' ∧ s'.uniform = false ∧ s'.degree = s.degree ∧ s'.points.length = s.points.length + 1 ∧
      s'.knots.Perm (t :: s.knots) ∧ s'.points.getLast? = s.points.getLast? ∧ (∀ x, InRange s' x ↔ InRange s x) ∧
      ∀ x, curve s'.knots s'.degree s'.points x = curve s.knots s.degree s.points x := by
  obtain ⟨l, e1, e2, e3, e4, e5⟩ := span_valid s hv t ht
  have hm := knotAt_mono s.knots hv.1.sorted
  have hlen := hv.1.length
  have hnew : (List.range (s.points.length + 1)).mapM (fun i => insertPoint s.points s.knots s.degree l t i) = .ok
      ((List.range (s.points.length + 1)).map fun i => lerp (s.points.getD (i - 1) 0) (s.points.getD i 0) (weight (knotAt s.knots) l t s.degree i)) := by
    apply mapM_ok_of
    intro i hi
    rw [List.mem_range] at hi
    exact insertPoint_ok _ _ _ _ _ _ hm e2 e3 hlen e4 e5 hi
  have hk : ∀ j, knotAt (s.knots.take (l + 1) ++ [t] ++ s.knots.drop (l + 1)) j = insertAt (knotAt s.knots) l t j :=
    knotAt_insert s.knots l t (by omega)
  have hm' := insertAt_mono _ hm l t e4 e5.le
  have hsorted : (s.knots.take (l + 1) ++ [t] ++ s.knots.drop (l + 1)).Pairwise (· ≤ ·) := by
    apply sorted_of_mono
    intro i j hij _
    rw [hk, hk]; exact hm' hij.le
  have hperm : (s.knots.take (l + 1) ++ [t] ++ s.knots.drop (l + 1)).Perm (t :: s.knots) := by
    rw [List.append_assoc, List.singleton_append]
    refine List.perm_middle.trans (List.Perm.cons _ ?_)
    rw [List.take_append_drop]
  have hgo : s.insertKnot t = .ok ⟨(List.range (s.points.length + 1)).map fun i => lerp (s.points.getD (i - 1) 0) (s.points.getD i 0)
      (weight (knotAt s.knots) l t s.degree i), s.degree, false, s.knots.take (l + 1) ++ [t] ++ s.knots.drop (l + 1), false⟩ := by
    simp only [BSpline.insertKnot, e1]
    dsimp only [bind, Except.bind]
    rw [hnew]
    dsimp only
    rw [new_sorted _ _ _ _ hsorted]
  have hpts := hv.1.points
  refine ⟨_, hgo, ⟨⟨hsorted, ?_, ?_⟩, ?_⟩, rfl, rfl, by simp, hperm, ?_, ?_, ?_⟩
  · rw [hperm.length_eq]; simp; omega
  · simp; omega
  · intro h; simp at h
  · simp only [List.getLast?_eq_getElem?, List.length_map, List.length_range, Nat.add_sub_cancel]
    rw [List.getElem?_map, List.getElem?_range (by omega), List.getElem?_eq_getElem (by omega), Option.map_some,
      show weight (knotAt s.knots) l t s.degree s.points.length = 0 by unfold weight; rw [if_neg (by omega), if_pos (by omega)]]
    congr 1
    rw [List.getD_eq_getElem?_getD, List.getElem?_eq_getElem (by omega)]
    ext <;> simp [lerp]
  · intro x
    unfold InRange
    rw [hk, hk]
    simp only [List.length_map, List.length_range]
    rw [insertAt_le _ _ _ e2, insertAt_gt _ _ _ e3]
  · intro x
    have hN : N (knotAt (s.knots.take (l + 1) ++ [t] ++ s.knots.drop (l + 1))) = N (insertAt (knotAt s.knots) l t) := by
      rw [funext hk]
    ext
    · simp only [curve, weighted, List.length_map, List.length_range, hN]
      rw [weighted_insert _ hm l t e4 e5 x s.degree s.points.length (fun i => (s.points.map Vec.x).getD i 0) e2 e3]
      apply Finset.sum_congr rfl
      intro i hi
      rw [Finset.mem_range] at hi
      rw [getD_map_x, List.getD_eq_getElem?_getD, List.getElem?_map, List.getElem?_range hi]
      simp only [Option.map_some, Option.getD_some, lerp, Vec.add_x, Vec.smul_x, getD_map_x]
      ring
    · simp only [curve, weighted, List.length_map, List.length_range, hN]
      rw [weighted_insert _ hm l t e4 e5 x s.degree s.points.length (fun i => (s.points.map Vec.y).getD i 0) e2 e3]
      apply Finset.sum_congr rfl
      intro i hi
      rw [Finset.mem_range] at hi
      rw [getD_map_y, List.getD_eq_getElem?_getD, List.getElem?_map, List.getElem?_range hi]
      simp only [Option.map_some, Option.getD_some, lerp, Vec.add_y, Vec.smul_y, getD_map_y]
      ring

/-- C54, in terms of evaluation: inside the range, the new spline is evaluated to the same points. -/
theorem insertKnot_pointAt {K : Type} [Field K] [LinearOrder K] [IsStrictOrderedRing K] [FloorRing K] (s : BSpline K) (hv : Valid s) (t : K)
    (ht : InRange s t) : ∃ s', s.insertKnot t = .ok s' ∧ ∀ x, InRange s x → s'.pointAt x = s.pointAt x := by
  obtain ⟨s', h1, h2, -, -, -, -, -, h7, h8⟩ := insertKnot_spec s hv t ht
  refine ⟨s', h1, fun x hx => ?_⟩
  rw [pointAt_curve s' h2 x ((h7 x).2 hx), pointAt_curve s hv x hx, h8]

example : ∃ s', sample.insertKnot 1 = .ok s' ∧ s'.points = [⟨0, 0⟩, ⟨1, 2⟩, ⟨2, 5 / 2⟩, ⟨3, 3⟩, ⟨4, 0⟩] ∧ s'.knots = [0, 0, 0, 1, 1, 2, 2, 2] :=
  ⟨⟨[⟨0, 0⟩, ⟨1, 2⟩, ⟨2, 5 / 2⟩, ⟨3, 3⟩, ⟨4, 0⟩], 2, false, [0, 0, 0, 1, 1, 2, 2, 2], false⟩, by decide +kernel, rfl, rfl⟩

/-- C54 is false at the end of the curve: a spline without given knots is evaluated to its last point at the end; after any insertion
inside the range, the same parameter raises `TypeError`. -/
theorem insertKnot_end_wrong {K : Type} [Field K] [LinearOrder K] [IsStrictOrderedRing K] [FloorRing K] (s : BSpline K) (h : IsUniform s) (t : K)
    (ht : InRange s t) : ∃ s' p, s.insertKnot t = .ok s' ∧ s.pointAt ((s.points.length : K) - s.degree) = .ok p ∧
      s'.pointAt ((s.points.length : K) - s.degree) = .error .typeError := by
  obtain ⟨hv, -, -, ⟨p, -, hp⟩, -⟩ := pointAt_uniform s h
  obtain ⟨s', h1, h2, h3, h4, h5, h6, -, h7, -⟩ := insertKnot_spec s hv t ht
  refine ⟨s', p, h1, hp, pointAt_end_wrong s' h3 h2.1 _ ?_⟩
  have hlen := hv.1.length
  have hlen' := h2.1.length
  have hm' := knotAt_mono s'.knots h2.1.sorted
  have hm := knotAt_mono s.knots hv.1.sorted
  have hpts := hv.1.points
  have hl : knotAt s.knots (s.knots.length - 1) = (s.points.length : K) - s.degree := by
    rw [uniform_knotAt h _ (by omega), show min (s.knots.length - 1 - s.degree) (s.points.length - s.degree) = s.points.length - s.degree by omega,
      Nat.cast_sub (by omega)]
  rw [List.getLast?_eq_getElem?, knotAt_lt _ _ (by omega)]
  congr 1
  -- the last element of a sorted list is its largest element
  have hmem : knotAt s'.knots (s'.knots.length - 1) ∈ t :: s.knots := by
    rw [← h6.mem_iff]
    exact List.mem_iff_getElem?.2 ⟨_, knotAt_lt _ _ (by omega)⟩
  have hmem2 : (s.points.length : K) - s.degree ∈ s'.knots := by
    rw [h6.mem_iff]
    exact List.mem_cons_of_mem _ (List.mem_iff_getElem?.2 ⟨_, by rw [knotAt_lt s.knots (s.knots.length - 1) (by omega), hl]⟩)
  apply le_antisymm
  · rcases List.mem_cons.1 hmem with e | e
    · rw [e]
      have := ht.2
      rw [uniform_knotAt h _ (by omega), min_self, Nat.cast_sub (by omega)] at this
      exact this.le
    · obtain ⟨i, hi⟩ := List.mem_iff_getElem?.1 e
      have hil := (List.getElem?_eq_some_iff.1 hi).1
      rw [knotAt_lt _ _ hil] at hi
      injection hi with hi
      rw [← hi, ← hl]; exact hm (by omega)
  · obtain ⟨i, hi⟩ := List.mem_iff_getElem?.1 hmem2
    have hil := (List.getElem?_eq_some_iff.1 hi).1
    rw [knotAt_lt _ _ hil] at hi
    injection hi with hi
    rw [← hi]; exact hm' (by omega)

end Patro.Spline
