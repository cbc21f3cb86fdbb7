import Verif.Spec.Spline
import Mathlib.Tactic.Ring
import Mathlib.Tactic.FieldSimp
import Mathlib.Tactic.Linarith
import Mathlib.Algebra.BigOperators.Ring.Finset
import Mathlib.Algebra.Order.Ring.Rat
import Mathlib.Algebra.Order.BigOperators.Group.Finset
/-! # Proofs about the B-spline basis -/

namespace Patro.Spline

variable {K : Type _} [Field K] [LinearOrder K] [IsStrictOrderedRing K]

/-! ## Basis functions -/

/-- Local support. -/
theorem N_support (u : Nat → K) (hu : Monotone u) (t : K) : ∀ p i, (t < u i ∨ u (i + p + 1) ≤ t) → N u p i t = 0 := by
  intro p
  induction p with
  | zero =>
    intro i h
    rw [N, if_neg]
    rintro ⟨h1, h2⟩
    rcases h with h | h
    · exact absurd h1 (not_le.2 h)
    · exact absurd h2 (not_lt.2 h)
  | succ p ih =>
    intro i h
    have h1 : N u p i t = 0 := ih i (h.imp id fun h => (hu (by omega)).trans h)
    have h2 : N u p (i + 1) t = 0 := ih (i + 1) (h.imp (fun h => h.trans_le (hu (by omega))) fun h => by
      rwa [show i + 1 + p + 1 = i + (p + 1) + 1 by omega])
    rw [N, h1, h2]
    simp

/-- A basis function with no room is null. -/
theorem N_empty (u : Nat → K) (hu : Monotone u) (t : K) (p i : Nat) (h : u (i + p + 1) = u i) : N u p i t = 0 := by
  apply N_support u hu
  rcases lt_or_ge t (u i) with h' | h'
  · exact .inl h'
  · exact .inr (h ▸ h')

theorem N_nonneg (u : Nat → K) (hu : Monotone u) (t : K) : ∀ p i, 0 ≤ N u p i t := by
  intro p
  induction p with
  | zero => intro i; rw [N]; split <;> simp
  | succ p ih =>
    intro i
    rcases lt_or_ge t (u i) with h1 | h1
    · rw [N_support u hu t (p + 1) i (.inl h1)]
    rcases lt_or_ge t (u (i + (p + 1) + 1)) with h2 | h2
    · rw [N]
      apply add_nonneg
      · split
        · exact le_rfl
        · exact mul_nonneg (div_nonneg (sub_nonneg.2 h1) (sub_nonneg.2 (hu (by omega)))) (ih i)
      · split
        · exact le_rfl
        · exact mul_nonneg (div_nonneg (sub_nonneg.2 h2.le) (sub_nonneg.2 (hu (by omega)))) (ih (i + 1))
    · rw [N_support u hu t (p + 1) i (.inr h2)]

/-- One step of De Boor's algorithm, on the weighted sums of the functions that do not vanish on a span. -/
theorem deboor_sum_step (u : Nat → K) (hu : Monotone u) (c : Nat → K) (t : K) (b p : Nat)
    (h1 : u (b + p + 1) ≤ t) (h2 : t < u (b + p + 2)) :
    ∑ j ∈ Finset.range (p + 2), c (b + j) * N u (p + 1) (b + j) t =
    ∑ j ∈ Finset.range (p + 1),
      (c (b + j) * (1 - (t - u (b + j + 1)) / (u (b + j + p + 2) - u (b + j + 1))) +
        c (b + j + 1) * ((t - u (b + j + 1)) / (u (b + j + p + 2) - u (b + j + 1)))) * N u p (b + 1 + j) t := by
  have hsplit : ∀ j ∈ Finset.range (p + 2), c (b + j) * N u (p + 1) (b + j) t =
      c (b + j) * ((t - u (b + j)) / (u (b + j + p + 1) - u (b + j))) * N u p (b + j) t +
      c (b + j) * ((u (b + j + p + 2) - t) / (u (b + j + p + 2) - u (b + j + 1))) * N u p (b + j + 1) t := by
    intro j _
    rw [N]
    rw [mul_add]
    congr 1
    · split
      · rename_i h; rw [N_empty u hu t p (b + j) h]; ring
      · ring
    · split
      · rename_i h
        rw [N_empty u hu t p (b + j + 1) (by rw [← h]; congr 1; omega)]; ring
      · ring
  rw [Finset.sum_congr rfl hsplit, Finset.sum_add_distrib, Finset.sum_range_succ' _ (p + 1), Finset.sum_range_succ _ (p + 1)]
  have z1 : N u p (b + 0) t = 0 := N_support u hu t p _ (.inr (by simpa using h1))
  have z2 : N u p (b + (p + 1) + 1) t = 0 := N_support u hu t p _ (.inl (by
    rw [show b + (p + 1) + 1 = b + p + 2 by omega]; exact h2))
  rw [z1, z2, mul_zero, mul_zero, add_zero, add_zero, ← Finset.sum_add_distrib]
  apply Finset.sum_congr rfl
  intro j hj
  have hj : j < p + 1 := Finset.mem_range.1 hj
  have hne : u (b + j + p + 2) - u (b + j + 1) ≠ 0 := by
    have a1 : u (b + j + 1) ≤ u (b + p + 1) := hu (by omega)
    have a2 : u (b + p + 2) ≤ u (b + j + p + 2) := hu (by omega)
    have : u (b + j + 1) < u (b + j + p + 2) := lt_of_le_of_lt (a1.trans h1) (lt_of_lt_of_le h2 a2)
    exact sub_ne_zero.2 this.ne'
  rw [show b + (j + 1) = b + j + 1 by omega, show b + j + 1 + p + 1 = b + j + p + 2 by omega, show b + 1 + j = b + j + 1 by omega]
  have : (u (b + j + p + 2) - t) / (u (b + j + p + 2) - u (b + j + 1)) = 1 - (t - u (b + j + 1)) / (u (b + j + p + 2) - u (b + j + 1)) := by
    field_simp; ring
  rw [this]
  ring

/-- A weighted sum reduces to the functions that do not vanish on the span of index `l`. -/
theorem weighted_span (u : Nat → K) (hu : Monotone u) (p l n : Nat) (f : Nat → K) (t : K) (hp : p ≤ l) (hn : l < n)
    (h1 : u l ≤ t) (h2 : t < u (l + 1)) :
    ∑ i ∈ Finset.range n, f i * N u p i t = ∑ j ∈ Finset.range (p + 1), f (l - p + j) * N u p (l - p + j) t := by
  rw [← Finset.sum_subset (s₁ := Finset.Ico (l - p) (l + 1))]
  · rw [Finset.sum_Ico_eq_sum_range]
    congr 2
    omega
  · intro i hi
    rw [Finset.mem_Ico] at hi
    exact Finset.mem_range.2 (by omega)
  · intro i hi hni
    rw [Finset.mem_Ico] at hni
    rw [N_support u hu t p i, mul_zero]
    rcases Nat.lt_or_ge l i with h | h
    · exact .inl (h2.trans_le (hu (by omega)))
    · exact .inr ((hu (by omega)).trans h1)

/-- The functions that do not vanish on a span sum to one. -/
theorem N_sum_span (u : Nat → K) (hu : Monotone u) (t : K) : ∀ (p l : Nat), p ≤ l → u l ≤ t → t < u (l + 1) →
    ∑ j ∈ Finset.range (p + 1), N u p (l - p + j) t = 1 := by
  intro p
  induction p with
  | zero => intro l _ h1 h2; rw [Finset.sum_range_one, N, if_pos]; simpa using ⟨h1, h2⟩
  | succ p ih =>
    intro l hp h1 h2
    have := deboor_sum_step u hu (fun _ => 1) t (l - (p + 1)) p (by rwa [show l - (p + 1) + p + 1 = l by omega])
      (by rwa [show l - (p + 1) + p + 2 = l + 1 by omega])
    simp only [one_mul, sub_add_cancel] at this
    rw [show p + 1 + 1 = p + 2 by omega, this, show l - (p + 1) + 1 = l - p by omega]
    exact ih l (by omega) h1 h2

/-! ## Knot insertion -/

/-- The knots with `t` inserted after the index `l`. -/
def insertAt (u : Nat → K) (l : Nat) (t : K) (j : Nat) : K := if j ≤ l then u j else if j = l + 1 then t else u (j - 1)

/-- The weight of the point `i` in the new point `i`. -/
def weight (u : Nat → K) (l : Nat) (t : K) (p i : Nat) : K :=
  if i + p ≤ l then 1 else if l < i then 0 else (t - u i) / (u (i + p) - u i)

theorem insertAt_mono (u : Nat → K) (hu : Monotone u) (l : Nat) (t : K) (h1 : u l ≤ t) (h2 : t ≤ u (l + 1)) : Monotone (insertAt u l t) := by
  apply monotone_nat_of_le_succ
  intro j
  unfold insertAt
  rcases Nat.lt_trichotomy j l with h | h | h
  · rw [if_pos (by omega : j ≤ l), if_pos (by omega : j + 1 ≤ l)]; exact hu (by omega)
  · subst h; rw [if_pos le_rfl, if_neg (by omega : ¬ j + 1 ≤ j), if_pos rfl]; exact h1
  · rw [if_neg (by omega : ¬ j ≤ l), if_neg (by omega : ¬ j + 1 ≤ l), if_neg (by omega : ¬ j + 1 = l + 1)]
    split
    · rename_i h'; subst h'; simpa using h2
    · exact hu (by omega)

theorem insertAt_le (u : Nat → K) (l : Nat) (t : K) {j : Nat} (h : j ≤ l) : insertAt u l t j = u j := if_pos h
theorem insertAt_self (u : Nat → K) (l : Nat) (t : K) : insertAt u l t (l + 1) = t := by simp [insertAt]
theorem insertAt_gt (u : Nat → K) (l : Nat) (t : K) {j : Nat} (h : l < j) : insertAt u l t (j + 1) = u j := by
  rw [insertAt, if_neg (by omega), if_neg (by omega), Nat.add_sub_cancel]

/-- The ratio in the recursion, with its convention. -/
def ratio (u : Nat → K) (i k : Nat) (x : K) : K := if u (i + k) = u i then 0 else (x - u i) / (u (i + k) - u i)
def ratio' (u : Nat → K) (i k : Nat) (x : K) : K := if u (i + k) = u i then 0 else (u (i + k) - x) / (u (i + k) - u i)

theorem N_succ (u : Nat → K) (p i : Nat) (x : K) :
    N u (p + 1) i x = ratio u i (p + 1) x * N u p i x + ratio' u (i + 1) (p + 1) x * N u p (i + 1) x := by
  rw [N, ratio, ratio']
  rw [show i + (p + 1) = i + p + 1 by omega, show i + 1 + (p + 1) = i + p + 2 by omega]
  split <;> split <;> simp

/-- The identity of knot insertion: each old basis function is a combination of two new ones. -/
theorem N_insert (u : Nat → K) (hu : Monotone u) (l : Nat) (t : K) (h1 : u l ≤ t) (h2 : t < u (l + 1)) (x : K) :
    ∀ p i, N u p i x = weight u l t p i * N (insertAt u l t) p i x + (1 - weight u l t p (i + 1)) * N (insertAt u l t) p (i + 1) x := by
  have hv := insertAt_mono u hu l t h1 h2.le
  have lo : ∀ j, j ≤ l → u j ≤ t := fun j hj => (hu hj).trans h1
  have hi : ∀ j, l < j → t < u j := fun j hj => h2.trans_le (hu hj)
  intro p
  induction p with
  | zero =>
    intro i
    simp only [N, weight, Nat.add_zero]
    rcases Nat.lt_trichotomy i l with h | h | h
    · rw [insertAt_le u l t (by omega), insertAt_le u l t (by omega), if_pos (by omega : i ≤ l), if_pos (by omega : i + 1 ≤ l)]
      simp
    · subst h
      rw [insertAt_le u i t le_rfl, insertAt_self, insertAt_gt u i t (by omega), if_pos le_rfl, if_neg (by omega : ¬ i + 1 ≤ i),
        if_pos (by omega : i < i + 1)]
      rcases lt_or_ge x t with hx | hx
      · have : x < u (i + 1) := hx.trans h2
        simp [hx, this, not_le.2 hx]
      · have : u i ≤ x := h1.trans hx
        simp [hx, this, not_lt.2 hx]
    · rw [if_neg (by omega : ¬ i ≤ l), if_pos h, if_neg (by omega : ¬ i + 1 ≤ l), if_pos (by omega : l < i + 1),
        insertAt_gt u l t h, insertAt_gt u l t (by omega : l < i + 1)]
      simp
  | succ p ih =>
    intro i
    rw [N_succ, ih i, ih (i + 1), N_succ, N_succ]
    have I1 : ratio u i (p + 1) x * weight u l t p i * N (insertAt u l t) p i x =
        weight u l t (p + 1) i * ratio (insertAt u l t) i (p + 1) x * N (insertAt u l t) p i x := by
      rcases Nat.lt_or_ge l i with hli | hli
      · simp [weight, hli, show ¬ i + p ≤ l by omega, show ¬ i + (p + 1) ≤ l by omega]
      rcases Nat.lt_trichotomy (i + p) l with h | h | h
      · congr 1
        simp only [weight, ratio, if_pos (by omega : i + p ≤ l), if_pos (by omega : i + (p + 1) ≤ l), insertAt_le u l t (by omega : i ≤ l),
          insertAt_le u l t (by omega : i + (p + 1) ≤ l)]
        ring
      · rcases (lo i hli).lt_or_eq with ht | ht
        · congr 1
          have := hi (i + (p + 1)) (by omega)
          simp only [weight, ratio, if_pos (by omega : i + p ≤ l), if_neg (by omega : ¬ i + (p + 1) ≤ l), if_neg (by omega : ¬ l < i),
            insertAt_le u l t (by omega : i ≤ l), show i + (p + 1) = l + 1 by omega, insertAt_self, if_neg (by omega : ¬ l + 1 ≤ l)]
          rw [show i + (p + 1) = l + 1 by omega] at this
          have n1 : u (l + 1) - u i ≠ 0 := by linarith
          have n2 : t - u i ≠ 0 := by linarith
          simp only [if_neg (sub_ne_zero.1 n1), if_neg (sub_ne_zero.1 n2)]
          field_simp
        · rw [N_empty _ hv x p i (by
            rw [show i + p + 1 = l + 1 by omega, insertAt_self, insertAt_le u l t hli, ht])]
          simp
      · congr 1
        have a1 := lo i hli
        have a2 := hi (i + p) h
        have a3 := hi (i + (p + 1)) (by omega)
        have e : insertAt u l t (i + (p + 1)) = u (i + p) := insertAt_gt u l t h
        simp only [weight, ratio, if_neg (by omega : ¬ i + p ≤ l), if_neg (by omega : ¬ i + (p + 1) ≤ l), if_neg (by omega : ¬ l < i),
          insertAt_le u l t hli, e]
        have n1 : u (i + p) - u i ≠ 0 := by linarith
        have n2 : u (i + (p + 1)) - u i ≠ 0 := by linarith
        simp only [if_neg (sub_ne_zero.1 n1), if_neg (sub_ne_zero.1 n2)]
        field_simp
    have I3 : ratio' u (i + 1) (p + 1) x * (1 - weight u l t p (i + 1 + 1)) * N (insertAt u l t) p (i + 1 + 1) x =
        (1 - weight u l t (p + 1) (i + 1)) * ratio' (insertAt u l t) (i + 1 + 1) (p + 1) x * N (insertAt u l t) p (i + 1 + 1) x := by
      congr 1
      rcases Nat.lt_or_ge l (i + 1 + 1 + p) with h | h
      · have e : insertAt u l t (i + 1 + 1 + (p + 1)) = u (i + 1 + (p + 1)) := by
          rw [show i + 1 + 1 + (p + 1) = i + 1 + (p + 1) + 1 by omega]; exact insertAt_gt u l t (by omega)
        have a3 := hi (i + 1 + (p + 1)) (by omega)
        rcases Nat.lt_trichotomy (i + 1) l with h' | h' | h'
        · have a1 := lo (i + 1) (by omega)
          have a2 := lo (i + 1 + 1) (by omega)
          simp only [weight, ratio', if_neg (by omega : ¬ i + 1 + 1 + p ≤ l), if_neg (by omega : ¬ i + 1 + (p + 1) ≤ l),
            if_neg (by omega : ¬ l < i + 1), if_neg (by omega : ¬ l < i + 1 + 1), e, insertAt_le u l t (by omega : i + 1 + 1 ≤ l)]
          rw [show i + 1 + 1 + p = i + 1 + (p + 1) by omega]
          have n1 : u (i + 1 + (p + 1)) - u (i + 1) ≠ 0 := by linarith
          have n2 : u (i + 1 + (p + 1)) - u (i + 1 + 1) ≠ 0 := by linarith
          simp only [if_neg (sub_ne_zero.1 n1), if_neg (sub_ne_zero.1 n2)]
          field_simp
          ring
        · have a1 := lo (i + 1) (by omega)
          simp only [weight, ratio', if_neg (by omega : ¬ i + 1 + 1 + p ≤ l), if_neg (by omega : ¬ i + 1 + (p + 1) ≤ l),
            if_neg (by omega : ¬ l < i + 1), if_pos (by omega : l < i + 1 + 1), e]
          rw [show insertAt u l t (i + 1 + 1) = t by rw [h', insertAt_self]]
          have n1 : u (i + 1 + (p + 1)) - u (i + 1) ≠ 0 := by linarith
          have n2 : u (i + 1 + (p + 1)) - t ≠ 0 := by linarith
          simp only [if_neg (sub_ne_zero.1 n1), if_neg (sub_ne_zero.1 n2)]
          field_simp
          ring
        · simp only [weight, ratio', if_neg (by omega : ¬ i + 1 + 1 + p ≤ l), if_neg (by omega : ¬ i + 1 + (p + 1) ≤ l),
            if_pos (by omega : l < i + 1), if_pos (by omega : l < i + 1 + 1), e, insertAt_gt u l t (by omega : l < i + 1)]
          ring
      · simp [weight, show i + 1 + 1 + p ≤ l by omega, show i + 1 + (p + 1) ≤ l by omega]
    have I2 : (ratio u i (p + 1) x * (1 - weight u l t p (i + 1)) + ratio' u (i + 1) (p + 1) x * weight u l t p (i + 1)) *
          N (insertAt u l t) p (i + 1) x =
        (weight u l t (p + 1) i * ratio' (insertAt u l t) (i + 1) (p + 1) x +
          (1 - weight u l t (p + 1) (i + 1)) * ratio (insertAt u l t) (i + 1) (p + 1) x) * N (insertAt u l t) p (i + 1) x := by
      rcases Nat.lt_or_ge l i with hli | hli
      · congr 1
        have e : insertAt u l t (i + 1 + (p + 1)) = u (i + (p + 1)) := by
          rw [show i + 1 + (p + 1) = i + (p + 1) + 1 by omega]; exact insertAt_gt u l t (by omega)
        simp only [weight, ratio, ratio', if_neg (by omega : ¬ i + 1 + p ≤ l), if_neg (by omega : ¬ i + (p + 1) ≤ l),
          if_neg (by omega : ¬ i + 1 + (p + 1) ≤ l), if_pos hli, if_pos (by omega : l < i + 1), e, insertAt_gt u l t hli]
        ring
      rcases Nat.lt_or_ge i l with hli' | hli'
      · -- i + 1 ≤ l
        rcases Nat.lt_trichotomy (i + 1 + p) l with h | h | h
        · congr 1
          simp only [weight, ratio, ratio', if_pos (by omega : i + 1 + p ≤ l), if_pos (by omega : i + (p + 1) ≤ l),
            if_pos (by omega : i + 1 + (p + 1) ≤ l), insertAt_le u l t (by omega : i + 1 ≤ l),
            insertAt_le u l t (by omega : i + 1 + (p + 1) ≤ l)]
          ring
        · rcases (lo (i + 1) hli').lt_or_eq with ht | ht
          · congr 1
            have a := hi (l + 1) (by omega)
            simp only [weight, ratio, ratio', if_pos (by omega : i + 1 + p ≤ l), if_pos (by omega : i + (p + 1) ≤ l),
              if_neg (by omega : ¬ i + 1 + (p + 1) ≤ l), if_neg (by omega : ¬ l < i + 1), insertAt_le u l t hli',
              show i + 1 + (p + 1) = l + 1 by omega, insertAt_self, if_neg (by omega : ¬ l + 1 ≤ l)]
            have n1 : u (l + 1) - u (i + 1) ≠ 0 := by linarith
            have n2 : t - u (i + 1) ≠ 0 := by linarith
            simp only [if_neg (sub_ne_zero.1 n1), if_neg (sub_ne_zero.1 n2)]
            field_simp
            ring
          · rw [N_empty _ hv x p (i + 1) (by
              rw [show i + 1 + p + 1 = l + 1 by omega, insertAt_self, insertAt_le u l t hli', ht])]
            simp
        · congr 1
          have a0 := lo i hli
          have a1 := lo (i + 1) hli'
          have a2 := hi (i + (p + 1)) (by omega)
          have a3 := hi (i + 1 + (p + 1)) (by omega)
          have e : insertAt u l t (i + 1 + (p + 1)) = u (i + (p + 1)) := by
            rw [show i + 1 + (p + 1) = i + (p + 1) + 1 by omega]; exact insertAt_gt u l t (by omega)
          simp only [weight, ratio, ratio', if_neg (by omega : ¬ i + 1 + p ≤ l), if_neg (by omega : ¬ i + (p + 1) ≤ l),
            if_neg (by omega : ¬ i + 1 + (p + 1) ≤ l), if_neg (by omega : ¬ l < i), if_neg (by omega : ¬ l < i + 1), e,
            insertAt_le u l t hli']
          rw [show i + 1 + p = i + (p + 1) by omega]
          have n1 : u (i + (p + 1)) - u i ≠ 0 := by linarith
          have n2 : u (i + (p + 1)) - u (i + 1) ≠ 0 := by linarith
          have n3 : u (i + 1 + (p + 1)) - u (i + 1) ≠ 0 := by linarith
          simp only [if_neg (sub_ne_zero.1 n1), if_neg (sub_ne_zero.1 n2), if_neg (sub_ne_zero.1 n3)]
          field_simp
          ring
      · -- i = l
        have hil : i = l := by omega
        subst hil
        congr 1
        have a2 := hi (i + (p + 1)) (by omega)
        have e : insertAt u i t (i + 1 + (p + 1)) = u (i + (p + 1)) := by
          rw [show i + 1 + (p + 1) = i + (p + 1) + 1 by omega]; exact insertAt_gt u i t (by omega)
        simp only [weight, ratio, ratio', if_neg (by omega : ¬ i + 1 + p ≤ i), if_neg (by omega : ¬ i + (p + 1) ≤ i),
          if_neg (by omega : ¬ i + 1 + (p + 1) ≤ i), if_neg (by omega : ¬ i < i), if_pos (by omega : i < i + 1), e, insertAt_self]
        have n1 : u (i + (p + 1)) - u i ≠ 0 := by linarith
        have n2 : u (i + (p + 1)) - t ≠ 0 := by linarith
        simp only [if_neg (sub_ne_zero.1 n1), if_neg (sub_ne_zero.1 n2)]
        field_simp
        ring
    linear_combination I1 + I2 + I3

end Patro.Spline
