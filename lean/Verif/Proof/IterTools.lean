import Verif.Model.IterTools
/-! # Helper lemmas for the iteration helpers -/

namespace Patro.IterTools

open Patro

variable {α : Type _}

theorem mapM_ok_of_forall {β γ : Type _} (f : β → Except PyErr γ) (g : β → γ) (l : List β)
    (h : ∀ x ∈ l, f x = .ok (g x)) : l.mapM f = .ok (l.map g) := by
  induction l with
  | nil => rfl
  | cons a t ih =>
    rw [List.mapM_cons, h a (by simp), ih (fun x hx => h x (by simp [hx]))]
    rfl

theorem pairwiseLoop_length (p : α) (s : List α) : (pairwiseLoop p s).length = s.length := by
  induction s generalizing p with
  | nil => rfl
  | cons a t ih => simp [pairwiseLoop, ih]

theorem pairwiseLoop_getElem? (p : α) (s : List α) (i : Nat) :
    (pairwiseLoop p s)[i]? = (match (p :: s)[i]?, (p :: s)[i + 1]? with
      | some a, some b => some (a, b)
      | _, _ => none) := by
  induction s generalizing p i with
  | nil => cases i <;> simp [pairwiseLoop]
  | cons a t ih =>
    cases i with
    | zero => simp [pairwiseLoop]
    | succ i =>
      simp only [pairwiseLoop, List.getElem?_cons_succ]
      rw [ih]
      rfl

theorem advanceTimes_eq (n : Nat) (s : List α) : advanceTimes n s = s.drop n := by
  induction n generalizing s with
  | zero => simp [advanceTimes]
  | succ n ih => simp [advanceTimes, advance, ih]

/-- The window number `i` of size `n`, when it exists. -/
theorem zipRound_drops (s : List α) (a m : Nat) :
    zipRound ((List.range' a m).map fun i => s.drop i) =
      if m = 0 ∨ a + m ≤ s.length then
        some ((s.drop a).take m, (List.range' (a + 1) m).map fun i => s.drop i)
      else none := by
  induction m generalizing a with
  | zero => simp [zipRound]
  | succ m ih =>
    simp only [List.range'_succ, List.map_cons]
    by_cases ha : a < s.length
    · rw [List.drop_eq_getElem_cons ha]
      simp only [zipRound]
      rw [ih]
      by_cases hm : m = 0
      · subst hm
        have : a + (0 + 1) ≤ s.length := by omega
        simp only [true_or, if_true, this, or_true, List.range'_zero, List.map_nil,
          List.take_zero, List.drop_eq_getElem_cons ha, List.take_succ_cons, Nat.zero_add,
          List.range'_one, List.map_cons]
      · by_cases hle : a + 1 + m ≤ s.length
        · have : a + (m + 1) ≤ s.length := by omega
          simp only [hle, this, or_true, if_true, List.drop_eq_getElem_cons ha,
            List.take_succ_cons, List.range'_succ, List.map_cons]
        · have : ¬ a + (m + 1) ≤ s.length := by omega
          simp [hle, this, hm]
    · have hd : s.drop a = [] := List.drop_eq_nil_of_le (by omega)
      rw [hd]
      have : ¬ a + (m + 1) ≤ s.length := by omega
      simp [zipRound, this]

theorem zipFrom_drops (s : List α) (m : Nat) (k a : Nat) (hk : s.length ≤ a + k) :
    zipFrom (s.drop a) ((List.range' (a + 1) m).map fun i => s.drop i) =
      (List.range' a (s.length - m - a)).map fun i => (s.drop i).take (m + 1) := by
  induction k generalizing a with
  | zero =>
    have hd : s.drop a = [] := List.drop_eq_nil_of_le (by omega)
    have : s.length - m - a = 0 := by omega
    simp [hd, zipFrom, this]
  | succ k ih =>
    by_cases ha : a < s.length
    · rw [List.drop_eq_getElem_cons ha]
      simp only [zipFrom]
      rw [zipRound_drops]
      by_cases hc : m = 0 ∨ a + 1 + m ≤ s.length
      · rw [if_pos hc]
        simp only
        rw [ih (a + 1) (by omega)]
        have e : s.length - m - a = (s.length - m - (a + 1)) + 1 := by omega
        rw [e, List.range'_succ, List.map_cons]
        congr 1
        rw [List.drop_eq_getElem_cons ha, List.take_succ_cons]
      · rw [if_neg hc]
        have : s.length - m - a = 0 := by omega
        simp [this]
    · have hd : s.drop a = [] := List.drop_eq_nil_of_le (by omega)
      have : s.length - m - a = 0 := by omega
      simp [hd, zipFrom, this]

end Patro.IterTools
