import Verif.Proof.IterTools
/-!
# C11, C12: iteration helpers

All statements use only list indexing `s[i]?`, `List.length` and the model functions.
-/

namespace Patro.IterTools

open Patro

variable {α : Type _}

/-- C11 `closed_iterator`: on a non-empty sequence, the sequence followed by its first item. -/
theorem closedIterator_spec (a : α) (t : List α) :
    closedIterator (a :: t) = .ok ((a :: t) ++ [a]) := by
  have hlen : (a :: t).length ≠ 0 := by simp
  have key : closedIterator (a :: t)
      = .ok ((List.range ((a :: t).length + 1)).map
          fun i => (a :: t)[i % (a :: t).length]'(Nat.mod_lt _ (by simp))) := by
    apply mapM_ok_of_forall
    intro i _
    have hlt : i % (a :: t).length < (a :: t).length := Nat.mod_lt _ (by simp)
    simp only [Py.mod, hlen, if_false, bind, Except.bind, Py.getItem,
      List.getElem?_eq_getElem hlt]
  rw [key]
  congr 1
  apply List.ext_getElem
  · simp
  · intro i h1 h2
    simp only [List.length_map, List.length_range] at h1
    simp only [List.getElem_map, List.getElem_range]
    by_cases hi : i < (a :: t).length
    · rw [List.getElem_append_left hi]
      congr 1
      exact Nat.mod_eq_of_lt hi
    · have : i = (a :: t).length := by omega
      subst this
      rw [List.getElem_append_right (Nat.le_refl _)]
      simp

/-- C11 `closed_iterator` of an empty sequence raises. -/
theorem closedIterator_nil : closedIterator ([] : List α) = .error .zeroDivisionError := rfl

/-- C11 `pairwise`: on a non-empty sequence the i-th yielded pair is `(s[i], s[i+1])`, and there are
exactly `len(s) - 1` of them. -/
theorem pairwise_spec (s : List α) (hs : s ≠ []) :
    ∃ r, pairwise s = .ok r ∧ r.length = s.length - 1 ∧
      ∀ i (h : i < r.length) (h1 : i < s.length) (h2 : i + 1 < s.length), r[i] = (s[i], s[i + 1]) := by
  cases s with
  | nil => exact absurd rfl hs
  | cons a t =>
    refine ⟨pairwiseLoop a t, rfl, by simp [pairwiseLoop_length], ?_⟩
    intro i h h1 h2
    have hp := pairwiseLoop_getElem? a t i
    rw [List.getElem?_eq_getElem h, List.getElem?_eq_getElem h1, List.getElem?_eq_getElem h2] at hp
    exact Option.some.inj hp

/-- C11 `pairwise` of an empty sequence raises `IndexError`. -/
theorem pairwise_nil : pairwise ([] : List α) = .error .indexError := rfl

/-- C11 `closed_pairwise`: one pair per item, the i-th one being `(s[i], s[i+1])`, and the last one
`(s[N-1], s[0])`; nothing for an empty sequence. -/
theorem closedPairwise_spec (s : List α) :
    ∃ r, closedPairwise s = .ok r ∧ ∃ hl : r.length = s.length,
      (∀ i (h : i + 1 < s.length), r[i] = (s[i], s[i + 1])) ∧
      (∀ h : 0 < s.length, r[s.length - 1] = (s[s.length - 1], s[0])) := by
  have key : closedPairwise s = .ok ((List.range s.length).pmap
      (fun i h => (s[i]'h, s[(i + 1) % s.length]'(Nat.mod_lt _ (Nat.zero_lt_of_lt h))))
      (fun i h => List.mem_range.1 h)) := by
    unfold closedPairwise
    have aux : ∀ (l : List Nat) (hl : ∀ i ∈ l, i < s.length),
        (l.mapM fun i => do
          let a ← Py.getItem s i
          let j ← Py.mod (i + 1) s.length
          let b ← Py.getItem s j
          (Except.ok (a, b) : Except PyErr (α × α))) = .ok (l.pmap
          (fun i h => (s[i]'h, s[(i + 1) % s.length]'(Nat.mod_lt _ (Nat.zero_lt_of_lt h)))) hl) := by
      intro l
      induction l with
      | nil => intro _; rfl
      | cons i l ih =>
        intro hl
        have hi : i < s.length := hl i (by simp)
        have h0 : s.length ≠ 0 := by omega
        have hm : (i + 1) % s.length < s.length := Nat.mod_lt _ (by omega)
        rw [List.mapM_cons, ih (fun x hx => hl x (by simp [hx]))]
        simp only [Py.getItem, List.getElem?_eq_getElem hi, bind, Except.bind, Py.mod, h0, if_false,
          List.getElem?_eq_getElem hm, List.pmap_cons, pure, Except.pure]
    exact aux _ _
  refine ⟨_, key, by simp, ?_, ?_⟩
  · intro i h
    simp [List.getElem_pmap, Nat.mod_eq_of_lt h]
  · intro h
    have : s.length - 1 + 1 = s.length := by omega
    simp [List.getElem_pmap, this]

/-- C12 `multiwise`: for `n ≥ 1` exactly the `len(s) - n + 1` contiguous windows of length `n`, in
order (none when `n > len(s)`). -/
theorem multiwise_spec (s : List α) (n : Nat) (hn : 1 ≤ n) :
    (multiwise s n).length = s.length + 1 - n ∧
    ∀ i (h : i < (multiwise s n).length),
      (multiwise s n)[i].length = n ∧
      ∀ j, j < n → (multiwise s n)[i][j]? = s[i + j]? := by
  obtain ⟨m, rfl⟩ : ∃ m, n = m + 1 := ⟨n - 1, by omega⟩
  have key : multiwise s (m + 1) =
      (List.range' 0 (s.length - m)).map fun i => (s.drop i).take (m + 1) := by
    unfold multiwise
    simp only [advanceTimes_eq]
    rw [List.range_eq_range', List.range'_succ, List.map_cons]
    exact zipFrom_drops s m s.length 0 (by omega)
  rw [key]
  refine ⟨by simp, ?_⟩
  intro i h
  simp only [List.length_map, List.length_range'] at h
  simp only [List.getElem_map, List.getElem_range']
  refine ⟨by simp; omega, ?_⟩
  intro j hj
  rw [List.getElem?_take_of_lt hj, List.getElem?_drop]
  congr 1
  omega

/-- C12 `multiwise(s, 0)` yields nothing. -/
theorem multiwise_zero (s : List α) : multiwise s 0 = [] := rfl

/-- C12 `closed_multiwise_index_iterator`: `N` windows of `n` valid indices; the j-th entry of the
window i is `(i + j) mod N`. -/
theorem closedMultiwiseIndex_spec (N n : Nat) :
    ∃ r, closedMultiwiseIndex N n = .ok r ∧ ∃ hl : r.length = N,
      ∀ i (h : i < N), ∃ hw : r[i].length = n,
        ∀ j (hj : j < n), r[i][j] = (i + j) % N ∧ r[i][j] < N := by
  have key : closedMultiwiseIndex N n
      = .ok ((List.range N).map fun i => (List.range n).map fun j => (i + j) % N) := by
    apply mapM_ok_of_forall
    intro i hi
    have hN : N ≠ 0 := by have := List.mem_range.1 hi; omega
    apply mapM_ok_of_forall
    intro j _
    simp [Py.mod, hN]
  refine ⟨_, key, by simp, ?_⟩
  intro i h
  refine ⟨by simp, ?_⟩
  intro j hj
  simp only [List.getElem_map, List.getElem_range]
  exact ⟨trivial, Nat.mod_lt _ (by omega)⟩

/-! Concrete instances (hypotheses are satisfiable, results as in the docstrings). -/

example : multiwise [1, 2, 3, 4, 5] 2 = [[1, 2], [2, 3], [3, 4], [4, 5]] := by decide
example : multiwise [1, 2, 3, 4, 5] 6 = [] := by decide
example : (match closedIterator [1, 2, 3] with | .ok r => r | .error _ => []) = [1, 2, 3, 1] := by
  decide
example : (match pairwise [1, 2, 3] with | .ok r => r | .error _ => []) = [(1, 2), (2, 3)] := by
  decide
example : (match closedPairwise [1, 2, 3] with | .ok r => r | .error _ => [])
    = [(1, 2), (2, 3), (3, 1)] := by decide

end Patro.IterTools
