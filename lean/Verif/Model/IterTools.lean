import Verif.Model.Py
/-!
# Model of `Patro/Common/IterTools.py`

A generator is modelled by the list of the values it yields until exhaustion, or by the exception it
raises while being consumed.
-/

namespace Patro.IterTools

open Patro

variable {α : Type _}

/-- `closed_iterator` (Patro/Common/IterTools.py:37-47): the loop over `range(n + 1)` yielding
`iterable[i % n]`. -/
def closedIterator (s : List α) : Except PyErr (List α) :=
  (List.range (s.length + 1)).mapM fun i => do
    let j ← Py.mod i s.length
    Py.getItem s j

/-- The `for x in iterable[1:]` loop of `pairwise` with its variable `prev`
(Patro/Common/IterTools.py:60-62). -/
def pairwiseLoop : α → List α → List (α × α)
  | _, [] => []
  | prev, x :: xs => (prev, x) :: pairwiseLoop x xs

/-- `pairwise` (Patro/Common/IterTools.py:51-62). -/
def pairwise (s : List α) : Except PyErr (List (α × α)) := do
  let prev ← Py.getItem s 0
  .ok (pairwiseLoop prev (s.drop 1))

/-- `closed_pairwise` (Patro/Common/IterTools.py:66-76). -/
def closedPairwise (s : List α) : Except PyErr (List (α × α)) :=
  (List.range s.length).mapM fun i => do
    let a ← Py.getItem s i
    let j ← Py.mod (i + 1) s.length
    let b ← Py.getItem s j
    .ok (a, b)

/-- `next(iterator, None)` with the result dropped (Patro/Common/IterTools.py:112); an iterator is
the list of its remaining items. -/
def advance (iterator : List α) : List α := iterator.tail

/-- The inner loop `for j in range(i): next(iterator, None)` (Patro/Common/IterTools.py:111-112). -/
def advanceTimes : Nat → List α → List α
  | 0, it => it
  | n + 1, it => advanceTimes n (advance it)

/-- One round of `zip`: take the next item of each iterator in turn, `none` when one is exhausted. -/
def zipRound : List (List α) → Option (List α × List (List α))
  | [] => some ([], [])
  | [] :: _ => none
  | (x :: xs) :: its =>
    match zipRound its with
    | none => none
    | some (heads, tails) => some (x :: heads, xs :: tails)

/-- `zip(first, *others)`: rounds until an iterator is exhausted. -/
def zipFrom : List α → List (List α) → List (List α)
  | [], _ => []
  | x :: xs, its =>
    match zipRound its with
    | none => []
    | some (heads, tails) => (x :: heads) :: zipFrom xs tails

/-- `zip(*iterators)`; `zip()` yields nothing. -/
def pyZip : List (List α) → List (List α)
  | [] => []
  | it :: its => zipFrom it its

/-- `multiwise` (Patro/Common/IterTools.py:80-116): `tee`, shift the i-th copy by i, `zip`. -/
def multiwise (s : List α) (n : Nat) : List (List α) :=
  pyZip ((List.range n).map fun i => advanceTimes i s)

/-- `closed_multiwise_index_iterator` (Patro/Common/IterTools.py:127-129). -/
def closedMultiwiseIndex (numberOfItems n : Nat) : Except PyErr (List (List Nat)) :=
  (List.range numberOfItems).mapM fun i =>
    (List.range n).mapM fun j => Py.mod (i + j) numberOfItems

end Patro.IterTools
