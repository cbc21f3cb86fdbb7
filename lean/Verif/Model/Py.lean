/-!
# Python primitives shared by the model

Exceptions raised by the modelled code are values of `PyErr`; a function that may raise returns
`Except PyErr α`.
-/

namespace Patro

/-- The Python exceptions the modelled code can raise (class only, messages are not modelled). -/
inductive PyErr where
  | nameError
  | keyError
  | valueError
  | indexError
  | typeError
  | attributeError
  | zeroDivisionError
  | notImplementedError
  | unboundLocalError
  | lookupError
  | overflowError
  | recursionError
  | rtreeError
  | osError
  deriving DecidableEq, Repr

namespace Py

/-- `seq[i]` for a non-negative index `i`: `IndexError` when out of range. -/
def getItem {α : Type _} (s : List α) (i : Nat) : Except PyErr α :=
  match s[i]? with
  | some x => .ok x
  | none => .error .indexError

/-- `seq[i]` for an arbitrary Python integer: negative indices count from the end. -/
def getItemInt {α : Type _} (s : List α) (i : Int) : Except PyErr α :=
  if 0 ≤ i then getItem s i.toNat
  else if 0 ≤ i + s.length then getItem s (i + s.length).toNat
  else .error .indexError

/-- `i % n` for natural numbers: `ZeroDivisionError` when `n = 0`. -/
def mod (i n : Nat) : Except PyErr Nat :=
  if n = 0 then .error .zeroDivisionError else .ok (i % n)

end Py

/-! ## Insertion ordered dictionaries -/

/-- A Python `dict`: an association list in insertion order.  Assigning an existing key keeps the
position and replaces the value, exactly like CPython's dict. -/
abbrev Dict (κ : Type _) (β : Type _) := List (κ × β)

namespace Dict

variable {κ : Type _} {β : Type _} [DecidableEq κ]

/-- `d.get(k)`. -/
def get? : Dict κ β → κ → Option β
  | [], _ => none
  | (k', v) :: d, k => if k' = k then some v else get? d k

/-- `k in d`. -/
def contains (d : Dict κ β) (k : κ) : Bool := (get? d k).isSome

/-- `d[k]`: `KeyError` when absent. -/
def getItem (d : Dict κ β) (k : κ) : Except PyErr β :=
  match get? d k with
  | some v => .ok v
  | none => .error .keyError

/-- `d[k] = v`. -/
def set : Dict κ β → κ → β → Dict κ β
  | [], k, v => [(k, v)]
  | (k', v') :: d, k, v => if k' = k then (k', v) :: d else (k', v') :: set d k v

/-- `del d[k]` on a present key. -/
def erase : Dict κ β → κ → Dict κ β
  | [], _ => []
  | (k', v') :: d, k => if k' = k then d else (k', v') :: erase d k

/-- `d.keys()`. -/
def keys (d : Dict κ β) : List κ := d.map Prod.fst

/-- `d.values()`. -/
def values (d : Dict κ β) : List β := d.map Prod.snd

/-- `d.update(d2)`. -/
def update (d : Dict κ β) (d2 : Dict κ β) : Dict κ β := d2.foldl (fun acc kv => set acc kv.1 kv.2) d

@[simp] theorem get?_nil (k : κ) : get? ([] : Dict κ β) k = none := rfl

theorem get?_set (d : Dict κ β) (k k' : κ) (v : β) :
    get? (set d k v) k' = if k = k' then some v else get? d k' := by
  induction d with
  | nil => simp [set, get?]
  | cons hd tl ih =>
    obtain ⟨k₀, v₀⟩ := hd
    by_cases h : k₀ = k
    · subst h
      by_cases h' : k₀ = k'
      · simp [set, get?, h']
      · simp [set, get?, h']
    · by_cases h' : k = k'
      · subst h'
        simp [set, get?, h, ih]
      · simp [set, get?, h, h', ih]

theorem get?_set_self (d : Dict κ β) (k : κ) (v : β) : get? (set d k v) k = some v := by
  simp [get?_set]

theorem get?_set_ne (d : Dict κ β) {k k' : κ} (v : β) (h : k ≠ k') :
    get? (set d k v) k' = get? d k' := by
  simp [get?_set, h]

theorem get?_isSome_iff (d : Dict κ β) (k : κ) : (get? d k).isSome ↔ k ∈ keys d := by
  induction d with
  | nil => simp [keys]
  | cons hd tl ih =>
    obtain ⟨k₀, v₀⟩ := hd
    by_cases h : k₀ = k
    · simp [get?, keys, h]
    · have h' : ¬ k = k₀ := fun e => h e.symm
      simp only [get?, h, if_false, ih, keys, List.map_cons, List.mem_cons, h', false_or]

theorem get?_eq_none_iff (d : Dict κ β) (k : κ) : get? d k = none ↔ k ∉ keys d := by
  rw [← get?_isSome_iff]
  cases get? d k <;> simp

theorem mem_of_get? {d : Dict κ β} {k : κ} {v : β} (h : get? d k = some v) : (k, v) ∈ d := by
  induction d with
  | nil => simp at h
  | cons hd tl ih =>
    obtain ⟨k₀, v₀⟩ := hd
    by_cases hk : k₀ = k
    · simp [get?, hk] at h; simp [hk, h]
    · simp [get?, hk] at h; exact List.mem_cons_of_mem _ (ih h)

theorem set_of_not_mem {d : Dict κ β} {k : κ} (v : β) (h : k ∉ keys d) :
    set d k v = d ++ [(k, v)] := by
  induction d with
  | nil => simp [set]
  | cons hd tl ih =>
    obtain ⟨k₀, v₀⟩ := hd
    simp only [keys, List.map_cons, List.mem_cons, not_or] at h
    have h1 : ¬ k₀ = k := fun e => h.1 e.symm
    simp only [set, h1, if_false, List.cons_append]
    rw [ih h.2]

theorem keys_set (d : Dict κ β) (k : κ) (v : β) :
    keys (set d k v) = if k ∈ keys d then keys d else keys d ++ [k] := by
  induction d with
  | nil => simp [set, keys]
  | cons hd tl ih =>
    obtain ⟨k₀, v₀⟩ := hd
    by_cases h : k₀ = k
    · simp [set, keys, h]
    · have h' : ¬ k = k₀ := fun e => h e.symm
      simp only [set, h, if_false]
      show k₀ :: keys (set tl k v) = _
      rw [ih]
      by_cases hm : k ∈ keys tl
      · have : k ∈ keys ((k₀, v₀) :: tl) := List.mem_cons_of_mem _ hm
        rw [if_pos hm, if_pos this]; rfl
      · have : k ∉ keys ((k₀, v₀) :: tl) := by
          intro hh
          rcases List.mem_cons.1 hh with e | e
          · exact h' e
          · exact hm e
        rw [if_neg hm, if_neg this]; rfl

end Dict

end Patro
