import Verif.Model.VectorObject
import Mathlib.Tactic.Linarith
import Mathlib.Tactic.Ring
import Mathlib.Tactic.FieldSimp
import Mathlib.Tactic.NormNum
import Mathlib.Data.Rat.Floor
/-!
# Properties C188–C191: vector objects
-/

namespace Patro.VectorObject

variable {K : Type} [Field K] [LinearOrder K] [IsStrictOrderedRing K] [FloorRing K]

/-- The object an operation may change in place: the left operand of `+=`, `-=`, `*=`, `/=`, and the vector one coordinate of
which is assigned. -/
def target : Op K → Option Nat
  | .iadd i _ | .isub i _ | .imul i _ | .idiv i _ | .setX i _ | .setY i _ | .setW i _ => some i
  | _ => none

theorem get_ok {h : Heap K} {i : Nat} {a : Obj K} : get h i = .ok a ↔ h[i]? = some a := by
  unfold get
  cases h[i]? <;> simp

/-- What an operation does to the heap: it changes one object in place, keeping its class and the type of its data, or creates
one, or neither. -/
inductive Effect (h h' : Heap K) : Option Nat → Res K → Prop where
  | same (t : Option Nat) (r : Res K) : h' = h → (∀ i, r ≠ .ref i) → Effect h h' t r
  | create (t : Option Nat) (o : Obj K) : h' = h ++ [o] → Effect h h' t (.ref h.length)
  | change (i : Nat) (a b : Obj K) (r : Res K) : h[i]? = some a → h' = h.set i b → b.cls = a.cls → b.float = a.float →
      (r = .ref i ∨ r = .none) → Effect h h' (some i) r

theorem inPlace_effect {h h' : Heap K} {i : Nat} {a : Obj K} {f : Bool} {x y : K} {r : Res K} (ha : h[i]? = some a)
    (e : inPlace h i a f x y = .ok (h', r)) : Effect h h' (some i) r := by
  unfold inPlace at e
  split at e
  · simp only [Except.ok.injEq, Prod.mk.injEq] at e
    obtain ⟨rfl, rfl⟩ := e
    exact .change i a _ _ ha rfl rfl rfl (.inl rfl)
  · cases e

theorem step_effect (h h' : Heap K) (op : Op K) (r : Res K) (e : step h op = .ok (h', r)) : Effect h h' (target op) r := by
  cases op with
  | new cls x y =>
    simp only [step] at e
    split at e
    · cases e
    · simp only [Except.ok.injEq, alloc, Prod.mk.injEq] at e
      obtain ⟨rfl, rfl⟩ := e
      exact .create _ _ rfl
  | convert cls i =>
    simp only [step, bind, Except.bind] at e
    split at e
    · cases e
    · simp only [pure, Except.pure, Except.ok.injEq, alloc, Prod.mk.injEq] at e
      obtain ⟨rfl, rfl⟩ := e
      exact .create _ _ rfl
  | clone i =>
    simp only [step, bind, Except.bind] at e
    split at e
    · cases e
    · simp only [pure, Except.pure, Except.ok.injEq, alloc, Prod.mk.injEq] at e
      obtain ⟨rfl, rfl⟩ := e
      exact .create _ _ rfl
  | add i j =>
    simp only [step, bind, Except.bind] at e
    repeat' split at e
    all_goals first
      | cases e; done
      | simp only [pure, Except.pure, Except.ok.injEq, alloc, Prod.mk.injEq] at e
        obtain ⟨rfl, rfl⟩ := e
        exact .create _ _ rfl
  | sub i j =>
    simp only [step, bind, Except.bind] at e
    repeat' split at e
    all_goals first
      | cases e; done
      | simp only [pure, Except.pure, Except.ok.injEq, alloc, Prod.mk.injEq] at e
        obtain ⟨rfl, rfl⟩ := e
        exact .create _ _ rfl
  | iadd i j =>
    simp only [step, bind, Except.bind] at e
    split at e
    · cases e
    · rename_i a ha
      repeat' split at e
      all_goals first
        | cases e; done
        | exact inPlace_effect (get_ok.1 ha) e
  | isub i j =>
    simp only [step, bind, Except.bind] at e
    split at e
    · cases e
    · rename_i a ha
      repeat' split at e
      all_goals first
        | cases e; done
        | exact inPlace_effect (get_ok.1 ha) e
  | neg i =>
    simp only [step, bind, Except.bind] at e
    split at e
    · cases e
    · simp only [pure, Except.pure, Except.ok.injEq, alloc, Prod.mk.injEq] at e
      obtain ⟨rfl, rfl⟩ := e
      exact .create _ _ rfl
  | abs i =>
    simp only [step, bind, Except.bind] at e
    split at e
    · cases e
    · simp only [pure, Except.pure, Except.ok.injEq, alloc, Prod.mk.injEq] at e
      obtain ⟨rfl, rfl⟩ := e
      exact .create _ _ rfl
  | mul i s =>
    simp only [step, bind, Except.bind] at e
    repeat' split at e
    all_goals first
      | cases e; done
      | simp only [pure, Except.pure, Except.ok.injEq, alloc, Prod.mk.injEq] at e
        obtain ⟨rfl, rfl⟩ := e
        exact .create _ _ rfl
  | imul i s =>
    simp only [step, bind, Except.bind] at e
    split at e
    · cases e
    · rename_i a ha
      split at e
      · cases e
      · simp only [pure, Except.pure, Except.ok.injEq, alloc, Prod.mk.injEq] at e
        obtain ⟨rfl, rfl⟩ := e
        exact .create _ _ rfl
      · exact inPlace_effect (get_ok.1 ha) e
  | div i s =>
    simp only [step, bind, Except.bind] at e
    repeat' split at e
    all_goals first
      | cases e; done
      | simp only [pure, Except.pure, Except.ok.injEq, alloc, Prod.mk.injEq] at e
        obtain ⟨rfl, rfl⟩ := e
        exact .create _ _ rfl
  | idiv i s =>
    simp only [step, bind, Except.bind] at e
    split at e
    · cases e
    · rename_i a ha
      repeat' split at e
      all_goals first
        | cases e; done
        | exact inPlace_effect (get_ok.1 ha) e
  | eq i j =>
    simp only [step, bind, Except.bind] at e
    repeat' split at e
    all_goals first
      | cases e; done
      | simp only [pure, Except.pure, Except.ok.injEq, Prod.mk.injEq] at e
        obtain ⟨rfl, rfl⟩ := e
        exact .same _ _ rfl (fun _ h => by cases h)
  | almostEqual i j rtol atol =>
    simp only [step, bind, Except.bind] at e
    repeat' split at e
    all_goals first
      | cases e; done
      | simp only [pure, Except.pure, Except.ok.injEq, Prod.mk.injEq] at e
        obtain ⟨rfl, rfl⟩ := e
        exact .same _ _ rfl (fun _ h => by cases h)
  | rint i =>
    simp only [step, bind, Except.bind] at e
    repeat' split at e
    all_goals first
      | cases e; done
      | simp only [pure, Except.pure, Except.ok.injEq, alloc, Prod.mk.injEq] at e
        obtain ⟨rfl, rfl⟩ := e
        exact .create _ _ rfl
  | toIntList i =>
    simp only [step, bind, Except.bind] at e
    repeat' split at e
    all_goals first
      | cases e; done
      | simp only [pure, Except.pure, Except.ok.injEq, Prod.mk.injEq] at e
        obtain ⟨rfl, rfl⟩ := e
        exact .same _ _ rfl (fun _ h => by cases h)
  | setX i x =>
    simp only [step, bind, Except.bind] at e
    split at e
    · cases e
    · rename_i a ha
      simp only [pure, Except.pure, Except.ok.injEq, Prod.mk.injEq] at e
      obtain ⟨rfl, rfl⟩ := e
      exact .change i a _ _ (get_ok.1 ha) rfl rfl rfl (.inr rfl)
  | setY i y =>
    simp only [step, bind, Except.bind] at e
    split at e
    · cases e
    · rename_i a ha
      simp only [pure, Except.pure, Except.ok.injEq, Prod.mk.injEq] at e
      obtain ⟨rfl, rfl⟩ := e
      exact .change i a _ _ (get_ok.1 ha) rfl rfl rfl (.inr rfl)
  | setW i w =>
    simp only [step, bind, Except.bind] at e
    split at e
    · cases e
    · rename_i a ha
      split at e
      · simp only [pure, Except.pure, Except.ok.injEq, Prod.mk.injEq] at e
        obtain ⟨rfl, rfl⟩ := e
        exact .change i a _ _ (get_ok.1 ha) rfl rfl rfl (.inr rfl)
      · simp only [pure, Except.pure, Except.ok.injEq, Prod.mk.injEq] at e
        obtain ⟨rfl, rfl⟩ := e
        exact .same _ _ rfl (fun _ h => by cases h)
  | toVector i =>
    simp only [step, bind, Except.bind] at e
    repeat' split at e
    all_goals first
      | cases e; done
      | simp only [pure, Except.pure, Except.ok.injEq, alloc, Prod.mk.injEq] at e
        obtain ⟨rfl, rfl⟩ := e
        exact .create _ _ rfl

/-- C188. Operators give new vectors: an operation without in-place target changes no existing vector, and the vector it returns, if
any, is none of the existing ones. -/
theorem operators_pure (h h' : Heap K) (op : Op K) (r : Res K) (ht : target op = none) (e : step h op = .ok (h', r)) :
    (∀ (i : Nat) (a : Obj K), h[i]? = some a → h'[i]? = some a) ∧ (∀ i : Nat, r = .ref i → h[i]? = none ∧ ∃ a, h'[i]? = some a) := by
  have he := step_effect h h' op r e
  rw [ht] at he
  cases he with
  | same _ _ h1 h2 =>
    subst h1
    exact ⟨fun _ _ h => h, fun i hi => absurd hi (h2 i)⟩
  | create _ o h1 =>
    subst h1
    refine ⟨fun i a hi => ?_, fun i hi => ?_⟩
    · rw [List.getElem?_append_left (List.getElem?_eq_some_iff.1 hi).1]
      exact hi
    · cases hi
      simp

/-- C188. Over any history of operations, whatever raises in between, a vector keeps its coordinates unless an in-place operation
is applied to it by name: no copy, sum, conversion or product shares data with the vector it was made from. It keeps its class in
all cases. -/
theorem vectors_not_shared (h : Heap K) (ops : List (Op K)) (i : Nat) (a : Obj K) (hi : h[i]? = some a) :
    (∃ b, (run h ops)[i]? = some b ∧ b.cls = a.cls ∧ b.float = a.float) ∧
      ((∀ op ∈ ops, target op ≠ some i) → (run h ops)[i]? = some a) := by
  induction ops generalizing h a with
  | nil => exact ⟨⟨a, hi, rfl, rfl⟩, fun _ => hi⟩
  | cons op ops ih =>
    cases e : step h op with
    | error err =>
      have : run h (op :: ops) = run h ops := by simp [run, e]
      rw [this]
      obtain ⟨h1, h2⟩ := ih h a hi
      exact ⟨h1, fun hall => h2 fun o ho => hall o (List.mem_cons_of_mem _ ho)⟩
    | ok p =>
      obtain ⟨h', r⟩ := p
      have : run h (op :: ops) = run h' ops := by simp [run, e]
      rw [this]
      have he := step_effect h h' op r e
      cases hte : target op with
      | none =>
        have hi' := (operators_pure h h' op r hte e).1 i a hi
        obtain ⟨h1, h2⟩ := ih h' a hi'
        exact ⟨h1, fun hall => h2 fun o ho => hall o (List.mem_cons_of_mem _ ho)⟩
      | some t =>
        rw [hte] at he
        cases he with
        | same _ _ h1 h2 =>
          subst h1
          obtain ⟨h1, h2⟩ := ih h' a hi
          exact ⟨h1, fun hall => h2 fun o ho => hall o (List.mem_cons_of_mem _ ho)⟩
        | create _ o h1 =>
          have hi' : h'[i]? = some a := by
            rw [h1, List.getElem?_append_left (List.getElem?_eq_some_iff.1 hi).1]
            exact hi
          obtain ⟨h1, h2⟩ := ih h' a hi'
          exact ⟨h1, fun hall => h2 fun o ho => hall o (List.mem_cons_of_mem _ ho)⟩
        | change _ a' b _ ha' h1 hc hf _ =>
          by_cases hti : t = i
          · subst hti
            rw [hi] at ha'
            injection ha' with ha'
            subst ha'
            have hi' : h'[t]? = some b := by
              rw [h1, List.getElem?_set_self (List.getElem?_eq_some_iff.1 hi).1]
            obtain ⟨⟨c, h3, h4, h5⟩, _⟩ := ih h' b hi'
            refine ⟨⟨c, h3, h4.trans hc, h5.trans hf⟩, fun hall => absurd hte (hall op (List.mem_cons_self ..))⟩
          · have hi' : h'[i]? = some a := by
              rw [h1, List.getElem?_set_ne hti]
              exact hi
            obtain ⟨h1, h2⟩ := ih h' a hi'
            exact ⟨h1, fun hall => h2 fun o ho => hall o (List.mem_cons_of_mem _ ho)⟩

/-! ## Arithmetic -/

/-- C189. On vectors of floats (`Vector2D`), the operators compute what they say, coordinate by coordinate; the in-place operators give
the left operand the coordinates that the plain operator gives to its new vector, and return it; division by zero is not a number. -/
theorem arithmetic (h : Heap K) (i j : Nat) (a b : Obj K) (s : K) (ha : h[i]? = some a) (hb : h[j]? = some b)
    (ca : a.cls = .vector) (cb : b.cls = .vector ∨ b.cls = .normalised) (fa : a.float = true) :
    step h (.add i j) = .ok (h ++ [⟨.vector, true, a.x + b.x, a.y + b.y, 1⟩], .ref h.length) ∧
    step h (.sub i j) = .ok (h ++ [⟨.vector, true, a.x - b.x, a.y - b.y, 1⟩], .ref h.length) ∧
    step h (.iadd i j) = .ok (h.set i { a with x := a.x + b.x, y := a.y + b.y }, .ref i) ∧
    step h (.isub i j) = .ok (h.set i { a with x := a.x - b.x, y := a.y - b.y }, .ref i) ∧
    step h (.neg i) = .ok (h ++ [⟨.vector, true, -a.x, -a.y, 1⟩], .ref h.length) ∧
    step h (.abs i) = .ok (h ++ [⟨.vector, true, |a.x|, |a.y|, 1⟩], .ref h.length) ∧
    step h (.mul i s) = .ok (h ++ [⟨.vector, true, a.x * s, a.y * s, 1⟩], .ref h.length) ∧
    step h (.imul i s) = .ok (h.set i { a with x := a.x * s, y := a.y * s }, .ref i) ∧
    (s ≠ 0 → step h (.div i s) = .ok (h ++ [⟨.vector, true, a.x / s, a.y / s, 1⟩], .ref h.length) ∧
      step h (.idiv i s) = .ok (h.set i { a with x := a.x / s, y := a.y / s }, .ref i)) ∧
    step h (.div i 0) = .error .nan ∧ step h (.idiv i 0) = .error .nan := by
  have ga := get_ok.2 ha
  have gb := get_ok.2 hb
  have ob : other b = .ok b := by
    unfold other
    rw [if_neg]
    rcases cb with c | c <;> rw [c] <;> decide
  have hs : ∀ t : K, inPlace h i a true t t = .ok (h.set i { a with x := t, y := t }, .ref i) := by
    intro t; simp [inPlace, fa]
  refine ⟨?_, ?_, ?_, ?_, ?_, ?_, ?_, ?_, fun hne => ⟨?_, ?_⟩, ?_, ?_⟩ <;>
    simp [step, ga, gb, ob, bind, Except.bind, pure, Except.pure, alloc, construct, inPlace, ca, fa, mul_comm, *]

/-- C189. The sum has the class of its left operand. -/
theorem add_class (h h' : Heap K) (i j : Nat) (a : Obj K) (r : Res K) (ha : h[i]? = some a) (e : step h (.add i j) = .ok (h', r)) :
    ∃ c, h' = h ++ [c] ∧ r = .ref h.length ∧ c.cls = a.cls := by
  simp only [step, get_ok.2 ha, bind, Except.bind] at e
  repeat' split at e
  all_goals first
    | cases e; done
    | simp only [pure, Except.pure, Except.ok.injEq, alloc, Prod.mk.injEq] at e
      obtain ⟨rfl, rfl⟩ := e
      refine ⟨_, rfl, rfl, ?_⟩
      unfold construct
      split <;> simp_all

/-- C189 fails for vectors of integers: adding or subtracting a vector of floats on the right drops the fractions, whatever they are,
adding it on the left keeps them, and `+=` and `-=` are a `TypeError`. -/
theorem int_add_wrong (h : Heap K) (i j : Nat) (a b : Obj K) (ha : h[i]? = some a) (hb : h[j]? = some b)
    (ca : a.cls = .int) (fa : a.float = false) (cb : b.cls = .vector) (fb : b.float = true) :
    step h (.add i j) = .ok (h ++ [⟨.int, false, trunc (a.x + b.x), trunc (a.y + b.y), 1⟩], .ref h.length) ∧
    step h (.sub i j) = .ok (h ++ [⟨.int, false, trunc (a.x - b.x), trunc (a.y - b.y), 1⟩], .ref h.length) ∧
    step h (.add j i) = .ok (h ++ [⟨.vector, true, b.x + a.x, b.y + a.y, 1⟩], .ref h.length) ∧
    step h (.sub j i) = .ok (h ++ [⟨.vector, true, b.x - a.x, b.y - a.y, 1⟩], .ref h.length) ∧
    step h (.iadd i j) = .error (.py .typeError) ∧ step h (.isub i j) = .error (.py .typeError) := by
  have ga := get_ok.2 ha
  have gb := get_ok.2 hb
  have oa : other a = .ok a := by unfold other; rw [if_neg]; rw [ca]; decide
  have ob : other b = .ok b := by unfold other; rw [if_neg]; rw [cb]; decide
  refine ⟨?_, ?_, ?_, ?_, ?_, ?_⟩ <;>
    simp [step, ga, gb, oa, ob, bind, Except.bind, pure, Except.pure, alloc, construct, inPlace, ca, cb, fa, fb]

example :
    ∃ (h : Heap ℚ), step h (.add 0 1) = .ok (h ++ [⟨.int, false, 1, 1, 1⟩], .ref 2) ∧
      step h (.add 1 0) = .ok (h ++ [⟨.vector, true, 19 / 10, 19 / 10, 1⟩], .ref 2) ∧
      step h (.iadd 0 1) = .error (.py .typeError) :=
  ⟨[⟨.int, false, 1, 1, 1⟩, ⟨.vector, true, 9 / 10, 9 / 10, 1⟩], by decide +kernel, by decide +kernel, by decide +kernel⟩

/-- C189 fails for a homogeneous vector on the right of `+`, `-`, `+=`, `-=`: a `ValueError`, always. -/
theorem homogeneous_right_wrong (h : Heap K) (i j : Nat) (a b : Obj K) (ha : h[i]? = some a) (hb : h[j]? = some b)
    (cb : b.cls = .homogeneous) :
    step h (.add i j) = .error (.py .valueError) ∧ step h (.sub i j) = .error (.py .valueError) ∧
      step h (.iadd i j) = .error (.py .valueError) ∧ step h (.isub i j) = .error (.py .valueError) := by
  have ga := get_ok.2 ha
  have gb := get_ok.2 hb
  have ob : other b = .error (.py .valueError) := by simp [other, cb]
  refine ⟨?_, ?_, ?_, ?_⟩ <;> simp [step, ga, gb, ob, bind, Except.bind]

/-- C189 fails for homogeneous vectors on the left, and for their copies: the third coordinate is lost. -/
theorem homogeneous_weight_wrong (h : Heap K) (i j : Nat) (a b : Obj K) (s : K) (ha : h[i]? = some a) (hb : h[j]? = some b)
    (ca : a.cls = .homogeneous) (cb : b.cls ≠ .homogeneous) :
    step h (.clone i) = .ok (h ++ [⟨.homogeneous, a.float, a.x, a.y, 1⟩], .ref h.length) ∧
      step h (.add i j) = .ok (h ++ [⟨.homogeneous, a.float || b.float, a.x + b.x, a.y + b.y, 1⟩], .ref h.length) ∧
      step h (.mul i s) = .ok (h ++ [⟨.homogeneous, true, s * a.x, s * a.y, 1⟩], .ref h.length) ∧
      step h (.toVector i) = .ok (h ++ [⟨.vector, true, a.x, a.y, 1⟩], .ref h.length) := by
  have ga := get_ok.2 ha
  have gb := get_ok.2 hb
  have ob : other b = .ok b := by simp [other, cb]
  refine ⟨?_, ?_, ?_, ?_⟩ <;> simp [step, ga, gb, ob, bind, Except.bind, pure, Except.pure, alloc, construct, ca]

/-- C189 fails for normalised vectors: multiplying one by a number gives a "normalised" vector of another length, and so does adding two
of them; `v *= s` gives the variable a new vector and leaves the old one; division is a `TypeError`. -/
theorem normalised_wrong (h : Heap K) (i : Nat) (a : Obj K) (s : K) (ha : h[i]? = some a) (ca : a.cls = .normalised) :
    (∃ o : Obj K, step h (.mul i s) = .ok (h ++ [o], .ref h.length) ∧ step h (.imul i s) = .ok (h ++ [o], .ref h.length) ∧
      o.cls = .normalised ∧ o.x ^ 2 + o.y ^ 2 = s ^ 2 * (a.x ^ 2 + a.y ^ 2)) ∧
    (∃ o : Obj K, step h (.add i i) = .ok (h ++ [o], .ref h.length) ∧ o.cls = .normalised ∧
      o.x ^ 2 + o.y ^ 2 = 4 * (a.x ^ 2 + a.y ^ 2)) ∧
    step h (.div i s) = .error (.py .typeError) ∧ step h (.idiv i s) = .error (.py .typeError) := by
  have ga := get_ok.2 ha
  have oa : other a = .ok a := by simp [other, ca]
  refine ⟨⟨⟨.normalised, true, s * a.x, s * a.y, 1⟩, ?_, ?_, rfl, ?_⟩, ⟨⟨.normalised, true, a.x + a.x, a.y + a.y, 1⟩, ?_, rfl, ?_⟩, ?_, ?_⟩
  · simp [step, ga, bind, Except.bind, pure, Except.pure, alloc, construct, ca]
  · simp [step, ga, bind, Except.bind, pure, Except.pure, alloc, construct, ca]
  · ring
  · simp [step, ga, oa, bind, Except.bind, pure, Except.pure, alloc, construct, ca]
  · ring
  · simp [step, ga, bind, Except.bind, ca]
  · simp [step, ga, bind, Except.bind, ca]

/-! ## Equality -/

/-- C190. Two vectors that are not homogeneous are equal exactly when their coordinates are equal, whatever their classes; comparing
changes nothing. -/
theorem eq_iff_partial (h : Heap K) (i j : Nat) (a b : Obj K) (ha : h[i]? = some a) (hb : h[j]? = some b) (ca : a.cls ≠ .homogeneous)
    (cb : b.cls ≠ .homogeneous) : step h (.eq i j) = .ok (h, .bool (decide (a.x = b.x ∧ a.y = b.y))) := by
  simp [step, get_ok.2 ha, get_ok.2 hb, bind, Except.bind, pure, Except.pure, ca, cb, Bool.decide_and]

/-- C190 fails across classes: a homogeneous vector differs from the vector it was made from. -/
theorem eq_homogeneous_wrong (h : Heap K) (i : Nat) (a : Obj K) (ha : h[i]? = some a) (ca : a.cls ≠ .homogeneous) :
    ∃ h', step h (.convert .homogeneous i) = .ok (h', .ref h.length) ∧
      step h' (.eq i h.length) = .ok (h', .bool false) ∧ step h' (.eq h.length i) = .ok (h', .bool false) := by
  refine ⟨h ++ [⟨.homogeneous, a.float, a.x, a.y, 1⟩], ?_, ?_, ?_⟩
  · simp [step, get_ok.2 ha, bind, Except.bind, pure, Except.pure, alloc, construct]
  · have h1 : (h ++ [(⟨.homogeneous, a.float, a.x, a.y, 1⟩ : Obj K)])[i]? = some a := by
      rw [List.getElem?_append_left (List.getElem?_eq_some_iff.1 ha).1]; exact ha
    have h2 : (h ++ [(⟨.homogeneous, a.float, a.x, a.y, 1⟩ : Obj K)])[h.length]? = some ⟨.homogeneous, a.float, a.x, a.y, 1⟩ := by simp
    simp [step, get_ok.2 h1, get_ok.2 h2, bind, Except.bind, pure, Except.pure, ca]
  · have h1 : (h ++ [(⟨.homogeneous, a.float, a.x, a.y, 1⟩ : Obj K)])[i]? = some a := by
      rw [List.getElem?_append_left (List.getElem?_eq_some_iff.1 ha).1]; exact ha
    have h2 : (h ++ [(⟨.homogeneous, a.float, a.x, a.y, 1⟩ : Obj K)])[h.length]? = some ⟨.homogeneous, a.float, a.x, a.y, 1⟩ := by simp
    simp [step, get_ok.2 h1, get_ok.2 h2, bind, Except.bind, pure, Except.pure, ca]

/-- C190. `almost_equal` compares each coordinate with the tolerance `atol + rtol·|coordinate of the second vector|`; every vector is
almost equal to itself when the tolerances are not negative, and with a null relative tolerance the order does not matter. -/
theorem almost_equal_partial (h : Heap K) (i j : Nat) (a b : Obj K) (rtol atol : K) (ha : h[i]? = some a) (hb : h[j]? = some b)
    (ca : a.cls ≠ .int) (cb : b.cls ≠ .int) :
    step h (.almostEqual i j rtol atol) =
      .ok (h, .bool (decide (|a.x - b.x| ≤ atol + rtol * |b.x| ∧ |a.y - b.y| ≤ atol + rtol * |b.y|))) ∧
    (0 ≤ rtol → 0 ≤ atol → step h (.almostEqual i i rtol atol) = .ok (h, .bool true)) ∧
    step h (.almostEqual i j 0 atol) = step h (.almostEqual j i 0 atol) := by
  have ga := get_ok.2 ha
  have gb := get_ok.2 hb
  refine ⟨?_, fun hr hat => ?_, ?_⟩
  · simp [step, ga, gb, bind, Except.bind, pure, Except.pure, ca, close, Bool.decide_and]
  · have h1 : 0 ≤ atol + rtol * |a.x| := by positivity
    have h2 : 0 ≤ atol + rtol * |a.y| := by positivity
    simp [step, ga, bind, Except.bind, pure, Except.pure, ca, close, h1, h2]
  · simp [step, ga, gb, bind, Except.bind, pure, Except.pure, ca, cb, close, abs_sub_comm]

/-- C190 fails for symmetry: whenever the relative tolerance is between 0 and 1 there are vectors almost equal in one order only. -/
theorem almost_equal_wrong (rtol : K) (h0 : 0 < rtol) (h1 : rtol < 1) :
    ∃ h : Heap K, step h (.almostEqual 0 1 rtol 0) = .ok (h, .bool true) ∧ step h (.almostEqual 1 0 rtol 0) = .ok (h, .bool false) := by
  refine ⟨[⟨.vector, true, 1 - rtol, 0, 1⟩, ⟨.vector, true, 1, 0, 1⟩], ?_, ?_⟩
  · have e : |1 - rtol - 1| ≤ rtol := by
      rw [show 1 - rtol - 1 = -rtol by ring, abs_neg, abs_of_pos h0]
    simp [step, get, bind, Except.bind, pure, Except.pure, close]
    rw [abs_of_pos h0]
  · have e : ¬ |1 - (1 - rtol)| ≤ 0 + rtol * |1 - rtol| := by
      rw [show 1 - (1 - rtol) = rtol by ring, abs_of_pos h0, abs_of_pos (by linarith)]
      nlinarith
    have : close rtol 0 1 (1 - rtol) = false := by simpa [close] using e
    simp [step, get, bind, Except.bind, pure, Except.pure, this]

/-! ## Integers -/

theorem rint_spec (x : K) : |(rint x : K) - x| ≤ 1 / 2 ∧ (|(rint x : K) - x| = 1 / 2 → rint x % 2 = 0) := by
  have h1 := Int.floor_le x
  have h2 := Int.lt_floor_add_one x
  unfold rint
  split
  · rename_i h
    rw [abs_of_nonpos (by linarith)]
    exact ⟨by linarith, fun e => by linarith⟩
  · rename_i h
    split
    · rename_i h'
      push_cast
      rw [abs_of_nonneg (by linarith)]
      exact ⟨by linarith, fun e => by linarith⟩
    · rename_i h'
      have hx : x = ⌊x⌋ + 1 / 2 := by linarith
      split
      · rename_i h3
        rw [abs_of_nonpos (by linarith)]
        exact ⟨by linarith, fun _ => h3⟩
      · push_cast
        rw [abs_of_nonneg (by linarith)]
        exact ⟨by linarith, fun _ => by omega⟩

theorem trunc_spec (x : K) : |(trunc x : K)| ≤ |x| ∧ |x - trunc x| < 1 ∧ 0 ≤ x * trunc x := by
  unfold trunc
  split
  · rename_i h
    have h1 := Int.floor_le x
    have h2 := Int.lt_floor_add_one x
    have h3 : (0 : K) ≤ ⌊x⌋ := by exact_mod_cast Int.floor_nonneg.2 h
    rw [abs_of_nonneg h3, abs_of_nonneg h, abs_of_nonneg (by linarith)]
    exact ⟨h1, by linarith, mul_nonneg h h3⟩
  · rename_i h
    have h := not_le.1 h
    have h1 := Int.le_ceil x
    have h2 := Int.ceil_lt_add_one x
    have h3 : (⌈x⌉ : K) ≤ 0 := by
      have : ⌈x⌉ ≤ 0 := Int.ceil_le.2 (by simpa using h.le)
      exact_mod_cast this
    rw [abs_of_nonpos h3, abs_of_neg h, abs_of_nonpos (by linarith)]
    exact ⟨by linarith, by linarith, mul_nonneg_of_nonpos_of_nonpos h.le h3⟩

theorem trunc_int (n : Int) : trunc (n : K) = n := by
  unfold trunc
  split <;> simp

/-- C191. `rint` gives a vector of integers, each the nearest to the coordinate, and the even one of the two when the coordinate is half
way; `to_int_list` drops the fractions: each integer has the sign of the coordinate (or is 0), is not larger in absolute value, and less
than 1 away; constructing a vector of integers from floats does the same as `to_int_list`. -/
theorem integers (h : Heap K) (i : Nat) (a : Obj K) (ha : h[i]? = some a) (ca : a.cls = .vector) :
    (∃ m n : Int, step h (.rint i) = .ok (h ++ [⟨.int, false, m, n, 1⟩], .ref h.length) ∧
      |(m : K) - a.x| ≤ 1 / 2 ∧ |(n : K) - a.y| ≤ 1 / 2 ∧
      (|(m : K) - a.x| = 1 / 2 → m % 2 = 0) ∧ (|(n : K) - a.y| = 1 / 2 → n % 2 = 0)) ∧
    (∃ m n : Int, step h (.toIntList i) = .ok (h, .ints [m, n]) ∧
      step h (.convert .int i) = .ok (h ++ [⟨.int, false, m, n, 1⟩], .ref h.length) ∧
      (|(m : K)| ≤ |a.x| ∧ |a.x - m| < 1 ∧ 0 ≤ a.x * m) ∧ (|(n : K)| ≤ |a.y| ∧ |a.y - n| < 1 ∧ 0 ≤ a.y * n)) := by
  have ga := get_ok.2 ha
  refine ⟨⟨rint a.x, rint a.y, ?_, (rint_spec a.x).1, (rint_spec a.y).1, (rint_spec a.x).2, (rint_spec a.y).2⟩,
    ⟨trunc a.x, trunc a.y, ?_, ?_, trunc_spec a.x, trunc_spec a.y⟩⟩
  · simp [step, ga, bind, Except.bind, pure, Except.pure, alloc, construct, ca, trunc_int]
  · simp [step, ga, bind, Except.bind, pure, Except.pure]
  · simp [step, ga, bind, Except.bind, pure, Except.pure, alloc, construct]

/-- C191. A vector of integers always holds whole numbers, after any history. -/
theorem integers_stay (h : Heap K) (ops : List (Op K)) (hinv : ∀ a ∈ h, a.float = false → ∃ m n : Int, a.x = m ∧ a.y = n) :
    ∀ a ∈ run h ops, a.float = false → ∃ m n : Int, a.x = m ∧ a.y = n := by
  have hcons : ∀ (cls : Cls) (f : Bool) (x y : K), (f = false → ∃ m n : Int, x = m ∧ y = n) →
      (construct cls f x y).float = false → ∃ m n : Int, (construct cls f x y).x = m ∧ (construct cls f x y).y = n := by
    intro cls f x y hf
    unfold construct
    cases cls with
    | vector => intro h; cases h
    | normalised => intro h; cases h
    | homogeneous => exact hf
    | int => exact fun _ => ⟨_, _, rfl, rfl⟩
  induction ops generalizing h with
  | nil => exact hinv
  | cons op ops ih =>
    cases e : step h op with
    | error err =>
      have : run h (op :: ops) = run h ops := by simp [run, e]
      rw [this]
      exact ih h hinv
    | ok p =>
      obtain ⟨h', r⟩ := p
      have : run h (op :: ops) = run h' ops := by simp [run, e]
      rw [this]
      refine ih h' ?_
      have hget : ∀ {i : Nat} {a : Obj K}, get h i = .ok a → a.float = false → ∃ m n : Int, a.x = m ∧ a.y = n := by
        intro i a hg
        exact hinv a (List.mem_of_getElem? (get_ok.1 hg))
      have halloc : ∀ (o : Obj K), (o.float = false → ∃ m n : Int, o.x = m ∧ o.y = n) →
          ∀ a ∈ h ++ [o], a.float = false → ∃ m n : Int, a.x = m ∧ a.y = n := by
        intro o ho a hmem
        rcases List.mem_append.1 hmem with hm | hm
        · exact hinv a hm
        · rw [List.mem_singleton] at hm
          subst hm
          exact ho
      have hset : ∀ (i : Nat) (o : Obj K), (o.float = false → ∃ m n : Int, o.x = m ∧ o.y = n) →
          ∀ a ∈ h.set i o, a.float = false → ∃ m n : Int, a.x = m ∧ a.y = n := by
        intro i o ho a hmem
        rcases List.mem_or_eq_of_mem_set hmem with hm | hm
        · exact hinv a hm
        · subst hm
          exact ho
      have hin : ∀ (i : Nat) (a : Obj K) (f : Bool) (x y : K), inPlace h i a f x y = .ok (h', r) →
          (a.float = false → f = false → ∃ m n : Int, x = m ∧ y = n) →
          ∀ a ∈ h', a.float = false → ∃ m n : Int, a.x = m ∧ a.y = n := by
        intro i a f x y e hxy
        unfold inPlace at e
        split at e
        · rename_i hf
          simp only [Except.ok.injEq, Prod.mk.injEq] at e
          obtain ⟨rfl, rfl⟩ := e
          refine hset i _ fun hfl => hxy hfl ?_
          have hfl : a.float = false := hfl
          rw [hfl] at hf
          simpa using hf
        · cases e
      have hoth : ∀ {b c : Obj K}, other b = .ok c → c = b := by
        intro b c hb
        unfold other at hb
        split at hb
        · cases hb
        · injection hb with hb
          exact hb.symm
      have hadd : ∀ {a b : Obj K}, (a.float = false → ∃ m n : Int, a.x = m ∧ a.y = n) →
          (b.float = false → ∃ m n : Int, b.x = m ∧ b.y = n) → a.float = false → b.float = false →
          (∃ m n : Int, a.x + b.x = m ∧ a.y + b.y = n) ∧ (∃ m n : Int, a.x - b.x = m ∧ a.y - b.y = n) := by
        intro a b ha hb fa fb
        obtain ⟨m, n, h1, h2⟩ := ha fa
        obtain ⟨m', n', h3, h4⟩ := hb fb
        rw [h1, h2, h3, h4]
        exact ⟨⟨m + m', n + n', by push_cast; rfl, by push_cast; rfl⟩, ⟨m - m', n - n', by push_cast; rfl, by push_cast; rfl⟩⟩
      cases op with
      | new cls x y =>
        simp only [step] at e
        split at e
        · cases e
        · simp only [Except.ok.injEq, alloc, Prod.mk.injEq] at e
          obtain ⟨rfl, rfl⟩ := e
          exact halloc _ (hcons _ _ _ _ (fun h => by cases h))
      | convert cls i =>
        simp only [step, bind, Except.bind] at e
        split at e
        · cases e
        · rename_i a ga
          simp only [pure, Except.pure, Except.ok.injEq, alloc, Prod.mk.injEq] at e
          obtain ⟨rfl, rfl⟩ := e
          exact halloc _ (hcons _ _ _ _ (hget ga))
      | clone i =>
        simp only [step, bind, Except.bind] at e
        split at e
        · cases e
        · rename_i a ga
          simp only [pure, Except.pure, Except.ok.injEq, alloc, Prod.mk.injEq] at e
          obtain ⟨rfl, rfl⟩ := e
          exact halloc _ (hcons _ _ _ _ (hget ga))
      | add i j =>
        simp only [step, bind, Except.bind] at e
        split at e
        · cases e
        · rename_i a ga
          split at e
          · cases e
          · rename_i b gb
            split at e
            · cases e
            · rename_i c gc
              have := hoth gc
              subst this
              simp only [pure, Except.pure, Except.ok.injEq, alloc, Prod.mk.injEq] at e
              obtain ⟨rfl, rfl⟩ := e
              refine halloc _ (hcons _ _ _ _ fun hf => ?_)
              rw [Bool.or_eq_false_iff] at hf
              exact (hadd (hget ga) (hget gb) hf.1 hf.2).1
      | sub i j =>
        simp only [step, bind, Except.bind] at e
        split at e
        · cases e
        · rename_i a ga
          split at e
          · cases e
          · rename_i b gb
            split at e
            · cases e
            · rename_i c gc
              have := hoth gc
              subst this
              simp only [pure, Except.pure, Except.ok.injEq, alloc, Prod.mk.injEq] at e
              obtain ⟨rfl, rfl⟩ := e
              refine halloc _ (hcons _ _ _ _ fun hf => ?_)
              rw [Bool.or_eq_false_iff] at hf
              exact (hadd (hget ga) (hget gb) hf.1 hf.2).2
      | iadd i j =>
        simp only [step, bind, Except.bind] at e
        split at e
        · cases e
        · rename_i a ga
          split at e
          · cases e
          · rename_i b gb
            split at e
            · cases e
            · rename_i c gc
              have := hoth gc
              subst this
              exact hin _ _ _ _ _ e fun fa fb => (hadd (hget ga) (hget gb) fa fb).1
      | isub i j =>
        simp only [step, bind, Except.bind] at e
        split at e
        · cases e
        · rename_i a ga
          split at e
          · cases e
          · rename_i b gb
            split at e
            · cases e
            · rename_i c gc
              have := hoth gc
              subst this
              exact hin _ _ _ _ _ e fun fa fb => (hadd (hget ga) (hget gb) fa fb).2
      | neg i =>
        simp only [step, bind, Except.bind] at e
        split at e
        · cases e
        · rename_i a ga
          simp only [pure, Except.pure, Except.ok.injEq, alloc, Prod.mk.injEq] at e
          obtain ⟨rfl, rfl⟩ := e
          refine halloc _ (hcons _ _ _ _ fun hf => ?_)
          obtain ⟨m, n, h1, h2⟩ := hget ga hf
          exact ⟨-m, -n, by rw [h1]; push_cast; rfl, by rw [h2]; push_cast; rfl⟩
      | abs i =>
        simp only [step, bind, Except.bind] at e
        split at e
        · cases e
        · rename_i a ga
          simp only [pure, Except.pure, Except.ok.injEq, alloc, Prod.mk.injEq] at e
          obtain ⟨rfl, rfl⟩ := e
          refine halloc _ (hcons _ _ _ _ fun hf => ?_)
          obtain ⟨m, n, h1, h2⟩ := hget ga hf
          exact ⟨|m|, |n|, by rw [h1]; push_cast; rfl, by rw [h2]; push_cast; rfl⟩
      | mul i s =>
        simp only [step, bind, Except.bind] at e
        repeat' split at e
        all_goals first
          | cases e; done
          | simp only [pure, Except.pure, Except.ok.injEq, alloc, Prod.mk.injEq] at e
            obtain ⟨rfl, rfl⟩ := e
            exact halloc _ (hcons _ _ _ _ (fun h => by cases h))
      | imul i s =>
        simp only [step, bind, Except.bind] at e
        repeat' split at e
        all_goals first
          | cases e; done
          | exact hin _ _ _ _ _ e fun _ h => (by cases h)
          | simp only [pure, Except.pure, Except.ok.injEq, alloc, Prod.mk.injEq] at e
            obtain ⟨rfl, rfl⟩ := e
            exact halloc _ (hcons _ _ _ _ (fun h => by cases h))
      | div i s =>
        simp only [step, bind, Except.bind] at e
        repeat' split at e
        all_goals first
          | cases e; done
          | simp only [pure, Except.pure, Except.ok.injEq, alloc, Prod.mk.injEq] at e
            obtain ⟨rfl, rfl⟩ := e
            exact halloc _ (hcons _ _ _ _ (fun h => by cases h))
      | idiv i s =>
        simp only [step, bind, Except.bind] at e
        repeat' split at e
        all_goals first
          | cases e; done
          | exact hin _ _ _ _ _ e fun _ h => (by cases h)
      | eq i j =>
        simp only [step, bind, Except.bind] at e
        repeat' split at e
        all_goals first
          | cases e; done
          | simp only [pure, Except.pure, Except.ok.injEq, Prod.mk.injEq] at e
            obtain ⟨rfl, rfl⟩ := e
            exact hinv
      | almostEqual i j rtol atol =>
        simp only [step, bind, Except.bind] at e
        repeat' split at e
        all_goals first
          | cases e; done
          | simp only [pure, Except.pure, Except.ok.injEq, Prod.mk.injEq] at e
            obtain ⟨rfl, rfl⟩ := e
            exact hinv
      | rint i =>
        simp only [step, bind, Except.bind] at e
        repeat' split at e
        all_goals first
          | cases e; done
          | simp only [pure, Except.pure, Except.ok.injEq, alloc, Prod.mk.injEq] at e
            obtain ⟨rfl, rfl⟩ := e
            exact halloc _ (hcons _ _ _ _ (fun h => by cases h))
      | toIntList i =>
        simp only [step, bind, Except.bind] at e
        repeat' split at e
        all_goals first
          | cases e; done
          | simp only [pure, Except.pure, Except.ok.injEq, Prod.mk.injEq] at e
            obtain ⟨rfl, rfl⟩ := e
            exact hinv
      | setX i x =>
        simp only [step, bind, Except.bind] at e
        split at e
        · cases e
        · rename_i a ga
          simp only [pure, Except.pure, Except.ok.injEq, Prod.mk.injEq] at e
          obtain ⟨rfl, rfl⟩ := e
          refine hset i _ fun hf => ?_
          have hf : a.float = false := hf
          obtain ⟨m, n, h1, h2⟩ := hget ga hf
          exact ⟨trunc x, n, by simp [stored, hf], h2⟩
      | setY i y =>
        simp only [step, bind, Except.bind] at e
        split at e
        · cases e
        · rename_i a ga
          simp only [pure, Except.pure, Except.ok.injEq, Prod.mk.injEq] at e
          obtain ⟨rfl, rfl⟩ := e
          refine hset i _ fun hf => ?_
          have hf : a.float = false := hf
          obtain ⟨m, n, h1, h2⟩ := hget ga hf
          exact ⟨m, trunc y, h1, by simp [stored, hf]⟩
      | setW i w =>
        simp only [step, bind, Except.bind] at e
        split at e
        · cases e
        · rename_i a ga
          split at e
          · simp only [pure, Except.pure, Except.ok.injEq, Prod.mk.injEq] at e
            obtain ⟨rfl, rfl⟩ := e
            exact hset i { a with w := w } (fun hf => hget (a := a) ga hf)
          · simp only [pure, Except.pure, Except.ok.injEq, Prod.mk.injEq] at e
            obtain ⟨rfl, rfl⟩ := e
            exact hinv
      | toVector i =>
        simp only [step, bind, Except.bind] at e
        repeat' split at e
        all_goals first
          | cases e; done
          | simp only [pure, Except.pure, Except.ok.injEq, alloc, Prod.mk.injEq] at e
            obtain ⟨rfl, rfl⟩ := e
            exact halloc _ (hcons _ _ _ _ (hget (by assumption)))

/-! ## Examples -/

/-- A sum and an in-place sum: the first leaves the operands alone, the second changes its left operand only. -/
example : run ([⟨.vector, true, 1, 2, 1⟩, ⟨.vector, true, 10, 20, 1⟩] : Heap ℚ) [.add 0 1, .iadd 0 1] =
    [⟨.vector, true, 11, 22, 1⟩, ⟨.vector, true, 10, 20, 1⟩, ⟨.vector, true, 11, 22, 1⟩] := by decide +kernel

/-- A copy is not changed with its original. -/
example : run ([⟨.vector, true, 1, 2, 1⟩] : Heap ℚ) [.clone 0, .imul 0 3, .setX 0 7] =
    [⟨.vector, true, 7, 6, 1⟩, ⟨.vector, true, 1, 2, 1⟩] := by decide +kernel

/-- Halves go to the even integer. -/
example : run ([⟨.vector, true, 5 / 2, -7 / 2, 1⟩] : Heap ℚ) [.rint 0] =
    [⟨.vector, true, 5 / 2, -7 / 2, 1⟩, ⟨.int, false, 2, -4, 1⟩] := by decide +kernel

end Patro.VectorObject
