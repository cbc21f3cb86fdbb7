import Verif.Spec.TransformationNew
import Mathlib.Tactic.Linarith
/-! # Making a transformation (C213) and the type of a matrix (C214) -/

namespace Patro.TransformationNew

open Transformation (TType)

/-- C213, what holds: a list of numbers of the right length, with a type, is a transformation of that type with the numbers as its matrix,
row after row. -/
theorem list_read_partial (c : Class) (values : List ℚ) (h : values.length = c.size * c.size) (type : TType) (ht : type ≠ .generic) :
    ∃ o, new c (.sequence values) type = .ok o ∧ o.cls = c ∧ o.type = some type ∧ o.toList = values ∧ o.m.shape = [c.size, c.size] ∧
      ∀ i j, i < c.size → j < c.size → o.m.get? i j = values[i * c.size + j]? ∧ (o.m.get? i j).isSome := by
  refine ⟨⟨c, ⟨[c.size, c.size], values⟩, some type⟩, ?_, rfl, rfl, rfl, rfl, ?_⟩
  · simp [new, arrayOf, h, sq, ht, bind, Except.bind, pure, Except.pure]
  · intro i j hi hj
    have : (⟨[c.size, c.size], values⟩ : Arr).get? i j = values[i * c.size + j]? := if_pos ⟨hi, hj⟩
    refine ⟨this, ?_⟩
    rw [this, List.getElem?_eq_getElem, Option.isSome_some]
    rw [h]
    calc i * c.size + j < i * c.size + c.size := by omega
      _ = (i + 1) * c.size := by ring
      _ ≤ c.size * c.size := Nat.mul_le_mul_right _ hi

/-- C213. A list of another length, or an array of another shape, is refused with `ValueError`, whatever the type: in particular a list of
rows, which has as many elements as rows, is. -/
theorem refused (c : Class) (type : TType) :
    (∀ values : List ℚ, values.length ≠ c.size * c.size → new c (.sequence values) type = .error .valueError) ∧
    (∀ a : Arr, a.shape ≠ [c.size, c.size] → new c (.ndarray a) type = .error .valueError) := by
  constructor
  · intro values h
    simp [new, arrayOf, h, sq, bind, Except.bind]
  · intro a h
    simp [new, arrayOf, h, bind, Except.bind]

/-- C213, what holds: an array of the right shape, with a type, is kept as it is. -/
theorem array_kept_partial (c : Class) (a : Arr) (h : a.shape = [c.size, c.size]) (type : TType) (ht : type ≠ .generic) :
    new c (.ndarray a) type = .ok ⟨c, a, some type⟩ := by
  simp [new, arrayOf, h, ht, bind, Except.bind, pure, Except.pure]

/-- C213 is false of a linear transformation made without a type: `AttributeError` is raised for every list, array or transformation which
could be accepted. -/
theorem no_type_wrong (arg : Arg) :
    (∀ o, new .linear arg .generic ≠ .ok o) ∧
    (∀ values : List ℚ, values.length = 4 → new .linear (.sequence values) .generic = .error .attributeError) ∧
    (∀ o, new .linear (.transformation o) .generic = .error .attributeError) := by
  refine ⟨?_, ?_, ?_⟩
  · intro o
    unfold new
    cases h : arrayOf .linear arg <;> simp [checkType, bind, Except.bind]
  · intro values h
    simp [new, arrayOf, h, checkType, Class.size, bind, Except.bind]
  · intro o
    have : sameDimension .linear o = true := by cases h : o.cls <;> simp [sameDimension, h, Class.size, Class.dimension]
    simp [new, arrayOf, this, checkType, bind, Except.bind]

/-- C213 is false of an affine transformation made without a type: the type of its matrix is not set, whatever the matrix. -/
theorem affine_no_type_wrong (values : List ℚ) (h : values.length = 9) :
    new .affine (.sequence values) .generic = .ok ⟨.affine, ⟨[3, 3], values⟩, none⟩ := by
  simp [new, arrayOf, h, checkType, Class.size, bind, Except.bind, pure, Except.pure]

/-- C213 is false of the copy of an affine transformation: no transformation is accepted by the affine class, `ValueError` is raised even for
an affine transformation. -/
theorem copy_affine_wrong (o : Obj) (type : TType) : new .affine (.transformation o) type = .error .valueError := by
  have : sameDimension .affine o = false := by cases h : o.cls <;> simp [sameDimension, h, Class.size, Class.dimension]
  simp [new, arrayOf, this, bind, Except.bind]

/-- C213, what holds: the copy of a linear transformation, with its type, is the same transformation. -/
theorem copy_linear_partial (o : Obj) (h : o.cls = .linear) (type : TType) (ht : o.type = some type) (hg : type ≠ .generic) :
    new .linear (.transformation o) type = .ok o := by
  have : sameDimension .linear o = true := by simp [sameDimension, h, Class.size, Class.dimension]
  obtain ⟨c, m, t⟩ := o
  subst h ht
  simp [new, arrayOf, this, hg, bind, Except.bind, pure, Except.pure]

/-- C213 is false of a linear transformation made of an affine one: it is accepted, and the linear transformation has the array of the affine
one, of three rows and three columns. -/
theorem linear_of_affine_wrong (values : List ℚ) (h : values.length = 9) (type : TType) (hg : type ≠ .generic) :
    ∃ o r, new .affine (.sequence values) type = .ok o ∧ new .linear (.transformation o) type = .ok r ∧ r.cls = .linear ∧
      r.m.shape = [3, 3] ∧ r.toList = values := by
  refine ⟨⟨.affine, ⟨[3, 3], values⟩, some type⟩, ⟨.linear, ⟨[3, 3], values⟩, some type⟩, ?_, ?_, rfl, rfl, rfl⟩
  · simp [new, arrayOf, h, Class.size, hg, bind, Except.bind, pure, Except.pure]
  · simp [new, arrayOf, sameDimension, Class.size, Class.dimension, hg, bind, Except.bind, pure, Except.pure]

/-- C213 is false of a number: what is made has no matrix, its array has one axis with two elements, which have lost the decimals of the
number. -/
theorem number_wrong (c : Class) (x : ℚ) (type : TType) (hg : type ≠ .generic) :
    ∃ o, new c (.number x) type = .ok o ∧ o.m.shape = [2] ∧ (∀ i j, o.m.get? i j = none) ∧
      ∃ n : ℤ, o.toList = [(n : ℚ), n] ∧ |x - n| < 1 ∧ (0 ≤ x → 0 ≤ n ∧ (n : ℚ) ≤ x) ∧ (x ≤ 0 → n ≤ 0 ∧ x ≤ n) := by
  refine ⟨⟨c, ⟨[2], [truncate x, truncate x]⟩, some type⟩, ?_, rfl, fun _ _ => rfl, ?_⟩
  · simp [new, arrayOf, hg, bind, Except.bind, pure, Except.pure]
  · unfold Obj.toList truncate
    split
    · rename_i hx
      have h1 := Int.floor_le x
      have h2 := Int.lt_floor_add_one x
      refine ⟨⌊x⌋, rfl, ?_, fun _ => ⟨Int.floor_nonneg.2 hx, h1⟩, fun h => ?_⟩
      · rw [abs_lt]
        constructor <;> linarith
      · have : x = 0 := le_antisymm h hx
        subst this
        simp
    · rename_i hx
      have h1 := Int.le_ceil x
      have h2 := Int.ceil_lt_add_one x
      refine ⟨⌈x⌉, rfl, ?_, fun h => absurd h hx, fun h => ⟨Int.ceil_le.2 (by simpa using h), h1⟩⟩
      rw [abs_lt]
      constructor <;> linarith

/-- The matrices of the two models are the same. -/
theorem new_matrix (m : Matrix (Fin 2) (Fin 2) ℚ) (type : TType) :
    (new .linear (.sequence [m 0 0, m 0 1, m 1 0, m 1 1]) type).map Obj.type = (Transformation.Lin.new m type).map Transformation.Lin.type := by
  by_cases h : type = .generic <;>
    simp [new, arrayOf, Class.size, checkType, Transformation.Lin.new, h, bind, Except.bind, pure, Except.pure, Except.map]

/-- C214. The type found for a matrix describes its effect on every point. -/
theorem type_sound (a b c d : ℚ) (t : TType) (h : checkMatrixType [a, b, c, d] = .ok t) :
    t = .generic ∨ Says t (image a b c d) := by
  simp only [checkMatrixType, Except.ok.injEq] at h
  subst h
  by_cases hbc : b = 0 ∧ c = 0
  · obtain ⟨rfl, rfl⟩ := hbc
    split_ifs with h1 h2 h3 h4 h5 h6 h7
    all_goals first
      | exact .inl rfl
      | (right; simp only [Says, image]; intros; simp_all; done)
      | skip
    · right
      refine ⟨a, h2, h5, fun x y => ?_⟩
      simp only [image]
      simp_all
  · rw [if_neg hbc]; exact .inl rfl

/-- C214. A matrix whose effect is the one of a type is found to be of that type; in particular the generic type is only found for the matrices
whose effect is none of the others. -/
theorem type_complete (a b c d : ℚ) (t : TType) (h : Says t (image a b c d)) : checkMatrixType [a, b, c, d] = .ok t := by
  have e : ∀ p q : ℚ, (∀ x y, image a b c d x y = (p * x, q * y)) → a = p ∧ b = 0 ∧ c = 0 ∧ d = q := by
    intro p q hp
    have h1 := hp 1 0
    have h2 := hp 0 1
    simp [image] at h1 h2
    exact ⟨h1.1, h2.1, h1.2, h2.2⟩
  cases t with
  | identity => obtain ⟨rfl, rfl, rfl, rfl⟩ := e 1 1 (by simpa [Says] using h); simp [checkMatrixType]
  | xParity => obtain ⟨rfl, rfl, rfl, rfl⟩ := e (-1) 1 (by simpa [Says] using h); norm_num [checkMatrixType]
  | yParity => obtain ⟨rfl, rfl, rfl, rfl⟩ := e 1 (-1) (by simpa [Says] using h); norm_num [checkMatrixType]
  | parity => obtain ⟨rfl, rfl, rfl, rfl⟩ := e (-1) (-1) (by simpa [Says] using h); norm_num [checkMatrixType]
  | scale =>
    obtain ⟨k, h1, h2, h3⟩ := h
    obtain ⟨rfl, rfl, rfl, rfl⟩ := e k k h3
    simp [checkMatrixType, h1, h2]
  | _ => exact h.elim

/-- C214. A sequence which does not have four elements is refused. -/
theorem type_refused (values : List ℚ) (h : values.length ≠ 4) : checkMatrixType values = .error .valueError := by
  unfold checkMatrixType
  split
  · simp at h
  · rfl

/-- C214 is false of the rotations, which are found to be generic, except for the whole and the half turns: `c` and `s` are the cosine and the
sine of the angle. -/
theorem rotation_wrong (c s : ℚ) (h : c ^ 2 + s ^ 2 = 1) :
    checkMatrixType [c, -s, s, c] = .ok (if s ≠ 0 then .generic else if c = 1 then .identity else .parity) := by
  unfold checkMatrixType
  by_cases hs : s = 0
  · subst hs
    have hc : c = 1 ∨ c = -1 := by
      have : (c - 1) * (c + 1) = 0 := by linear_combination h
      rcases mul_eq_zero.1 this with e | e
      · exact Or.inl (by linear_combination e)
      · exact Or.inr (by linear_combination e)
    rcases hc with rfl | rfl <;> decide +kernel
  · simp [hs]

example : checkMatrixType [3 / 5, -(4 / 5), 4 / 5, 3 / 5] = .ok .generic := by decide +kernel

example : new .affine (.sequence [1, 0, 5, 0, 1, 7, 0, 0, 1]) .translation =
    .ok ⟨.affine, ⟨[3, 3], [1, 0, 5, 0, 1, 7, 0, 0, 1]⟩, some .translation⟩ := by decide +kernel

example : ∃ o : Obj, o.cls = .linear ∧ o.type = some .shear ∧ new .linear (.sequence [2, 0, 0, 3]) .shear = .ok o :=
  ⟨⟨.linear, ⟨[2, 2], [2, 0, 0, 3]⟩, some .shear⟩, rfl, rfl, by decide +kernel⟩

example : checkMatrixType [3, 0, 0, 3] = .ok .scale := by decide +kernel

example : checkMatrixType [1, 0, 0, 3] = .ok .generic := by decide +kernel

end Patro.TransformationNew
