import Verif.Spec.Transformation
import Mathlib.LinearAlgebra.Matrix.Determinant.Basic
import Mathlib.Tactic.Ring
import Mathlib.Tactic.Linarith
import Mathlib.Tactic.LinearCombination
import Mathlib.Tactic.NormNum
import Verif.Proof.Vector
import Verif.Proof.Line
/-! # C34 to C37 and C92: transformations -/

namespace Patro.Transformation

open Classical

section Ring

variable {K : Type _} [CommRing K]

theorem lin_apply (t : Lin K) (v : Vec K) :
    t.apply v = ⟨t.m 0 0 * v.x + t.m 0 1 * v.y, t.m 1 0 * v.x + t.m 1 1 * v.y⟩ := by
  simp [Lin.apply, Matrix.mulVec, dotProduct, Fin.sum_univ_two]

theorem aff_apply (t : Aff K) (v : Vec K) :
    t.apply v = ⟨t.m 0 0 * v.x + t.m 0 1 * v.y + t.m 0 2, t.m 1 0 * v.x + t.m 1 1 * v.y + t.m 1 2⟩ := by
  simp [Aff.apply, Matrix.mulVec, dotProduct, Fin.sum_univ_three]

theorem lin_apply_mul (a b : Matrix (Fin 2) (Fin 2) K) (x y z) (v : Vec K) :
    (⟨a * b, x⟩ : Lin K).apply v = (⟨a, y⟩ : Lin K).apply ((⟨b, z⟩ : Lin K).apply v) := by
  simp only [lin_apply, Matrix.mul_apply, Fin.sum_univ_two]
  ext <;> simp only <;> ring

/-- The last row of an affine matrix. -/
def LastRow (m : Matrix (Fin 3) (Fin 3) K) : Prop := m 2 0 = 0 ∧ m 2 1 = 0 ∧ m 2 2 = 1

theorem aff_apply_mul (a b : Matrix (Fin 3) (Fin 3) K) (hb : LastRow b) (x y z) (v : Vec K) :
    (⟨a * b, x⟩ : Aff K).apply v = (⟨a, y⟩ : Aff K).apply ((⟨b, z⟩ : Aff K).apply v) := by
  obtain ⟨h0, h1, h2⟩ := hb
  simp only [aff_apply, Matrix.mul_apply, Fin.sum_univ_three, h0, h1, h2]
  ext <;> simp only <;> ring

theorem lastRow_mul (a b : Matrix (Fin 3) (Fin 3) K) (ha : LastRow a) (hb : LastRow b) : LastRow (a * b) := by
  obtain ⟨a0, a1, a2⟩ := ha
  obtain ⟨b0, b1, b2⟩ := hb
  simp only [LastRow, Matrix.mul_apply, Fin.sum_univ_three, a0, a1, a2, b0, b1, b2]
  simp

/-! ## C34 -/

/-- C34. Applying the product of two linear transformations is applying the right one, then the left one. -/
theorem lin_mul_apply (t u r : Lin K) (h : t.mul u = .ok r) (v : Vec K) : r.apply v = t.apply (u.apply v) := by
  unfold Lin.mul Lin.new at h
  split at h
  · cases h
  · cases h
    exact lin_apply_mul t.m u.m _ t.type u.type v

/-- C34. The product of linear transformations is associative, when the products involved succeed. -/
theorem lin_mul_assoc (t u w tu uw r s : Lin K) (h1 : t.mul u = .ok tu) (h2 : u.mul w = .ok uw) (h3 : tu.mul w = .ok r)
    (h4 : t.mul uw = .ok s) : r.m = s.m := by
  have key : ∀ a b c : Lin K, a.mul b = .ok c → c.m = a.m * b.m := by
    intro a b c h
    unfold Lin.mul Lin.new at h
    split at h
    · cases h
    · cases h; rfl
  rw [key _ _ _ h3, key _ _ _ h1, key _ _ _ h4, key _ _ _ h2, Matrix.mul_assoc]

/-- C34. The product of linear transformations succeeds exactly when both have the same type, which is a rotation, a
scale or a reflection; otherwise `AttributeError` is raised. In particular the identity cannot be composed. -/
theorem lin_mul_ok_iff (t u : Lin K) :
    ((∃ r, t.mul u = .ok r) ↔ t.type = u.type ∧ (t.type = some .rotation ∨ t.type = some .scale ∨ t.type = some .parity ∨
      t.type = some .xParity ∨ t.type = some .yParity)) ∧
    (¬ (∃ r, t.mul u = .ok r) ↔ t.mul u = .error .attributeError) := by
  obtain ⟨m, a⟩ := t
  obtain ⟨m', b⟩ := u
  unfold Lin.mul Lin.new
  simp only
  refine ⟨?_, ?_⟩
  · by_cases h : a = b
    · subst h
      cases a with
      | none => simp [mulType]
      | some a => cases a <;> simp [mulType]
    · simp [mulType, h]
  · by_cases h : mulType a b = .generic
    · simp [h]
    · simp [h]

/-- C34. Applying the product of two affine transformations is applying the right one, then the left one; the right one
must be affine, that is the last row of its matrix is `0 0 1`. -/
theorem aff_mul_apply (t u : Aff K) (hu : LastRow u.m) (v : Vec K) : (t.mul u).apply v = t.apply (u.apply v) := by
  unfold Aff.mul Aff.new
  split
  · exact aff_apply_mul t.m u.m hu _ t.type u.type v
  · exact aff_apply_mul t.m u.m hu _ t.type u.type v

/-- C34. The product of affine transformations is associative and the identity is neutral. -/
theorem aff_mul_assoc (t u w : Aff K) :
    ((t.mul u).mul w).m = (t.mul (u.mul w)).m ∧ (t.mul Aff.identity).m = t.m ∧ (Aff.identity.mul t).m = t.m := by
  have key : ∀ a b : Aff K, (a.mul b).m = a.m * b.m := by
    intro a b
    unfold Aff.mul Aff.new
    split <;> rfl
  simp only [key, Matrix.mul_assoc]
  simp [Aff.identity]

end Ring

/-- C34 fails for a matrix which is not affine: the homogeneous coordinate `w` of the image of `v` is dropped, and the two results are
equal exactly when `w` is 1 or the left transformation moves nothing but by its linear part. -/
theorem aff_mul_wrong {K : Type _} [Field K] (t u : Aff K) (v : Vec K) :
    (t.mul u).apply v = t.apply (u.apply v) ↔
      u.m 2 0 * v.x + u.m 2 1 * v.y + u.m 2 2 = 1 ∨ t.m 0 2 = 0 ∧ t.m 1 2 = 0 := by
  have key : (t.mul u).apply v = ⟨(t.apply (u.apply v)).x + t.m 0 2 * (u.m 2 0 * v.x + u.m 2 1 * v.y + u.m 2 2 - 1),
      (t.apply (u.apply v)).y + t.m 1 2 * (u.m 2 0 * v.x + u.m 2 1 * v.y + u.m 2 2 - 1)⟩ := by
    obtain ⟨a, x⟩ := t
    obtain ⟨b, y⟩ := u
    unfold Aff.mul Aff.new
    split <;>
    · simp only [aff_apply, Matrix.mul_apply, Fin.sum_univ_three]
      ext <;> simp only <;> ring
  rw [key, Vec.ext_iff]
  simp only [add_eq_left, mul_eq_zero, sub_eq_zero]
  tauto

example :
    let t : Aff ℚ := Aff.translation ⟨1, 0⟩
    let u : Aff ℚ := Aff.new !![1, 0, 0; 0, 1, 0; 0, 0, 2]
    (t.mul u).apply ⟨0, 0⟩ = ⟨2, 0⟩ ∧ t.apply (u.apply ⟨0, 0⟩) = ⟨1, 0⟩ := by
  decide +kernel

/-! ## C35 -/

/-- What a type says about the matrix of a linear transformation. -/
def LinOK (t : Lin ℝ) : Prop :=
  match t.type with
  | some .identity => t.m = 1
  | some .parity => t.m = !![-1, 0; 0, -1]
  | some .xParity => t.m = !![-1, 0; 0, 1]
  | some .yParity => t.m = !![1, 0; 0, -1]
  | some .scale => ∃ k, t.m = !![k, 0; 0, k]
  | some .rotation => ∃ a, t.m = !![Real.cos a, -Real.sin a; Real.sin a, Real.cos a]
  | some .shear => ∃ x y, t.m = !![x, 0; 0, y]
  | some .generic => True
  | _ => False

theorem one_eq : (1 : Matrix (Fin 2) (Fin 2) ℝ) = !![1, 0; 0, 1] := by
  ext i j; fin_cases i <;> fin_cases j <;> rfl

theorem rot_mul (a b : ℝ) : (!![Real.cos a, -Real.sin a; Real.sin a, Real.cos a] : Matrix (Fin 2) (Fin 2) ℝ) *
    !![Real.cos b, -Real.sin b; Real.sin b, Real.cos b] =
    !![Real.cos (a + b), -Real.sin (a + b); Real.sin (a + b), Real.cos (a + b)] := by
  rw [Matrix.mul_fin_two, Real.cos_add, Real.sin_add]
  congr 1
  ext i j; fin_cases i <;> fin_cases j <;> simp <;> ring

theorem linOK_scale (x : ℝ) (y : Option ℝ) : LinOK (Lin.scale x y) := by
  unfold Lin.scale
  generalize y.getD x = y
  unfold LinOK typeForScale
  by_cases hxy : x = y
  · subst hxy
    by_cases h1 : x = 1
    · subst h1; simp [one_eq]
    · by_cases h2 : x = -1
      · subst h2; simp [h1]
      · simp only [if_true, if_neg h1, if_neg h2]; exact ⟨x, rfl⟩
  · by_cases h1 : x = -1 ∧ y = 1
    · obtain ⟨rfl, rfl⟩ := h1; simp [hxy]
    · by_cases h2 : x = 1 ∧ y = -1
      · obtain ⟨rfl, rfl⟩ := h2; simp [hxy]
      · simp only [if_neg hxy, if_neg h1, if_neg h2]; exact ⟨x, y, rfl⟩

theorem linOK_mul (t u : Lin ℝ) (ht : LinOK t) (hu : LinOK u) (h : mulType t.type u.type ≠ .generic) :
    LinOK ⟨t.m * u.m, some (mulType t.type u.type)⟩ := by
  obtain ⟨m, a⟩ := t
  obtain ⟨m', b⟩ := u
  simp only at *
  by_cases hab : a = b
  · subst hab
    cases a with
    | none => exact absurd rfl h
    | some a =>
      cases a <;> simp [mulType] at h ⊢
      · -- scale
        obtain ⟨k, hk⟩ := ht
        obtain ⟨l, hl⟩ := hu
        refine ⟨k * l, ?_⟩
        simp only at hk hl
        rw [hk, hl, Matrix.mul_fin_two]; simp
      · have h1 : m = _ := ht
        have h2 : m' = _ := hu
        show m * m' = 1
        rw [h1, h2, Matrix.mul_fin_two, one_eq]; simp
      · have h1 : m = _ := ht
        have h2 : m' = _ := hu
        show m * m' = 1
        rw [h1, h2, Matrix.mul_fin_two, one_eq]; simp
      · have h1 : m = _ := ht
        have h2 : m' = _ := hu
        show m * m' = 1
        rw [h1, h2, Matrix.mul_fin_two, one_eq]; simp
      · obtain ⟨x, hx⟩ := ht
        obtain ⟨y, hy⟩ := hu
        refine ⟨x + y, ?_⟩
        simp only at hx hy
        rw [hx, hy]; exact rot_mul x y
  · simp [mulType, hab] at h

theorem mulType_comm (a b : Option TType) : mulType a b = mulType b a := by
  unfold mulType
  by_cases h : a = b
  · subst h; rfl
  · rw [if_neg h, if_neg (Ne.symm h)]

theorem lin_reach_ok (t : Lin ℝ) (h : Lin.Reach t) : LinOK t := by
  induction h with
  | identity => rfl
  | rotation angle => exact ⟨_, rfl⟩
  | scale x y => exact linOK_scale x y
  | mul t u r _ _ h iht ihu =>
    unfold Lin.mul Lin.new at h
    split at h
    · cases h
    · cases h; exact linOK_mul t u iht ihu (by assumption)
  | imul t u _ _ iht ihu =>
    unfold Lin.imul
    split
    · simp only
      split
      · trivial
      · rename_i h
        rw [mulType_comm]
        rw [mulType_comm] at h
        exact linOK_mul u t ihu iht h
    · exact iht

/-- C35. A linear transformation that reports the identity is the identity. -/
theorem lin_identity_sound (t : Lin ℝ) (h : Lin.Reach t) (hid : t.type = some .identity) (v : Vec ℝ) : t.apply v = v := by
  have := lin_reach_ok t h
  unfold LinOK at this
  rw [hid] at this
  simp only at this
  rw [lin_apply, this]
  ext <;> simp

/-- C35. The type of a linear transformation that the class methods, products and in-place products give is true: the
reflections, scales and rotations do what their names say. -/
theorem lin_type_sound (t : Lin ℝ) (h : Lin.Reach t) (v : Vec ℝ) :
    (t.type = some .parity → t.apply v = ⟨-v.x, -v.y⟩) ∧
    (t.type = some .xParity → t.apply v = ⟨-v.x, v.y⟩) ∧
    (t.type = some .yParity → t.apply v = ⟨v.x, -v.y⟩) ∧
    (t.type = some .scale → ∃ k, ∀ v, t.apply v = ⟨k * v.x, k * v.y⟩) ∧
    (t.type = some .rotation → ∃ angle, ∀ v, t.apply v = v.rotate angle) := by
  have hok := lin_reach_ok t h
  unfold LinOK at hok
  refine ⟨?_, ?_, ?_, ?_, ?_⟩ <;> intro ht <;> rw [ht] at hok <;> simp only at hok
  · rw [lin_apply, hok]; simp
  · rw [lin_apply, hok]; simp
  · rw [lin_apply, hok]; simp
  · obtain ⟨k, hk⟩ := hok
    refine ⟨k, fun v => ?_⟩
    rw [lin_apply, hk]; simp
  · obtain ⟨a, ha⟩ := hok
    refine ⟨Vec.degrees a, fun v => ?_⟩
    rw [lin_apply, ha]
    unfold Vec.rotate
    simp only [if_true, Vec.radians_degrees]
    ext <;> simp <;> ring

/-- What a type says about the matrix of an affine transformation. -/
def AffOK (t : Aff ℝ) : Prop :=
  LastRow t.m ∧
  match t.type with
  | some .identity => t.m = 1
  | some .parity => t.m = !![-1, 0, 0; 0, -1, 0; 0, 0, 1]
  | some .xParity => t.m = !![-1, 0, 0; 0, 1, 0; 0, 0, 1]
  | some .yParity => t.m = !![1, 0, 0; 0, -1, 0; 0, 0, 1]
  | some .scale => ∃ k, t.m = !![k, 0, 0; 0, k, 0; 0, 0, 1]
  | some .rotation => ∃ a, t.m = !![Real.cos a, -Real.sin a, 0; Real.sin a, Real.cos a, 0; 0, 0, 1]
  | some .shear => ∃ x y, t.m = !![x, 0, 0; 0, y, 0; 0, 0, 1]
  | some .translation => ∃ x y, t.m = !![1, 0, x; 0, 1, y; 0, 0, 1]
  | some .generic => True
  | none => True

theorem one_eq3 : (1 : Matrix (Fin 3) (Fin 3) ℝ) = !![1, 0, 0; 0, 1, 0; 0, 0, 1] := by
  ext i j; fin_cases i <;> fin_cases j <;> rfl

theorem lastRow_of (a b c d e f : ℝ) : LastRow !![a, b, c; d, e, f; 0, 0, 1] := by
  simp [LastRow]

theorem mul3 (a b c d e f a' b' c' d' e' f' : ℝ) :
    (!![a, b, c; d, e, f; 0, 0, 1] : Matrix (Fin 3) (Fin 3) ℝ) * !![a', b', c'; d', e', f'; 0, 0, 1] =
      !![a * a' + b * d', a * b' + b * e', a * c' + b * f' + c;
        d * a' + e * d', d * b' + e * e', d * c' + e * f' + f; 0, 0, 1] := by
  ext i j
  fin_cases i <;> fin_cases j <;> simp [Matrix.mul_apply, Fin.sum_univ_three]

theorem affOK_mul (t u : Aff ℝ) (ht : AffOK t) (hu : AffOK u) (h : mulType t.type u.type ≠ .generic) :
    AffOK ⟨t.m * u.m, some (mulType t.type u.type)⟩ := by
  refine ⟨lastRow_mul _ _ ht.1 hu.1, ?_⟩
  have ht := ht.2
  have hu := hu.2
  obtain ⟨m, a⟩ := t
  obtain ⟨m', b⟩ := u
  simp only at *
  by_cases hab : a = b
  · subst hab
    cases a with
    | none => exact absurd rfl h
    | some a =>
      cases a <;> simp [mulType] at h ht hu ⊢
      · obtain ⟨k, hk⟩ := ht
        obtain ⟨l, hl⟩ := hu
        refine ⟨k * l, ?_⟩
        rw [hk, hl, mul3]; simp
      · rw [ht, hu, mul3, one_eq3]; simp
      · rw [ht, hu, mul3, one_eq3]; simp
      · rw [ht, hu, mul3, one_eq3]; simp
      · obtain ⟨x, hx⟩ := ht
        obtain ⟨y, hy⟩ := hu
        refine ⟨x + y, ?_⟩
        rw [hx, hy, mul3, Real.cos_add, Real.sin_add]
        congr 1
        ext i j; fin_cases i <;> fin_cases j <;> simp <;> ring
  · simp [mulType, hab] at h

theorem affOK_new (m : Matrix (Fin 3) (Fin 3) ℝ) (h : LastRow m) : AffOK ⟨m, none⟩ := ⟨h, trivial⟩

theorem affOK_imul (t u : Aff ℝ) (ht : AffOK t) (hu : AffOK u) : AffOK (t.imul u) := by
  unfold Aff.imul
  split
  · simp only
    split
    · exact affOK_new _ (lastRow_mul _ _ hu.1 ht.1)
    · rename_i h
      rw [mulType_comm]
      rw [mulType_comm] at h
      exact affOK_mul u t hu ht h
  · exact ht

theorem affOK_scale (x y : ℝ) : AffOK (Aff.scale x y) := by
  unfold Aff.scale
  refine ⟨lastRow_of .., ?_⟩
  unfold typeForScale
  by_cases hxy : x = y
  · subst hxy
    by_cases h1 : x = 1
    · subst h1; simp [one_eq3]
    · by_cases h2 : x = -1
      · subst h2; simp [h1]
      · simp only [if_true, if_neg h1, if_neg h2]; exact ⟨x, rfl⟩
  · by_cases h1 : x = -1 ∧ y = 1
    · obtain ⟨rfl, rfl⟩ := h1; simp [hxy]
    · by_cases h2 : x = 1 ∧ y = -1
      · obtain ⟨rfl, rfl⟩ := h2; simp [hxy]
      · simp only [if_neg hxy, if_neg h1, if_neg h2]; exact ⟨x, y, rfl⟩

theorem affOK_translation (v : Vec ℝ) : AffOK (Aff.translation v) := ⟨lastRow_of .., v.x, v.y, rfl⟩

theorem affOK_rotation (a : ℝ) : AffOK (Aff.rotation a) := ⟨lastRow_of .., _, rfl⟩

theorem aff_reach_ok (t : Aff ℝ) (h : Aff.Reach t) : AffOK t := by
  induction h with
  | identity => exact ⟨by simp [Aff.identity, LastRow], rfl⟩
  | matrix a b c d e f => exact affOK_new _ (lastRow_of ..)
  | translation v => exact affOK_translation v
  | rotation a => exact affOK_rotation a
  | rotationAt c a => exact affOK_imul _ _ (affOK_imul _ _ (affOK_translation _) (affOK_rotation _)) (affOK_translation _)
  | scale x y => exact affOK_scale x y
  | screen h => exact ⟨lastRow_of .., trivial⟩
  | mul t u _ _ iht ihu =>
    unfold Aff.mul Aff.new
    split
    · exact affOK_new _ (lastRow_mul _ _ iht.1 ihu.1)
    · exact affOK_mul t u iht ihu (by assumption)
  | imul t u _ _ iht ihu => exact affOK_imul t u iht ihu

/-- C34. The hypothesis on the last row holds for all the affine transformations a program can build, so that products
always compose. -/
theorem aff_reach_mul_apply (t u : Aff ℝ) (_ : Aff.Reach t) (hu : Aff.Reach u) (v : Vec ℝ) :
    (t.mul u).apply v = t.apply (u.apply v) := aff_mul_apply t u (aff_reach_ok u hu).1 v

/-- C35. An affine transformation that reports the identity is the identity. -/
theorem aff_identity_sound (t : Aff ℝ) (h : Aff.Reach t) (hid : t.type = some .identity) (v : Vec ℝ) : t.apply v = v := by
  have := (aff_reach_ok t h).2
  rw [hid] at this
  simp only at this
  rw [aff_apply, this]
  ext <;> simp

/-- C34. The in-place product `T *= U` applies `T`, then `U`, also when it skips an identity, and even when it fails after
having changed the matrix. -/
theorem imul_apply (t u : Lin ℝ) (_ : Lin.Reach t) (hu : Lin.Reach u) (t' u' : Aff ℝ) (ht' : Aff.Reach t') (hu' : Aff.Reach u')
    (v : Vec ℝ) : (t.imul u).2.apply v = u.apply (t.apply v) ∧ (t'.imul u').apply v = u'.apply (t'.apply v) := by
  constructor
  · unfold Lin.imul
    split
    · simp only
      split <;> exact lin_apply_mul _ _ _ u.type t.type v
    · rename_i h
      rw [lin_identity_sound u hu (not_not.1 h)]
  · unfold Aff.imul
    split
    · simp only
      split <;> exact aff_apply_mul _ _ (aff_reach_ok t' ht').1 _ u'.type t'.type v
    · rename_i h
      rw [aff_identity_sound u' hu' (not_not.1 h)]

/-- C34. `T *= U` for linear transformations raises `AttributeError` when the types differ, after having changed `T`. -/
theorem lin_imul_raises :
    ((Lin.identity : Lin ℝ).imul Lin.parity).1 = .error .attributeError ∧
    ((Lin.identity : Lin ℝ).imul Lin.parity).2.m = !![-1, 0; 0, -1] := by
  have h : (Lin.parity : Lin ℝ).type = some .parity := by
    simp only [Lin.parity, Lin.scale, typeForScale, Option.getD_some, if_true]
    rw [if_neg (by norm_num)]
  have h1 : (Lin.identity : Lin ℝ).type = some .identity := rfl
  unfold Lin.imul
  rw [h, h1]
  simp [mulType, Lin.identity, Lin.parity, Lin.scale]

/-! ## C36 -/

/-- C36. `Translation(v)` moves every point by `v`; `Rotation` and `Scale` do what they say; `Screen(h)` maps `(x, y)` to
`(x, h - y)` and is its own inverse. -/
theorem aff_constructors (v q : Vec ℝ) (x y h angle : ℝ) :
    (Aff.translation v).apply q = q + v ∧ (Aff.rotation angle).apply q = q.rotate angle ∧
    (Aff.scale x y).apply q = ⟨x * q.x, y * q.y⟩ ∧
    (Aff.screen h).apply q = ⟨q.x, h - q.y⟩ ∧ (Aff.screen h).apply ((Aff.screen h).apply q) = q ∧
    (Lin.rotation angle).apply q = q.rotate angle ∧ (Lin.scale x (some y)).apply q = ⟨x * q.x, y * q.y⟩ ∧
    (Lin.scale x none).apply q = ⟨x * q.x, x * q.y⟩ := by
  refine ⟨?_, ?_, ?_, ?_, ?_, ?_, ?_, ?_⟩
  · rw [aff_apply]; ext <;> simp [Aff.translation]
  · rw [aff_apply]; ext <;> simp [Aff.rotation, Vec.rotate] <;> ring
  · rw [aff_apply]; ext <;> simp [Aff.scale]
  · rw [aff_apply]; ext <;> simp [Aff.screen]; ring
  · rw [aff_apply, aff_apply]; ext <;> simp [Aff.screen]
  · rw [lin_apply]; ext <;> simp [Lin.rotation, Vec.rotate]; ring
  · rw [lin_apply]; ext <;> simp [Lin.scale]
  · rw [lin_apply]; ext <;> simp [Lin.scale]

/-- C36. The rotation about a centre turns the vectors from the centre. -/
theorem rotationAt_apply (c q : Vec ℝ) (angle : ℝ) : (Aff.rotationAt c angle).apply q = c + (q - c).rotate angle := by
  unfold Aff.rotationAt
  have r1 := Aff.Reach.translation (-c)
  have r2 := Aff.Reach.rotation angle
  have r3 := Aff.Reach.translation c
  rw [(imul_apply _ _ Lin.Reach.identity Lin.Reach.identity _ _ (Aff.Reach.imul _ _ r1 r2) r3 q).2,
    (imul_apply _ _ Lin.Reach.identity Lin.Reach.identity _ _ r1 r2 q).2]
  obtain ⟨h1, h2, _⟩ := aff_constructors c ((Aff.rotation angle).apply ((Aff.translation (-c)).apply q)) 0 0 0 angle
  obtain ⟨h3, h4, _⟩ := aff_constructors (-c) q 0 0 0 angle
  obtain ⟨_, h5, _⟩ := aff_constructors 0 (q + -c) 0 0 0 angle
  rw [h1, h3, h5]
  ext <;> simp [Vec.rotate] <;> ring

theorem rotate_distance (p q : Vec ℝ) (angle : ℝ) : distance (p.rotate angle) (q.rotate angle) = distance p q := by
  unfold distance Vec.rotate
  congr 1
  simp only [if_true]
  linear_combination ((p.x - q.x) ^ 2 + (p.y - q.y) ^ 2) * Real.sin_sq_add_cos_sq (Vec.radians angle)

/-- C36. The rotation about a centre leaves the centre fixed and preserves the distances. -/
theorem rotationAt_spec (c : Vec ℝ) (angle : ℝ) :
    (Aff.rotationAt c angle).apply c = c ∧ Similarity 1 (Aff.rotationAt c angle).apply := by
  constructor
  · rw [rotationAt_apply]; ext <;> simp [Vec.rotate]
  · intro p q
    rw [rotationAt_apply, rotationAt_apply, one_mul]
    have tr : ∀ a b : Vec ℝ, distance (c + a) (c + b) = distance a b := by
      intro a b
      unfold distance
      congr 1
      simp
    rw [tr, rotate_distance]
    unfold distance
    congr 1
    simp

/-! ## C92 -/

theorem similarity_of_matrix (t : Aff ℝ) (k : ℝ) (hk : 0 ≤ k)
    (h1 : t.m 0 0 ^ 2 + t.m 1 0 ^ 2 = k ^ 2) (h2 : t.m 0 1 ^ 2 + t.m 1 1 ^ 2 = k ^ 2)
    (h3 : t.m 0 0 * t.m 0 1 + t.m 1 0 * t.m 1 1 = 0) : Similarity k t.apply := by
  intro p q
  unfold distance
  rw [← Real.sqrt_sq hk, ← Real.sqrt_mul (sq_nonneg k)]
  congr 1
  rw [aff_apply, aff_apply]
  simp only
  linear_combination (p.x - q.x) ^ 2 * h1 + (p.y - q.y) ^ 2 * h2 + 2 * (p.x - q.x) * (p.y - q.y) * h3

/-- C92. When the type of an affine transformation is known and is not a shear, its product by a number is the number
multiplied by the factor of the distances. -/
theorem scalarMul_partial (t : Aff ℝ) (h : Aff.Reach t) (ht : t.type ≠ none) (s r : ℝ)
    (hr : scalarMul t.type (t.m 0 0) s = .ok r) : ∃ k, 0 ≤ k ∧ r = k * s ∧ Similarity k t.apply := by
  have hok := (aff_reach_ok t h).2
  cases hty : t.type with
  | none => exact absurd hty ht
  | some ty =>
    rw [hty] at hok hr
    cases ty <;> simp only at hok <;> simp [scalarMul] at hr
    · refine ⟨1, zero_le_one, by linarith, similarity_of_matrix t 1 zero_le_one ?_ ?_ ?_⟩ <;> rw [hok] <;> simp
    · obtain ⟨k, hk⟩ := hok
      refine ⟨|t.m 0 0|, abs_nonneg _, hr.symm, similarity_of_matrix t _ (abs_nonneg _) ?_ ?_ ?_⟩ <;> rw [hk] <;> simp
    · refine ⟨|t.m 0 0|, abs_nonneg _, hr.symm, similarity_of_matrix t _ (abs_nonneg _) ?_ ?_ ?_⟩ <;> rw [hok] <;> simp
    · refine ⟨|t.m 0 0|, abs_nonneg _, hr.symm, similarity_of_matrix t _ (abs_nonneg _) ?_ ?_ ?_⟩ <;> rw [hok] <;> simp
    · refine ⟨|t.m 0 0|, abs_nonneg _, hr.symm, similarity_of_matrix t _ (abs_nonneg _) ?_ ?_ ?_⟩ <;> rw [hok] <;> simp
    · obtain ⟨a, ha⟩ := hok
      have hsc := Real.sin_sq_add_cos_sq a
      refine ⟨1, zero_le_one, by linarith, similarity_of_matrix t 1 zero_le_one ?_ ?_ ?_⟩ <;> rw [ha] <;> simp <;> linarith
    · obtain ⟨x, y, hx⟩ := hok
      refine ⟨|t.m 0 0|, abs_nonneg _, hr.symm, similarity_of_matrix t _ (abs_nonneg _) ?_ ?_ ?_⟩ <;> rw [hx] <;> simp

/-- C92 fails for every rotation about a centre, but a turn and half a turn: it preserves the distances, but the type is lost and lengths are
multiplied by the cosine of the angle. -/
theorem scalarMul_wrong (center : Vec ℝ) (angle s : ℝ) :
    Similarity 1 (Aff.rotationAt center angle).apply ∧
    scalarMul (Aff.rotationAt center angle).type ((Aff.rotationAt center angle).m 0 0) s = .ok (|Real.cos (angle * Real.pi / 180)| * s) ∧
    (s ≠ 0 → Real.sin (angle * Real.pi / 180) ≠ 0 → |Real.cos (angle * Real.pi / 180)| * s ≠ s) := by
  refine ⟨(rotationAt_spec _ _).2, ?_, ?_⟩
  · have ht : (Aff.rotationAt center angle).type = none := rfl
    have hm : (Aff.rotationAt center angle).m 0 0 = Real.cos (Vec.radians angle) := by
      have : (Aff.rotationAt center angle).m =
          (Aff.translation center).m * ((Aff.rotation angle).m * (Aff.translation (-center)).m) := rfl
      rw [this]
      simp [Matrix.mul_apply, Fin.sum_univ_three, Aff.translation, Aff.rotation]
    have hr : Vec.radians angle = angle * Real.pi / 180 := by unfold Vec.radians; ring
    rw [ht, hm, hr]
    simp [scalarMul]
  · intro hs hsin h
    have h1 : |Real.cos (angle * Real.pi / 180)| = 1 := mul_right_cancel₀ hs (h.trans (one_mul s).symm)
    have h2 := Real.sin_sq_add_cos_sq (angle * Real.pi / 180)
    rw [← sq_abs (Real.cos _), h1] at h2
    exact hsin (pow_eq_zero_iff (two_ne_zero)|>.1 (by linarith))

/-- A rotation of 90 degrees: all the lengths become zero. -/
example : scalarMul (Aff.rotationAt ⟨1, 0⟩ 90).type ((Aff.rotationAt ⟨1, 0⟩ 90).m 0 0) 5 = .ok 0 := by
  rw [(scalarMul_wrong ⟨1, 0⟩ 90 5).2.1, show (90 : ℝ) * Real.pi / 180 = Real.pi / 2 by ring]
  simp

/-- C92 fails for the screen transformation, which preserves the distances: the product raises `ValueError`. -/
theorem scalarMul_screen (h : ℝ) :
    Similarity 1 (Aff.screen h).apply ∧ scalarMul (Aff.screen h).type ((Aff.screen h).m 0 0) 5 = .error .valueError := by
  refine ⟨similarity_of_matrix _ 1 zero_le_one ?_ ?_ ?_, ?_⟩ <;> simp [Aff.screen, scalarMul]

/-- C92. The products of the transformations made by the class methods by a length: the length for the identity, translations and rotations,
the length multiplied by the absolute value of the factor for a scale with one factor and for the two reflections, and `ValueError` for the other
scales. -/
theorem scalarMul_made (s : ℝ) :
    scalarMul (Aff.identity (K := ℝ)).type (Aff.identity.m 0 0) s = .ok s ∧
    (∀ v : Vec ℝ, scalarMul (Aff.translation v).type ((Aff.translation v).m 0 0) s = .ok s) ∧
    (∀ angle, scalarMul (Aff.rotation angle).type ((Aff.rotation angle).m 0 0) s = .ok s) ∧
    (∀ k : ℝ, scalarMul (Aff.scale k k).type ((Aff.scale k k).m 0 0) s = .ok (|k| * s)) ∧
    (∀ x y : ℝ, x * y = -1 → x + y = 0 → scalarMul (Aff.scale x y).type ((Aff.scale x y).m 0 0) s = .ok s) ∧
    ∀ x y : ℝ, x ≠ y → ¬ (x * y = -1 ∧ x + y = 0) → scalarMul (Aff.scale x y).type ((Aff.scale x y).m 0 0) s = .error .valueError := by
  have key : ∀ x y : ℝ, (x * y = -1 ∧ x + y = 0) ↔ (x = -1 ∧ y = 1) ∨ (x = 1 ∧ y = -1) := by
    intro x y
    constructor
    · rintro ⟨h1, h2⟩
      have hy : y = -x := by linarith
      subst hy
      have : (x - 1) * (x + 1) = 0 := by linarith
      rcases mul_eq_zero.1 this with h | h
      · exact .inr ⟨by linarith, by linarith⟩
      · exact .inl ⟨by linarith, by linarith⟩
    · rintro (⟨rfl, rfl⟩ | ⟨rfl, rfl⟩) <;> norm_num
  refine ⟨by simp [Aff.identity, scalarMul], fun v => by simp [Aff.translation, scalarMul], fun a => by simp [Aff.rotation, scalarMul], fun k => ?_,
    fun x y h1 h2 => ?_, fun x y h1 h2 => ?_⟩
  · simp only [Aff.scale, typeForScale, if_true]
    by_cases h1 : k = 1
    · subst h1; simp [scalarMul]
    · by_cases h2 : k = -1
      · subst h2; rw [if_neg h1, if_pos rfl]; simp [scalarMul]
      · simp [scalarMul, h1, h2]
  · rcases (key x y).1 ⟨h1, h2⟩ with ⟨rfl, rfl⟩ | ⟨rfl, rfl⟩
    · have : typeForScale (-1 : ℝ) 1 = .xParity := by norm_num [typeForScale]
      simp [Aff.scale, this, scalarMul]
    · have : typeForScale (1 : ℝ) (-1) = .yParity := by norm_num [typeForScale]
      simp [Aff.scale, this, scalarMul]
  · rw [key, not_or] at h2
    simp [Aff.scale, typeForScale, scalarMul, h1, h2.1, h2.2]

/-- C92 fails for a scale by opposite factors, which multiplies all the distances by the same number: `ValueError`. -/
theorem scalarMul_opposite_wrong (k s : ℝ) (h0 : k ≠ 0) (h1 : k ≠ 1) (h2 : k ≠ -1) :
    Similarity |k| (Aff.scale k (-k)).apply ∧ scalarMul (Aff.scale k (-k)).type ((Aff.scale k (-k)).m 0 0) s = .error .valueError := by
  refine ⟨similarity_of_matrix _ _ (abs_nonneg _) ?_ ?_ ?_, (scalarMul_made s).2.2.2.2.2 k (-k) ?_ ?_⟩
  · simp [Aff.scale]
  · simp [Aff.scale]
  · simp [Aff.scale]
  · intro h
    exact h0 (by linarith)
  · rintro ⟨h, -⟩
    have : (k - 1) * (k + 1) = 0 := by linarith
    rcases mul_eq_zero.1 this with h | h
    · exact h1 (by linarith)
    · exact h2 (by linarith)

/-! ## C37 -/

section Primitive

variable {K : Type _}

theorem filterMap_values (heap : Heap K) (p : Prim) (h : ∀ a ∈ p, a < heap.length) :
    (p.filterMap fun a => heap[a]?).map some = values heap p := by
  induction p with
  | nil => rfl
  | cons a p ih =>
    have ha := h a (by simp)
    rw [List.filterMap_cons_some (b := heap[a]) (List.getElem?_eq_getElem ha), List.map_cons,
      ih fun b hb => h b (List.mem_cons_of_mem _ hb)]
    simp [values, List.getElem?_eq_getElem ha]

theorem values_alloc (heap : Heap K) (vs : List (Vec K)) :
    values (alloc heap vs).1 (alloc heap vs).2 = vs.map some := by
  unfold alloc values
  apply List.ext_getElem?
  intro i
  simp only [List.getElem?_map]
  by_cases hi : i < vs.length
  · rw [List.getElem?_range' hi, List.getElem?_eq_getElem hi]
    simp only [Option.map_some]
    rw [List.getElem?_append_right (by omega), one_mul, Nat.add_sub_cancel_left, List.getElem?_eq_getElem hi]
  · rw [List.getElem?_eq_none (by simp; omega), List.getElem?_eq_none (by omega)]
    rfl

theorem values_append (heap vs : Heap K) (p : Prim) (h : ∀ a ∈ p, a < heap.length) :
    values (heap ++ vs) p = values heap p := by
  unfold values
  apply List.map_congr_left
  intro a ha
  rw [List.getElem?_append_left (h a ha)]

theorem values_map (heap : Heap K) (p : Prim) (h : ∀ a ∈ p, a < heap.length) (f : Vec K → Vec K) :
    ((p.filterMap fun a => heap[a]?).map f).map some = (values heap p).map (Option.map f) := by
  rw [← filterMap_values heap p h, List.map_map, List.map_map]
  rfl

/-- C37. With `clone=True` the primitive keeps its points, and the primitive returned has the images of the points, in new
vectors: a later change of a point of one of the two primitives is not seen in the other one. -/
theorem transform_clone (heap : Heap K) (p : Prim) (h : ∀ a ∈ p, a < heap.length) (isIdentity : Bool) (f : Vec K → Vec K)
    (hid : isIdentity = true → ∀ v, f v = v) :
    ∃ heap' q, transform heap p isIdentity f true = (heap', p, q) ∧ values heap' p = values heap p ∧
      values heap' q = (values heap p).map (Option.map f) ∧ ∀ a ∈ q, a ∉ p := by
  unfold transform clone
  simp only [if_true]
  have hc := values_alloc heap (p.filterMap fun a => heap[a]?)
  rw [filterMap_values heap p h] at hc
  cases isIdentity with
  | true =>
    refine ⟨_, _, rfl, values_append _ _ _ h, ?_, ?_⟩
    · rw [hc]
      have : Option.map f = id := by
        funext o; cases o with
        | none => rfl
        | some v => simp [hid rfl v]
      rw [this, List.map_id]
    · intro a ha hp
      simp only [alloc, List.mem_range'_1] at ha
      have := h a hp
      omega
  | false =>
    simp only [Bool.not_false, if_true]
    generalize he : alloc heap (p.filterMap fun a => heap[a]?) = r at hc
    obtain ⟨heap1, obj⟩ := r
    have hlen : ∀ a ∈ obj, a < heap1.length := by
      intro a ha
      unfold alloc at he
      injection he with e1 e2
      subst e1 e2
      simp only [List.mem_range'_1, List.length_append] at ha ⊢
      omega
    have hge : heap.length ≤ heap1.length := by
      unfold alloc at he
      injection he with e1 e2
      subst e1
      simp
    have hv1 : values heap1 p = values heap p := by
      unfold alloc at he
      injection he with e1 e2
      subst e1
      exact values_append _ _ _ h
    refine ⟨_, _, rfl, ?_, ?_, ?_⟩
    · unfold applyTransformation alloc
      rw [values_append _ _ _ fun a ha => Nat.lt_of_lt_of_le (h a ha) hge, hv1]
    · unfold applyTransformation
      rw [values_alloc, values_map heap1 obj hlen f]
      simp only at hc
      rw [hc]
    · intro a ha hp
      simp only [applyTransformation, alloc, List.mem_range'_1] at ha
      have := h a hp
      omega

/-- C37. With `clone=False` the primitive itself is returned, with the images of its points. -/
theorem transform_in_place (heap : Heap K) (p : Prim) (h : ∀ a ∈ p, a < heap.length) (isIdentity : Bool)
    (f : Vec K → Vec K) (hid : isIdentity = true → ∀ v, f v = v) :
    ∃ heap' q, transform heap p isIdentity f false = (heap', q, q) ∧
      values heap' q = (values heap p).map (Option.map f) ∧
      (isIdentity = true → q = p ∧ heap' = heap) := by
  unfold transform
  simp only [Bool.false_eq_true, if_false]
  cases isIdentity with
  | true =>
    refine ⟨_, _, rfl, ?_, fun _ => ⟨rfl, rfl⟩⟩
    have : Option.map f = id := by
      funext o; cases o with
      | none => rfl
      | some v => simp [hid rfl v]
    rw [this, List.map_id]
  | false =>
    refine ⟨_, _, rfl, ?_, fun h => by cases h⟩
    unfold applyTransformation
    rw [values_alloc, values_map heap p h f]

end Primitive

/-- C37. For every affine or linear transformation a program can build, the points of the primitive returned are the images of
the points of the primitive, whether the transformation is skipped or not. -/
theorem transform_reach (heap : Heap ℝ) (p : Prim) (h : ∀ a ∈ p, a < heap.length) (t : Aff ℝ) (ht : Aff.Reach t) (u : Lin ℝ)
    (hu : Lin.Reach u) (doClone : Bool) :
    (∃ heap' p' q, transform heap p t.isIdentity t.apply doClone = (heap', p', q) ∧
      values heap' q = (values heap p).map (Option.map t.apply)) ∧
    (∃ heap' p' q, transform heap p u.isIdentity u.apply doClone = (heap', p', q) ∧
      values heap' q = (values heap p).map (Option.map u.apply)) := by
  cases doClone with
  | true =>
    obtain ⟨h1, q1, e1, _, v1, _⟩ := transform_clone heap p h t.isIdentity t.apply
      (fun hi v => aff_identity_sound t ht (of_decide_eq_true hi) v)
    obtain ⟨h2, q2, e2, _, v2, _⟩ := transform_clone heap p h u.isIdentity u.apply
      (fun hi v => lin_identity_sound u hu (of_decide_eq_true hi) v)
    exact ⟨⟨h1, _, q1, e1, v1⟩, ⟨h2, _, q2, e2, v2⟩⟩
  | false =>
    obtain ⟨h1, q1, e1, v1, _⟩ := transform_in_place heap p h t.isIdentity t.apply
      (fun hi v => aff_identity_sound t ht (of_decide_eq_true hi) v)
    obtain ⟨h2, q2, e2, v2, _⟩ := transform_in_place heap p h u.isIdentity u.apply
      (fun hi v => lin_identity_sound u hu (of_decide_eq_true hi) v)
    exact ⟨⟨h1, _, q1, e1, v1⟩, ⟨h2, _, q2, e2, v2⟩⟩

/-- C37. The mirrors negate the coordinates, `rotate` turns the points about the origin and `scale` multiplies the
coordinates, in place or in a copy; in a copy the original keeps its points. -/
theorem mirror_spec (heap : Heap ℝ) (p : Prim) (h : ∀ a ∈ p, a < heap.length) (doClone : Bool) (angle x : ℝ) (y : Option ℝ) :
    ∀ r ∈ [(mirror heap p doClone, fun v : Vec ℝ => (⟨-v.x, -v.y⟩ : Vec ℝ)), (xMirror heap p doClone, fun v => ⟨-v.x, v.y⟩),
        (yMirror heap p doClone, fun v => ⟨v.x, -v.y⟩), (rotate heap p angle doClone, fun v => v.rotate angle),
        (scale heap p x y doClone, fun v => ⟨x * v.x, y.getD x * v.y⟩)],
      values r.1.1 r.1.2.2 = (values heap p).map (Option.map r.2) ∧
      (doClone = true → r.1.2.1 = p ∧ values r.1.1 p = values heap p) ∧ (doClone = false → r.1.2.1 = r.1.2.2) := by
  have key : ∀ (u : Lin ℝ) (f : Vec ℝ → Vec ℝ), Lin.Reach u → u.apply = f →
      values (transform heap p u.isIdentity u.apply doClone).1 (transform heap p u.isIdentity u.apply doClone).2.2 =
        (values heap p).map (Option.map f) ∧
      (doClone = true → (transform heap p u.isIdentity u.apply doClone).2.1 = p ∧
        values (transform heap p u.isIdentity u.apply doClone).1 p = values heap p) ∧
      (doClone = false →
        (transform heap p u.isIdentity u.apply doClone).2.1 = (transform heap p u.isIdentity u.apply doClone).2.2) := by
    intro u f hu hf
    subst hf
    cases doClone with
    | true =>
      obtain ⟨h1, q1, e1, v0, v1, _⟩ := transform_clone heap p h u.isIdentity u.apply
        (fun hi v => lin_identity_sound u hu (of_decide_eq_true hi) v)
      rw [e1]
      exact ⟨v1, fun _ => ⟨rfl, v0⟩, fun h => by cases h⟩
    | false =>
      obtain ⟨h1, q1, e1, v1, _⟩ := transform_in_place heap p h u.isIdentity u.apply
        (fun hi v => lin_identity_sound u hu (of_decide_eq_true hi) v)
      rw [e1]
      exact ⟨v1, fun h => (by cases h), fun _ => rfl⟩
  intro r hr
  simp only [List.mem_cons, List.not_mem_nil, or_false] at hr
  rcases hr with rfl | rfl | rfl | rfl | rfl
  · refine key _ _ (.scale _ _) (funext fun v => ?_)
    rw [lin_apply]; ext <;> simp [Lin.parity, Lin.scale]
  · refine key _ _ (.scale _ _) (funext fun v => ?_)
    rw [lin_apply]; ext <;> simp [Lin.xReflection, Lin.scale]
  · refine key _ _ (.scale _ _) (funext fun v => ?_)
    rw [lin_apply]; ext <;> simp [Lin.yReflection, Lin.scale]
  · exact key _ _ (.rotation _) (funext fun v => (aff_constructors 0 v 0 0 0 angle).2.2.2.2.2.1)
  · refine key _ _ (.scale _ _) (funext fun v => ?_)
    rw [lin_apply]; ext <;> simp [Lin.scale]

/-- Examples: two reflections are an identity; a triangle moved with `clone`. -/
example : ∃ r, Lin.xReflection.mul (Lin.xReflection : Lin ℝ) = .ok r ∧ r.type = some .identity ∧ Lin.Reach r := by
  have h : (Lin.xReflection : Lin ℝ).type = some .xParity := by
    simp only [Lin.xReflection, Lin.scale, typeForScale, Option.getD_some]
    rw [if_neg (by norm_num)]; simp
  have e : Lin.xReflection.mul (Lin.xReflection : Lin ℝ) = .ok ⟨(Lin.xReflection : Lin ℝ).m * (Lin.xReflection : Lin ℝ).m, some .identity⟩ := by
    unfold Lin.mul Lin.new; rw [h]; rfl
  exact ⟨_, e, rfl, .mul _ _ _ (.scale _ _) (.scale _ _) e⟩

example : transform [⟨0, 0⟩, ⟨1, 0⟩, ⟨0, 2⟩] [0, 1, 2] false (Aff.translation (⟨1, 1⟩ : Vec ℚ)).apply true =
    ([⟨0, 0⟩, ⟨1, 0⟩, ⟨0, 2⟩, ⟨0, 0⟩, ⟨1, 0⟩, ⟨0, 2⟩, ⟨1, 1⟩, ⟨2, 1⟩, ⟨1, 3⟩], [0, 1, 2], [6, 7, 8]) := by decide +kernel

end Patro.Transformation
