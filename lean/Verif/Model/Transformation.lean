import Verif.Model.Py
import Verif.Model.Vector
import Mathlib.LinearAlgebra.Matrix.Notation
/-!
# Model of `Patro/GeometryEngine/Transformation.py`

The numpy arrays are matrices over a commutative ring, the real numbers for rotations; rounding is not modelled. The
attribute `_type` is `none` for `None`. Products of a `Transformation2D` with an `AffineTransformation2D`, whose arrays have
different shapes, are not modelled.
-/

namespace Patro.Transformation

/-- `TransformationType` (Transformation.py:48-63). -/
inductive TType where
  | identity | scale | shear | parity | xParity | yParity | rotation | translation | generic
deriving DecidableEq, Repr

/-- `_mul_type` (Transformation.py:157-177) for the types of the two operands. -/
def mulType (a b : Option TType) : TType :=
  if a = b then
    if a = some .parity ∨ a = some .xParity ∨ a = some .yParity then .identity
    else match a with
      | some .rotation => .rotation
      | some .scale => .scale
      | _ => .generic
  else .generic

/-- The attributes of `Transformation2D` (Transformation.py:227-230). -/
structure Lin (K : Type _) where
  m : Matrix (Fin 2) (Fin 2) K
  type : Option TType

/-- The attributes of `AffineTransformation2D` (Transformation.py:364-367). -/
structure Aff (K : Type _) where
  m : Matrix (Fin 3) (Fin 3) K
  type : Option TType

section Ring

variable {K : Type _} [CommRing K]

/-- `T * vector` for `Transformation2D` (Transformation.py:189-191). -/
def Lin.apply (t : Lin K) (v : Vec K) : Vec K :=
  let r := t.m.mulVec ![v.x, v.y]
  ⟨r 0, r 1⟩

/-- `T * vector` for `AffineTransformation2D` (Transformation.py:416-419). -/
def Aff.apply (t : Aff K) (v : Vec K) : Vec K :=
  let r := t.m.mulVec ![v.x, v.y, 1]
  ⟨r 0, r 1⟩

/-- `Transformation2D(array, transformation_type)` (Transformation.py:85-111): for the generic type `_check_type`
(Transformation.py:280-281) calls a method which does not exist. -/
def Lin.new (m : Matrix (Fin 2) (Fin 2) K) (type : TType := .generic) : Except PyErr (Lin K) :=
  if type = .generic then .error .attributeError else .ok ⟨m, some type⟩

/-- `AffineTransformation2D(array, transformation_type)` (Transformation.py:85-111): for the generic type `_check_type`
(Transformation.py:371-373) returns `None`. -/
def Aff.new (m : Matrix (Fin 3) (Fin 3) K) (type : TType := .generic) : Aff K :=
  if type = .generic then ⟨m, none⟩ else ⟨m, some type⟩

/-- `Transformation2D.Identity()` (Transformation.py:79-81). -/
def Lin.identity : Lin K := ⟨1, some .identity⟩

/-- `AffineTransformation2D.Identity()` (Transformation.py:79-81). -/
def Aff.identity : Aff K := ⟨1, some .identity⟩

/-- `T1 * T2` for `Transformation2D` (Transformation.py:185-188). -/
def Lin.mul (t u : Lin K) : Except PyErr (Lin K) := Lin.new (t.m * u.m) (mulType t.type u.type)

/-- `T1 * T2` for `AffineTransformation2D` (Transformation.py:185-188, 420-421). -/
def Aff.mul (t u : Aff K) : Aff K := Aff.new (t.m * u.m) (mulType t.type u.type)

/-- `T1 *= T2` for `Transformation2D` (Transformation.py:205-223): the outcome and the transformation afterwards. -/
def Lin.imul (t u : Lin K) : Except PyErr Unit × Lin K :=
  if u.type ≠ some .identity then
    let type := mulType t.type u.type
    if type = .generic then (.error .attributeError, ⟨u.m * t.m, some .generic⟩)
    else (.ok (), ⟨u.m * t.m, some type⟩)
  else (.ok (), t)

/-- `T1 *= T2` for `AffineTransformation2D` (Transformation.py:205-223). -/
def Aff.imul (t u : Aff K) : Aff K :=
  if u.type ≠ some .identity then
    let type := mulType t.type u.type
    if type = .generic then ⟨u.m * t.m, none⟩ else ⟨u.m * t.m, some type⟩
  else t

/-- `AffineTransformation2D.Translation(vector)` (Transformation.py:332-338). -/
def Aff.translation (v : Vec K) : Aff K := ⟨!![1, 0, v.x; 0, 1, v.y; 0, 0, 1], some .translation⟩

/-- `AffineTransformation2D.Screen(y_height)` (Transformation.py:399-407); the type is set without a check. -/
def Aff.screen (height : K) : Aff K := ⟨!![1, 0, 0; 0, -1, height; 0, 0, 1], some .generic⟩

variable [DecidableEq K]

/-- `type_for_scale(x_scale, y_scale)` (Transformation.py:234-252). -/
def typeForScale (x y : K) : TType :=
  if x = y then
    if x = 1 then .identity
    else if x = -1 then .parity
    else .scale
  else
    if x = -1 ∧ y = 1 then .xParity
    else if x = 1 ∧ y = -1 then .yParity
    else .shear

/-- `Transformation2D.Scale(x_scale, y_scale)` (Transformation.py:301-306). -/
def Lin.scale (x : K) (y : Option K := none) : Lin K :=
  let y := y.getD x
  ⟨!![x, 0; 0, y], some (typeForScale x y)⟩

/-- `Transformation2D.Parity()` (Transformation.py:310-312). -/
def Lin.parity : Lin K := Lin.scale (-1) (some (-1))

/-- `Transformation2D.XReflection()` (Transformation.py:316-318). -/
def Lin.xReflection : Lin K := Lin.scale (-1) (some 1)

/-- `Transformation2D.YReflection()` (Transformation.py:322-324). -/
def Lin.yReflection : Lin K := Lin.scale 1 (some (-1))

/-- `AffineTransformation2D.Scale(x_scale, y_scale)` (Transformation.py:387-395). -/
def Aff.scale (x y : K) : Aff K := ⟨!![x, 0, 0; 0, y, 0; 0, 0, 1], some (typeForScale x y)⟩

/-- `T * number` (Transformation.py:192-199): `factor m00` is the value of `abs(self._m[0,0])`. -/
def scalarMul [LinearOrder K] (type : Option TType) (m00 : K) (s : K) : Except PyErr K :=
  if type = some .identity ∨ type = some .rotation then .ok s
  else if ¬ (type = some .shear ∨ type = some .generic) then .ok (|m00| * s)
  else .error .valueError

end Ring

noncomputable section

/-- `Transformation2D.Rotation(angle)` (Transformation.py:285-297). -/
def Lin.rotation (angle : ℝ) : Lin ℝ :=
  let a := Vec.radians angle
  ⟨!![Real.cos a, -Real.sin a; Real.sin a, Real.cos a], some .rotation⟩

/-- `AffineTransformation2D.Rotation(angle)` (Transformation.py:377-383). -/
def Aff.rotation (angle : ℝ) : Aff ℝ :=
  let a := Vec.radians angle
  ⟨!![Real.cos a, -Real.sin a, 0; Real.sin a, Real.cos a, 0; 0, 0, 1], some .rotation⟩

/-- `AffineTransformation2D.RotationAt(center, angle)` (Transformation.py:342-350). -/
def Aff.rotationAt (center : Vec ℝ) (angle : ℝ) : Aff ℝ :=
  ((Aff.translation (-center)).imul (Aff.rotation angle)).imul (Aff.translation center)

end

/-! ## Primitives defined by points (Patro/GeometryEngine/Primitive.py) -/

/-- The points are mutable objects: a heap of vectors, in the order of their creation. -/
abbrev Heap (K : Type _) := List (Vec K)

/-- A primitive is the list of its points, as addresses in the heap. The other attributes of the classes, and the
number of points they require, do not matter here. -/
abbrev Prim := List Nat

section Primitive

variable {K : Type _}

/-- The values of the points of a primitive; an address out of the heap has no value. -/
def values (heap : Heap K) (p : Prim) : List (Option (Vec K)) := p.map fun a => heap[a]?

/-- Creation of vectors with the given values: the heap afterwards and their addresses. -/
def alloc (heap : Heap K) (vs : List (Vec K)) : Heap K × Prim := (heap ++ vs, List.range' heap.length vs.length)

/-- `clone()` (Primitive.py:160-166): the constructors copy the points (Primitive.py:393-394, 441-444, 614-618). -/
def clone (heap : Heap K) (p : Prim) : Heap K × Prim := alloc heap (p.filterMap fun a => heap[a]?)

/-- `apply_transformation(transformation)` (Primitive.py:276-284) with the `_set_points` of the primitives of two points or
more (Primitive.py:484-485, 543-544, 595-596, 652-654): the heap and the primitive afterwards. -/
def applyTransformation (heap : Heap K) (p : Prim) (f : Vec K → Vec K) : Heap K × Prim :=
  alloc heap ((p.filterMap fun a => heap[a]?).map f)

/-- `transform(transformation, clone)` (Primitive.py:263-272): the heap, the primitive itself and the primitive returned
afterwards. -/
def transform (heap : Heap K) (p : Prim) (isIdentity : Bool) (f : Vec K → Vec K) (doClone : Bool) : Heap K × Prim × Prim :=
  if doClone then
    let (heap, obj) := clone heap p
    if !isIdentity then
      let (heap, obj) := applyTransformation heap obj f
      (heap, p, obj)
    else (heap, p, obj)
  else
    if !isIdentity then
      let (heap, p) := applyTransformation heap p f
      (heap, p, p)
    else (heap, p, p)

end Primitive

/-- `is_identity` (GeometryEngine/Transformation.py:131-133). -/
def Lin.isIdentity (t : Lin K) : Bool := t.type = some .identity

@[inherit_doc Lin.isIdentity] def Aff.isIdentity (t : Aff K) : Bool := t.type = some .identity

/-- `mirror`, `x_mirror`, `y_mirror`, `rotate` and `scale` (GeometryEngine/Primitive.py:288-306). -/
noncomputable def mirror (heap : Heap ℝ) (p : Prim) (doClone : Bool) : Heap ℝ × Prim × Prim :=
  transform heap p (Lin.parity : Lin ℝ).isIdentity (Lin.parity : Lin ℝ).apply doClone

@[inherit_doc mirror] noncomputable def xMirror (heap : Heap ℝ) (p : Prim) (doClone : Bool) : Heap ℝ × Prim × Prim :=
  transform heap p (Lin.xReflection : Lin ℝ).isIdentity (Lin.xReflection : Lin ℝ).apply doClone

@[inherit_doc mirror] noncomputable def yMirror (heap : Heap ℝ) (p : Prim) (doClone : Bool) : Heap ℝ × Prim × Prim :=
  transform heap p (Lin.yReflection : Lin ℝ).isIdentity (Lin.yReflection : Lin ℝ).apply doClone

@[inherit_doc mirror] noncomputable def rotate (heap : Heap ℝ) (p : Prim) (angle : ℝ) (doClone : Bool) :
    Heap ℝ × Prim × Prim :=
  transform heap p (Lin.rotation angle).isIdentity (Lin.rotation angle).apply doClone

@[inherit_doc mirror] noncomputable def scale (heap : Heap ℝ) (p : Prim) (x : ℝ) (y : Option ℝ) (doClone : Bool) :
    Heap ℝ × Prim × Prim :=
  transform heap p (Lin.scale x y).isIdentity (Lin.scale x y).apply doClone

end Patro.Transformation
