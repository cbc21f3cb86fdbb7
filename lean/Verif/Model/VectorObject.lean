import Verif.Model.Vector
import Mathlib.Algebra.Order.Floor.Ring
import Mathlib.Algebra.Field.Basic
import Mathlib.Algebra.Order.Field.Basic
/-!
# Model of the vector objects (`Patro/GeometryEngine/Vector.py`)

A vector is a mutable object holding a numpy array. The objects live in a heap and are known by their address, so that what is
shared and what is copied can be seen. Coordinates are elements of an ordered field; integer arrays hold whole numbers. Not a
number and infinities are not modelled: an operation that would produce them stops with `nan`. A scale is a Python float.
-/

namespace Patro.VectorObject

/-- The classes of vectors (Vector.py:229, 467, 583, 613). -/
inductive Cls where
  | vector
  | normalised
  | homogeneous
  | int
  deriving DecidableEq, Repr

/-- A vector: its class, whether its array is an array of floats, `_v[0]`, `_v[1]` and, for a homogeneous vector, `_w`
(Vector.py:83-86, 619-623). -/
structure Obj (K : Type) where
  cls : Cls
  float : Bool
  x : K
  y : K
  w : K
  deriving DecidableEq, Repr

/-- Why an operation stops. -/
inductive Err where
  | py (e : PyErr)
  | nan
  deriving DecidableEq, Repr

/-- The result of an operation: an object, a boolean, a list of integers, a number, or nothing. -/
inductive Res (K : Type) where
  | ref (i : Nat)
  | bool (b : Bool)
  | ints (l : List Int)
  | none
  deriving DecidableEq, Repr

/-- The heap: the objects in the order of their creation. -/
abbrev Heap (K : Type) := List (Obj K)

section

variable {K : Type} [Field K] [LinearOrder K] [IsStrictOrderedRing K] [FloorRing K]

/-- The conversion of a float to an integer: towards zero (`int(x)`, and `np.array(…, dtype=int)`) (Vector.py:86, 224-225). -/
def trunc (x : K) : Int := if 0 ≤ x then ⌊x⌋ else ⌈x⌉

/-- `np.rint`: to the nearest integer, halves to the even one (Vector.py:578-579). -/
def rint (x : K) : Int :=
  if x - ⌊x⌋ < 1 / 2 then ⌊x⌋
  else if 1 / 2 < x - ⌊x⌋ then ⌊x⌋ + 1
  else if ⌊x⌋ % 2 = 0 then ⌊x⌋ else ⌊x⌋ + 1

/-- `cls(array)` for an array with coordinates `x`, `y` and data type `float` (Vector.py:83-103, 619-623): the array is copied and
converted to the data type of the class; a homogeneous vector keeps the data type and has `w = 1`. -/
def construct (cls : Cls) (float : Bool) (x y : K) : Obj K :=
  match cls with
  | .vector | .normalised => ⟨cls, true, x, y, 1⟩
  | .homogeneous => ⟨cls, float, x, y, 1⟩
  | .int => ⟨cls, false, trunc x, trunc y, 1⟩

/-- The operations. `iOp` stand for the in-place operators; the numbers are addresses. -/
inductive Op (K : Type) where
  /-- `cls(x, y)`, `x` and `y` floats (Vector.py:83-103). -/
  | new (cls : Cls) (x y : K)
  /-- `cls(v)` (Vector.py:83-103, 619-623). -/
  | convert (cls : Cls) (i : Nat)
  /-- `v.clone()` and `+v` (Vector.py:138-140, 206-208). -/
  | clone (i : Nat)
  | add (i j : Nat)
  | sub (i j : Nat)
  | iadd (i j : Nat)
  | isub (i j : Nat)
  | neg (i : Nat)
  | abs (i : Nat)
  | mul (i : Nat) (s : K)
  | imul (i : Nat) (s : K)
  | div (i : Nat) (s : K)
  | idiv (i : Nat) (s : K)
  | eq (i j : Nat)
  | almostEqual (i j : Nat) (rtol atol : K)
  | rint (i : Nat)
  | toIntList (i : Nat)
  | setX (i : Nat) (x : K)
  | setY (i : Nat) (y : K)
  | setW (i : Nat) (w : K)
  | toVector (i : Nat)

/-- The object at an address; an address out of the heap is no object of the program. -/
def get (h : Heap K) (i : Nat) : Except Err (Obj K) :=
  match h[i]? with
  | some o => .ok o
  | none => .error (.py .nameError)

/-- A new object. -/
def alloc (h : Heap K) (o : Obj K) : Heap K × Res K := (h ++ [o], .ref h.length)

/-- `self._v + other.v`: the array of a homogeneous vector seen from outside has three coordinates, and does not fit
(Vector.py:180-182, 193-195, 628-629). -/
def other (o : Obj K) : Except Err (Obj K) :=
  if o.cls = .homogeneous then .error (.py .valueError) else .ok o

/-- `self._v += array`: an array of integers does not take floats (`UFuncTypeError`, a `TypeError`) (Vector.py:186-189, 199-202). -/
def inPlace (h : Heap K) (i : Nat) (a : Obj K) (float : Bool) (x y : K) : Except Err (Heap K × Res K) :=
  if a.float || !float then .ok (h.set i { a with x := x, y := y }, .ref i) else .error (.py .typeError)

/-- The value stored in an array: truncated by an array of integers (Vector.py:129-134). -/
def stored (a : Obj K) (x : K) : K := if a.float then x else (trunc x : K)

/-- `np.allclose` for one coordinate: `abs(a - b) <= atol + rtol*abs(b)` (Vector.py:255-257). -/
def close (rtol atol a b : K) : Bool := decide (|a - b| ≤ atol + rtol * |b|)

/-- One operation (Vector.py:129-225 for all vectors, 255-257 for floats, 517-545 and 578-579 for `Vector2D`, 601-609 for
`NormalisedVector2D`, 628-646 for `HomogeneousVector2D`). -/
def step (h : Heap K) : Op K → Except Err (Heap K × Res K)
  | .new cls x y =>
    if cls = .homogeneous then .error (.py .typeError)  -- takes one argument
    else .ok (alloc h (construct cls true x y))
  | .convert cls i => do
    let a ← get h i
    return alloc h (construct cls a.float a.x a.y)
  | .clone i => do
    let a ← get h i
    return alloc h (construct a.cls a.float a.x a.y)
  | .add i j => do
    let a ← get h i
    let b ← other (← get h j)
    return alloc h (construct a.cls (a.float || b.float) (a.x + b.x) (a.y + b.y))
  | .sub i j => do
    let a ← get h i
    let b ← other (← get h j)
    return alloc h (construct a.cls (a.float || b.float) (a.x - b.x) (a.y - b.y))
  | .iadd i j => do
    let a ← get h i
    let b ← other (← get h j)
    inPlace h i a b.float (a.x + b.x) (a.y + b.y)
  | .isub i j => do
    let a ← get h i
    let b ← other (← get h j)
    inPlace h i a b.float (a.x - b.x) (a.y - b.y)
  | .neg i => do
    let a ← get h i
    return alloc h (construct a.cls a.float (-a.x) (-a.y))
  | .abs i => do
    let a ← get h i
    return alloc h (construct a.cls a.float |a.x| |a.y|)
  | .mul i s => do
    let a ← get h i
    if a.cls = .int then .error (.py .typeError)
    else return alloc h (construct a.cls true (s * a.x) (s * a.y))
  | .imul i s => do
    let a ← get h i
    match a.cls with
    | .int => .error (.py .typeError)
    | .normalised => return alloc h (construct a.cls true (s * a.x) (s * a.y))  -- no `__imul__`: `v = v * s`
    | _ => inPlace h i a true (a.x * s) (a.y * s)
  | .div i s => do
    let a ← get h i
    match a.cls with
    | .int | .normalised => .error (.py .typeError)
    | _ => if s = 0 then .error .nan else return alloc h (construct a.cls true (a.x / s) (a.y / s))
  | .idiv i s => do
    let a ← get h i
    match a.cls with
    | .int | .normalised => .error (.py .typeError)
    | _ => if s = 0 then .error .nan else inPlace h i a true (a.x / s) (a.y / s)
  | .eq i j => do
    let a ← get h i
    let b ← get h j
    return (h, .bool (decide (a.cls = .homogeneous ↔ b.cls = .homogeneous) && decide (a.x = b.x) && decide (a.y = b.y) &&
      (decide (a.cls ≠ .homogeneous) || decide (a.w = b.w))))
  | .almostEqual i j rtol atol => do
    let a ← get h i
    let b ← get h j
    if a.cls = .int then .error (.py .attributeError)
    else return (h, .bool (close rtol atol a.x b.x && close rtol atol a.y b.y))
  | .rint i => do
    let a ← get h i
    match a.cls with
    | .int | .normalised => .error (.py .attributeError)
    | _ => return alloc h (construct .int true (VectorObject.rint a.x : K) (VectorObject.rint a.y : K))
  | .toIntList i => do
    let a ← get h i
    return (h, .ints [trunc a.x, trunc a.y])
  | .setX i x => do
    let a ← get h i
    return (h.set i { a with x := stored a x }, .none)
  | .setY i y => do
    let a ← get h i
    return (h.set i { a with y := stored a y }, .none)
  | .setW i w => do
    let a ← get h i
    if a.cls = .homogeneous then return (h.set i { a with w := w }, .none)
    else return (h, .none)  -- a new attribute `w`, read by nothing
  | .toVector i => do
    let a ← get h i
    if a.cls = .homogeneous then return alloc h (construct .vector a.float a.x a.y)
    else .error (.py .attributeError)

/-- A sequence of operations; one that raises changes nothing and the program goes on. -/
def run (h : Heap K) : List (Op K) → Heap K
  | [] => h
  | op :: ops =>
    match step h op with
    | .ok (h', _) => run h' ops
    | .error _ => run h ops

end

end Patro.VectorObject
