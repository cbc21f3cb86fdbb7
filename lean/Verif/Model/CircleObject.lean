import Verif.Model.Conic
/-!
# Model of circle objects and of `Circle2D.intersect_circle` of `Patro/GeometryEngine/Conic.py`
-/

namespace Patro.Conic

open MathFunctions Transformation

noncomputable section

open Classical

/-- `Circle2D.intersect_circle(circle)` (Conic.py:312-330). `normal` is a property: `v.normal()` calls a vector, which raises
`TypeError`, before the last line. `v.normalise()` cannot divide by zero here since `d` is not null. -/
def Circle.intersectCircle (c other : Circle ℝ) : Except PyErr (Hits ℝ) := do
  let v := other.center - c.center
  let d := sign v.x * v.magnitude
  let x ← Vec.pyDiv (d ^ 2 - other.radius ^ 2 + c.radius ^ 2) (2 * d)
  let y2 := c.radius ^ 2 - x ^ 2
  if y2 < 0 then return .none
  else
    let p := c.center + (v.sdiv v.magnitude).smul x
    if y2 = 0 then return .one p
    else throw .typeError

/-- The objects a circle refers to: vectors and angular domains are mutable objects, named here by their index. -/
structure Heap where
  vectors : List (Vec ℝ)
  domains : List (Domain ℝ)

/-- A `Circle2D` object (Conic.py:107-133): the attributes `_center` and `_domain` are references. -/
structure CircleObject where
  center : Nat
  radius : ℝ
  domain : Option Nat

/-- The value of a circle object. -/
def CircleObject.value (c : CircleObject) (h : Heap) : Option (Circle ℝ) := do
  let center ← h.vectors[c.center]?
  match c.domain with
  | none => some ⟨center, c.radius, none⟩
  | some d => do
    let domain ← h.domains[d]?
    some ⟨center, c.radius, some domain⟩

/-- `center = value` (Mixin.py:200-202): the setter copies the vector in a new object. -/
def CircleObject.setCenter (c : CircleObject) (v : Vec ℝ) (h : Heap) : CircleObject × Heap :=
  ({ c with center := h.vectors.length }, { h with vectors := h.vectors ++ [v] })

/-- `clone()` (Conic.py:137-138): the constructor copies the centre, and keeps the domain object it is given
(Mixin.py:157-162). The vector of the clone has the coordinates of the one of the circle. -/
def CircleObject.clone (c : CircleObject) (h : Heap) : CircleObject × Heap :=
  ({ c with center := h.vectors.length }, { h with vectors := h.vectors ++ (h.vectors[c.center]?).toList })

/-- What a program can do to a circle. -/
inductive CircleOp where
  /-- `circle.center = value` (Mixin.py:200-202). -/
  | setCenter (v : Vec ℝ)
  /-- `circle.center += …` or an assignment to a coordinate of `circle.center` (Vector.py): the object is updated in place. -/
  | updateCenter (v : Vec ℝ)
  /-- `circle.radius = value` (Conic.py:161-163). -/
  | setRadius (r : ℝ)
  /-- `circle.domain = None` (Mixin.py:157-162). -/
  | removeDomain
  /-- `circle.domain = AngularDomain(start, stop)` (Mixin.py:157-162). -/
  | setDomain (d : Domain ℝ)
  /-- `circle.domain.start = value` (Mixin.py:74-76); raises without domain, which changes nothing. -/
  | setStart (a : ℝ)
  /-- `circle.domain.stop = value` (Mixin.py:82-84). -/
  | setStop (a : ℝ)
  /-- `circle.transform(transformation)` (Conic.py:142-146): the centre is a new vector. The radius is `_` when the product by
  the radius fails (C95), this is not distinguished here. -/
  | transform (t : Aff ℝ)

/-- One operation on a circle object. -/
def CircleObject.step (op : CircleOp) (s : CircleObject × Heap) : CircleObject × Heap :=
  let (c, h) := s
  match op with
  | .setCenter v => c.setCenter v h
  | .updateCenter v => (c, { h with vectors := h.vectors.set c.center v })
  | .setRadius r => ({ c with radius := r }, h)
  | .removeDomain => ({ c with domain := none }, h)
  | .setDomain d => ({ c with domain := some h.domains.length }, { h with domains := h.domains ++ [d] })
  | .setStart a =>
    match c.domain with
    | none => (c, h)
    | some i => (c, { h with domains := h.domains.modify i fun d => { d with start := a } })
  | .setStop a =>
    match c.domain with
    | none => (c, h)
    | some i => (c, { h with domains := h.domains.modify i fun d => { d with stop := a } })
  | .transform t =>
    match h.vectors[c.center]? with
    | none => (c, h)
    | some v =>
      let (c', h') := c.setCenter (t.apply v) h
      match scalarMul t.type (t.m 0 0) c.radius with
      | .ok r => ({ c' with radius := r }, h')
      | .error _ => (c', h')

end

end Patro.Conic
