import Verif.Model.Path
/-!
# Model of `Patro/GeometryEngine/Shape/ArrowHead.py`

Coordinates are real numbers. For a null direction numpy gives nan coordinates and no exception: the result is then `none`.
-/

namespace Patro.ArrowHead

open Path (Outcome)

/-- The attributes of a head (ArrowHead.py:52-55, 86-104, 235-251). `back` is `none` when the attribute `_back_tip_point` does not exist, and
`some none` when it is `None`. -/
structure Head where
  point : Vec ℝ
  direction : Vec ℝ
  length : ℝ
  width : ℝ
  axialOffset : ℝ
  leftSide : Bool
  rightSide : Bool
  curveDepth : ℝ
  back : Option (Option (Vec ℝ))

/-- `TriangularHeadMixin.__init__` (ArrowHead.py:86-104), called as a function by the classes: the `ValueError` is returned, not raised, before
`_back_tip_point` is assigned. `direction` is the unit vector; the depth is that of `TriangularCurvyHead` (ArrowHead.py:248). -/
def mixin (point direction : Vec ℝ) (length width axialOffset : ℝ) (leftSide rightSide : Bool) (curveDepth : ℝ) : Head :=
  ⟨point, direction, length, width, axialOffset, leftSide, rightSide, curveDepth, if !(leftSide && rightSide) then none else some none⟩

namespace Head

/-- `both_side` (ArrowHead.py:132-134). -/
def bothSide (h : Head) : Bool := h.rightSide && h.leftSide

/-- `only_left` (ArrowHead.py:136-138). -/
def onlyLeft (h : Head) : Bool := !h.rightSide && h.leftSide

noncomputable section

open Classical

/-- `has_axial_offset` (ArrowHead.py:120-122). -/
def hasAxialOffset (h : Head) : Bool := decide (h.axialOffset ≠ 0)

/-- `angle` (ArrowHead.py:146-148). -/
def angle (h : Head) : ℝ := 2 * (⟨h.length, h.width⟩ : Vec ℝ).orientation

/-- `back_tip_point` (ArrowHead.py:155-159): a value found in the cache is returned. The value which is kept in the cache is always the one
computed here, so that the cache is not changed in the model. -/
def backTipPoint (h : Head) : Except PyErr (Vec ℝ) :=
  match h.back with
  | none => .error .attributeError
  | some none => .ok (h.point - h.direction.smul h.length)
  | some (some p) => .ok p

/-- `offseted_back_tip_point` (ArrowHead.py:161-163): `back_tip_point`, then `self._self`, which does not exist. -/
def offsetedBackTipPoint (h : Head) : Except PyErr (Vec ℝ) := do
  let _ ← h.backTipPoint
  .error .attributeError

/-- `left_point` (ArrowHead.py:165-171). -/
def leftPoint (h : Head) : Except PyErr (Option (Vec ℝ)) :=
  if h.leftSide then do return some ((← h.backTipPoint) + h.direction.normal.smul h.width)
  else .ok none

/-- `right_point` (ArrowHead.py:173-178). -/
def rightPoint (h : Head) : Except PyErr (Option (Vec ℝ)) :=
  if h.rightSide then do return some ((← h.backTipPoint) - h.direction.normal.smul h.width)
  else .ok none

/-- `_make_points` (ArrowHead.py:203-227) of `TriangularHead`. -/
def makePoints (h : Head) : Except PyErr (List (Option (Vec ℝ))) := do
  let points ←
    if h.hasAxialOffset then
      if h.bothSide then do
        let a ← h.leftPoint
        let b ← h.offsetedBackTipPoint
        let c ← h.rightPoint
        pure [a, some b, c]
      else if h.onlyLeft then do
        let a ← h.leftPoint
        let b ← h.offsetedBackTipPoint
        pure [a, some b]
      else do
        let a ← h.rightPoint
        let b ← h.offsetedBackTipPoint
        pure [a, some b]
    else
      if h.bothSide then do
        let a ← h.leftPoint
        let b ← h.rightPoint
        pure [a, b]
      else if h.onlyLeft then do
        let a ← h.leftPoint
        let b ← h.backTipPoint
        pure [a, some b]
      else do
        let a ← h.rightPoint
        let b ← h.backTipPoint
        pure [a, some b]
  return some h.point :: points

/-- `left_curved_point` (ArrowHead.py:261-267), for a head with a left side: the arithmetic on `None` does not happen. -/
def leftCurvedPoint (h : Head) : Except PyErr (Option (Vec ℝ)) :=
  if h.leftSide then do
    match ← h.leftPoint with
    | some left =>
      let direction := left - h.point
      return some ((left + h.point).sdiv 2 - direction.normal.smul h.curveDepth)
    | none => .error .typeError
  else .ok none

/-- `right_curved_point` (ArrowHead.py:269-275). -/
def rightCurvedPoint (h : Head) : Except PyErr (Option (Vec ℝ)) :=
  if h.rightSide then do
    match ← h.rightPoint with
    | some right =>
      let direction := right - h.point
      return some ((right + h.point).sdiv 2 - direction.normal.smul h.curveDepth)
    | none => .error .typeError
  else .ok none

/-- The first part of `_make_path` (ArrowHead.py:281-304): the two points of the first curve, the vertices and the control point of the last
curve. -/
def pathPoints (h : Head) :
    Except PyErr ((Option (Vec ℝ) × Option (Vec ℝ)) × List (Option (Vec ℝ)) × Option (Vec ℝ)) :=
  if h.hasAxialOffset then
    if h.bothSide then do
      let c1 ← h.leftCurvedPoint
      let c2 ← h.leftPoint
      let v1 ← h.offsetedBackTipPoint
      let v2 ← h.rightPoint
      let c ← h.rightCurvedPoint
      return ((c1, c2), [some v1, v2], c)
    else if h.onlyLeft then do
      let c1 ← h.leftCurvedPoint
      let c2 ← h.leftPoint
      let v ← h.offsetedBackTipPoint
      return ((c1, c2), [some v], none)
    else do
      let c1 ← h.rightCurvedPoint
      let c2 ← h.rightPoint
      let v ← h.offsetedBackTipPoint
      return ((c1, c2), [some v], none)
  else
    if h.bothSide then do
      let c1 ← h.leftCurvedPoint
      let c2 ← h.leftPoint
      let v ← h.rightPoint
      let c ← h.rightCurvedPoint
      return ((c1, c2), [v], c)
    else if h.onlyLeft then do
      let c1 ← h.leftCurvedPoint
      let c2 ← h.leftPoint
      let v ← h.backTipPoint
      return ((c1, c2), [some v], none)
    else do
      let c1 ← h.rightCurvedPoint
      let c2 ← h.rightPoint
      let v ← h.backTipPoint
      return ((c1, c2), [some v], none)

/-- `vector_cls(point)` in the constructors of the parts: `None` is no vector. -/
def vector : Option (Vec ℝ) → Except PyErr (Vec ℝ)
  | some v => .ok v
  | none => .error .typeError

/-- A call on the path: its exception is raised. -/
def call (o : Outcome ℝ) : Except PyErr (Path.Path ℝ) :=
  match o with
  | (.ok _, path) => .ok path
  | (.error e, _) => .error e

/-- `_make_path` (ArrowHead.py:279-311) on `Path2D(point)`. -/
def makePath (h : Head) : Except PyErr (Path.Path ℝ) := do
  let ((c1, c2), vertices, control2) ← h.pathPoints
  let c1 ← vector c1
  let c2 ← vector c2
  let path ← call ((Path.Path.new h.point).quadraticTo c1 c2 true)
  let path ← vertices.foldlM (fun path v => do call (path.lineTo (← vector v) none true)) path
  let path ←
    match control2 with
    | some c => call (path.quadraticTo c h.point true)
    | none => .ok path
  call (path.close)

end

end Head

noncomputable section

/-- The heads and what they draw. -/
structure Made (α : Type) where
  head : Head
  shape : α

/-- A constructor: `ArrowHead.__init__` (ArrowHead.py:52-55) gives the unit vector; when the direction is null the calls are the same, with nan
coordinates. -/
def make {α : Type} (direction : Vec ℝ) (f : Vec ℝ → Head) (shape : Head → Except PyErr α) : Except PyErr (Option (Made α)) :=
  match direction.toNormalised with
  | some u => do return some ⟨f u, ← shape (f u)⟩
  | none => do
    let _ ← shape (f 0)
    return none

/-- `TriangularHead(point, direction, length, width, axial_offset, left_side, right_side)` (ArrowHead.py:186-199). `Polygon2D` (Polygon.py:91-110)
wants three vectors. -/
def triangularHead (point direction : Vec ℝ) (length width : ℝ) (axialOffset : ℝ := 0) (leftSide rightSide : Bool := true) :
    Except PyErr (Option (Made (List (Vec ℝ)))) :=
  make direction (fun u => mixin point u length width axialOffset leftSide rightSide 0) fun h => do
    let points ← h.makePoints
    if points.length < 3 then .error .valueError
    else points.mapM Head.vector

/-- `TriangularCurvyHead(point, direction, length, width, curve_depth, axial_offset, left_side, right_side)` (ArrowHead.py:235-251). -/
def triangularCurvyHead (point direction : Vec ℝ) (length width curveDepth : ℝ) (axialOffset : ℝ := 0) (leftSide rightSide : Bool := true) :
    Except PyErr (Option (Made (Path.Path ℝ))) :=
  make direction (fun u => mixin point u length width axialOffset leftSide rightSide curveDepth) Head.makePath

/-- `head.transform(transformation, clone)` (Primitive.py:263-272) of a `TriangularHead`, for a transformation which is not the identity:
`clone` is the one of `ArrowHead` (ArrowHead.py:59-60), which comes before those of the other classes; without it the points of the polygon
are replaced (Primitive.py:652-654). -/
def transform (m : Made (List (Vec ℝ))) (t : Vec ℝ → Vec ℝ) (clone : Bool) : Except PyErr (Made (List (Vec ℝ))) :=
  if clone then .error .notImplementedError
  else .ok { m with shape := m.shape.map t }

end

end Patro.ArrowHead
