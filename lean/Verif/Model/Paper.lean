import Verif.Model.Py
import Verif.Model.Shapes
import Verif.Model.Xml
import Mathlib.Algebra.Order.Floor.Ring
import Mathlib.Analysis.SpecialFunctions.Sqrt
/-!
# Model of `Patro/GraphicEngine/Painter/Paper.py`, of the tiler of `Painter.py` and of the viewport of `QtPainter.py`

`Interval2D` of the `IntervalArithmetic` package is a `Box`: its members are closed intervals, `length` is the difference of the ends,
`center` their middle, and `enlarge(m)` moves the ends away by `m`; the package is not part of the repository.
-/

namespace Patro.Paper

open Xml (intFromText)

/-! ## Paper sizes -/

/-- The attributes of `PaperSize` (Paper.py:42-67). -/
structure PaperSize where
  name : List Char
  landscape : Bool
  margin : ℝ
  height : ℝ
  width : ℝ

/-- `LETTER_TO_DIMENSION` (Paper.py:34-38). -/
def letterToDimension (letter : Char) : Option ℝ :=
  if letter = 'A' then some 1189 else if letter = 'B' then some 1414 else if letter = 'C' then some 1297 else none

/-- `PaperSize(name, orientation, margin)` (Paper.py:42-67). The name is an ASCII text; `float(margin)` is the margin. -/
noncomputable def PaperSize.new (name : List Char) (orientation : String) (margin : ℝ) : Except PyErr PaperSize := do
  let name := name.map Char.toUpper
  let letter ← Py.getItem name 0
  let level ← intFromText (name.drop 1)
  match letterToDimension letter with
  | none => .error .valueError
  | some dimension =>
    if level < 0 ∨ level > 10 then .error .valueError
    else if orientation ≠ "portrait" ∧ orientation ≠ "landscape" then .error .valueError
    else
      let scale := Real.sqrt 2 ^ level
      let height := dimension / scale
      let width := height / Real.sqrt 2
      if orientation = "landscape" then return { name, landscape := true, margin, height := width, width := height }
      else return { name, landscape := false, margin, height, width }

/-! ## The tiler -/

variable {K : Type} [Field K] [LinearOrder K]

/-- `Interval2D.enlarge(margin)`. -/
def enlarge (b : Box K) (m : K) : Box K := ⟨b.xInf - m, b.xSup + m, b.yInf - m, b.ySup + m⟩

/-- The area of a page in centimetres (Painter.py:54-56): `figure_margin` is 2 mm. -/
def areaVector (width height margin : K) : Vec K :=
  (⟨width, height⟩ : Vec K).sdiv 10 - (⟨(margin + 2) / 10, (margin + 2) / 10⟩ : Vec K).smul 2

/-- A tile: the part of the scene, its row and its column. -/
structure Tile (K : Type) where
  interval : Box K
  row : Nat
  column : Nat

/-- The product of two vectors `area_vector * Vector2D(r, c)` (Painter.py:69): `scale * self._v` with a vector as scale multiplies each
component. -/
def mulVec (a b : Vec K) : Vec K := ⟨b.x * a.x, b.y * a.y⟩

variable [FloorRing K]

/-- The number of columns (Painter.py:58); `range` of a negative number is empty. -/
def numberOfColumns (box : Box K) (area : Vec K) : Nat := ⌈(box.xSup - box.xInf) / area.x⌉.toNat

/-- The number of rows (Painter.py:59). -/
def numberOfRows (box : Box K) (area : Vec K) : Nat := ⌈(box.ySup - box.yInf) / area.y⌉.toNat

/-- The tile of a row and a column (Painter.py:69-71). -/
def tile (box : Box K) (area : Vec K) (r c : Nat) : Tile K :=
  let localMin := (⟨box.xInf, box.yInf⟩ : Vec K) + mulVec area ⟨(r : K), (c : K)⟩
  let localMax := localMin + area
  { interval := ⟨localMin.x, localMax.x, localMin.y, localMax.y⟩, row := r, column := c }

/-- The loops of `Tiler.__iter__` for an enlarged box (Painter.py:58-72). -/
def tiles (box : Box K) (area : Vec K) : List (Tile K) :=
  (List.range (numberOfRows box area)).flatMap fun r => (List.range (numberOfColumns box area)).map fun c => tile box area r c

/-- `Tiler(bounding_box, paper, margin)` and its iteration (Painter.py:43-72): `Vector2D.x` is a Python float, so that a null area gives
`ZeroDivisionError`. -/
def tiler (boundingBox : Box K) (width height paperMargin : K) (margin : K := 1) : Except PyErr (List (Tile K)) :=
  let area := areaVector width height paperMargin
  if area.x = 0 ∨ area.y = 0 then .error .zeroDivisionError else .ok (tiles (enlarge boundingBox margin) area)

/-! ## The viewport -/

/-- The attributes of `ViewportArea` (QtPainter.py:484-494): `scene` is `none` without a scene, `some none` for a scene without a bounding box,
and the bounding box of the scene otherwise. -/
structure Viewport (K : Type) where
  scene : Option (Option (Box K)) := none
  size : Option (Vec K) := none
  scale : K
  center : Option (Vec K) := none
  area : Option (Box K) := none
  translation : Option (Vec K) := none

omit [FloorRing K] in
/-- `_update_viewport_area()` (QtPainter.py:578-589): the scale is a numpy float or 1, and is not null in the callers; a size or a center
which was not set gives `TypeError`. -/
def Viewport.update (v : Viewport K) : Except PyErr (Viewport K) :=
  match v.size, v.center with
  | some size, some center =>
    let offset := (size.sdiv 2).smul (1 / v.scale)
    let area : Box K := ⟨center.x - offset.x, center.x + offset.x, center.y - offset.y, center.y + offset.y⟩
    .ok { v with area := some area, translation := some (-⟨area.xInf, area.ySup⟩) }
  | _, _ => .error .typeError

/-- The setter of `viewport_size` (QtPainter.py:523-528). -/
def Viewport.setSize (v : Viewport K) (size : Vec K) : Except PyErr (Viewport K) :=
  let v := { v with size := some size }
  if v.scene.isSome then v.update else .ok v

/-- `zoom_at(center, scale)` (QtPainter.py:612-615). -/
def Viewport.zoomAt (v : Viewport K) (center : Vec K) (scale : K) : Except PyErr (Viewport K) :=
  Viewport.update { v with center := some center, scale := scale }

/-- One component of `axis_scale` (QtPainter.py:604): a division by zero gives an infinite value in numpy (`none`). -/
def axisScale (viewport scene : K) : Option K :=
  if scene * (1 + 2 / 100) = 0 then none else some (viewport / (scene * (1 + 2 / 100)))

/-- `_compute_scale_to_fit_scene()` (QtPainter.py:595-608): `argmin` takes the first minimum; `none` if both are infinite. -/
def computeScale (size : Vec K) (scene : Box K) : Option K :=
  match axisScale size.x (scene.xSup - scene.xInf), axisScale size.y (scene.ySup - scene.yInf) with
  | some a, some b => some (if a ≤ b then a else b)
  | some a, none => some a
  | none, b => b

/-- `fit_scene()` (QtPainter.py:619-625). An infinite scale (a scene reduced to a point) gives an area of undefined numbers; it is not
modelled, the viewport is left as it is. -/
def Viewport.fitScene (v : Viewport K) : Except PyErr (Viewport K) :=
  match v.scene with
  | none => .ok v
  | some none => .error .attributeError
  | some (some scene) =>
    match v.size with
    | none => .error .typeError
    | some size =>
      match computeScale size scene with
      | none => .ok v
      | some scale => v.zoomAt ⟨(scene.xInf + scene.xSup) / 2, (scene.yInf + scene.ySup) / 2⟩ scale

/-- `scene_to_viewport(position)` (QtPainter.py:629-634): `_translation` does not exist before the first update. -/
def Viewport.sceneToViewport (v : Viewport K) (position : Vec K) : Except PyErr (Vec K) :=
  match v.translation with
  | none => .error .attributeError
  | some t =>
    let point := (position + t).smul v.scale
    .ok ⟨point.x, -point.y⟩

/-- `viewport_to_scene(position)` (QtPainter.py:638-642): the scale is not null. -/
def Viewport.viewportToScene (v : Viewport K) (position : Vec K) : Except PyErr (Vec K) :=
  match v.translation with
  | none => .error .attributeError
  | some t => .ok ((⟨position.x, -position.y⟩ : Vec K).sdiv v.scale - t)

/-- `length_scene_to_viewport(length)` (QtPainter.py:646-647). -/
def Viewport.lengthToViewport (v : Viewport K) (length : K) : K := length * v.scale

/-- `length_viewport_to_scene(length)` (QtPainter.py:651-652). -/
def Viewport.lengthToScene (v : Viewport K) (length : K) : K := length / v.scale

/-- `pan_delta_to_scene(position)` (QtPainter.py:656-659). -/
def Viewport.panDeltaToScene (v : Viewport K) (position : Vec K) : Vec K := position.smul (1 / v.scale)

/-- `QtQuickPaintedSceneItem.pan(dxy)` with a scene (QtPainter.py:802-806). -/
def Viewport.pan (v : Viewport K) (dxy : Vec K) : Except PyErr (Viewport K) :=
  match v.center with
  | none => .error .typeError
  | some center => v.zoomAt (center + v.panDeltaToScene dxy) v.scale

/-- `QtQuickPaintedSceneItem.zoom_at(position, zoom)` with a scene (QtPainter.py:784-789). -/
def Viewport.zoomAtPosition (v : Viewport K) (position : Vec K) (zoom : K) : Except PyErr (Viewport K) := do
  let scenePosition ← v.viewportToScene position
  v.zoomAt scenePosition zoom

end Patro.Paper
