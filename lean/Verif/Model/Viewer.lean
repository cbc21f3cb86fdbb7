import Verif.Model.QtPainter
/-!
# Model of the viewer and of its window

The slots of `QtQuickPaintedSceneItem` (`Patro/GraphicEngine/Painter/QtPainter.py`) and the handlers of `Patro/QtApplication/qml/main.qml`, as
functions on states, so that what remains after an exception is followed. An exception raised in a slot is printed by Qt and the handler goes on.
The redrawing (`update`) and the selection of items (`item_at`, see `Qt.click`) do not change the viewport and are left out.
-/

namespace Patro.Viewer

open Paper (Viewport computeScale)
open Xml (Text)

variable {K : Type} [Field K] [LinearOrder K]

/-! ## The viewport -/

/-- `_update_viewport_area()` (QtPainter.py:578-589): the size is read first, then the scale is inverted (a null scale comes from QML as a Python
float and gives `ZeroDivisionError`), then the center is unpacked. -/
def update (v : Viewport K) : Except PyErr Unit × Viewport K :=
  match v.size with
  | none => (.error .typeError, v)
  | some size =>
    if v.scale = 0 then (.error .zeroDivisionError, v)
    else
      match v.center with
      | none => (.error .typeError, v)
      | some center =>
        let offset := (size.sdiv 2).smul (1 / v.scale)
        let area : Box K := ⟨center.x - offset.x, center.x + offset.x, center.y - offset.y, center.y + offset.y⟩
        (.ok (), { v with area := some area, translation := some (-⟨area.xInf, area.ySup⟩) })

/-- `ViewportArea.zoom_at(center, scale)` (QtPainter.py:612-615): the center and the scale are kept when the update raises. -/
def zoomTo (v : Viewport K) (center : Option (Vec K)) (scale : K) : Except PyErr Unit × Viewport K :=
  update { v with center := center, scale := scale }

/-- The setter of `viewport_size` (QtPainter.py:523-528). -/
def setSize (v : Viewport K) (size : Vec K) : Except PyErr Unit × Viewport K :=
  let v := { v with size := some size }
  if v.scene.isSome then update v else (.ok (), v)

/-- `ViewportArea.fit_scene()` (QtPainter.py:619-625). An infinite scale (a scene reduced to a point) gives an area of undefined numbers; it is
not modelled, the viewport is left as it is. A null scale comes here from numpy, for a viewport without width or height, and gives undefined
numbers too: the theorems are about viewports with a positive size. -/
def fitScene (v : Viewport K) : Except PyErr Unit × Viewport K :=
  match v.scene with
  | none => (.ok (), v)
  | some none => (.error .attributeError, v)
  | some (some box) =>
    match v.size with
    | none => (.error .typeError, v)
    | some size =>
      match computeScale size box with
      | none => (.ok (), v)
      | some scale => zoomTo v (some ⟨(box.xInf + box.xSup) / 2, (box.yInf + box.ySup) / 2⟩) scale

/-! ## The item -/

/-- A `QtQuickPaintedSceneItem` (QtPainter.py:671-681): the identity of its scene, whether this scene has items, and the viewport. -/
structure Item (K : Type) where
  scene : Option Nat
  filled : Bool
  viewport : Viewport K

/-- `QtQuickPaintedSceneItem()` (QtPainter.py:671-681, 484-494). -/
def Item.new : Item K := ⟨none, false, { scale := 1 }⟩

/-- `bool(self._scene)` (QtPainter.py:767, Scene.py:108-109): None is false, and so is a scene without items. -/
def Item.shows (q : Item K) : Bool := q.scene.isSome && q.filled

/-- `geometryChanged(new_geometry, old_geometry)` (QtPainter.py:685-690). -/
def Item.resize (q : Item K) (size : Vec K) : Except PyErr Unit × Item K :=
  let r := setSize q.viewport size
  (r.1, { q with viewport := r.2 })

/-- The setter of `scene` (QtPainter.py:728-738, 538-541): None or a scene, which has items or not, and a bounding box or not. -/
def Item.setScene (q : Item K) (scene : Option Nat) (filled : Bool) (box : Option (Box K)) : Except PyErr Unit × Item K :=
  if q.scene = scene then (.ok (), q)
  else
    let q : Item K := { q with scene := scene, filled := filled }
    if scene.isNone then (.error .valueError, q)
    else
      let r := fitScene { q.viewport with scene := some box }
      (r.1, { q with viewport := r.2 })

/-- The application changes the items of the scene that is shown, and assigns its bounding box (Scene.py:108-109, QtPainter.py:544-548: they are
read again each time). -/
def Item.edit (q : Item K) (filled : Bool) (box : Option (Box K)) : Item K :=
  if q.scene.isSome then { q with filled := filled, viewport := { q.viewport with scene := some box } } else q

/-- `format_coordinate(position)` (QtPainter.py:766-771); the format `{:.3f}` is a parameter. -/
def Item.formatCoordinate (fixed : K → Text) (q : Item K) (position : Vec K) : Except PyErr Text :=
  if q.shows then
    match q.viewport.viewportToScene position with
    | .error e => .error e
    | .ok p => .ok (fixed p.x ++ [',', ' '] ++ fixed p.y)
  else .ok []

/-- `zoom_at_center(zoom)` (QtPainter.py:776-779). -/
def Item.zoomAtCenter (q : Item K) (zoom : K) : Except PyErr Unit × Item K :=
  if q.shows then
    let r := zoomTo q.viewport q.viewport.center zoom
    (r.1, { q with viewport := r.2 })
  else (.ok (), q)

/-- `zoom_at(position, zoom)` (QtPainter.py:784-789). -/
def Item.zoomAt (q : Item K) (position : Vec K) (zoom : K) : Except PyErr Unit × Item K :=
  if q.shows then
    match q.viewport.viewportToScene position with
    | .error e => (.error e, q)
    | .ok p =>
      let r := zoomTo q.viewport (some p) zoom
      (r.1, { q with viewport := r.2 })
  else (.ok (), q)

/-- `fit_scene()` (QtPainter.py:794-797). -/
def Item.fit (q : Item K) : Except PyErr Unit × Item K :=
  if q.shows then
    let r := fitScene q.viewport
    (r.1, { q with viewport := r.2 })
  else (.ok (), q)

/-- `pan(dxy)` (QtPainter.py:802-806, 656-659): the displacement is converted before it is added to the center. -/
def Item.pan (q : Item K) (dxy : Vec K) : Except PyErr Unit × Item K :=
  if q.shows then
    if q.viewport.scale = 0 then (.error .zeroDivisionError, q)
    else
      match q.viewport.center with
      | none => (.error .typeError, q)
      | some center =>
        let r := zoomTo q.viewport (some (center + dxy.smul (1 / q.viewport.scale))) q.viewport.scale
        (r.1, { q with viewport := r.2 })
  else (.ok (), q)

/-! ## The window -/

/-- The buttons of a mouse. -/
inductive Button where
  | left
  | middle
  | right
deriving DecidableEq

/-- The arrow keys. -/
inductive Key where
  | left
  | right
  | down
  | up
deriving DecidableEq

/-- The state of the window (main.qml:27-178): the item, `mouse_start` and the text of `position_label`. -/
structure Window (K : Type) where
  item : Item K
  mouseStart : Option (Vec K)
  label : Text

/-- The window when it is completed (main.qml:98, 123-125). -/
def Window.new : Window K := ⟨Item.new, none, []⟩

/-- What happens to a window: Qt gives a size to the item, the application gives a scene or changes it, and the user uses the tool bar, the
keyboard and the mouse. -/
inductive Event (K : Type) where
  | resize (size : Vec K)
  | setScene (scene : Option Nat) (filled : Bool) (box : Option (Box K))
  | edit (filled : Bool) (box : Option (Box K))
  | fitButton
  | zoomIn
  | zoomOut
  | key (k : Key)
  | press (b : Button) (position : Vec K)
  | release
  | move (position : Vec K)
  | wheel (position : Vec K) (angle : K)

/-- The displacement of an arrow key (main.qml:102-107): ten pixels. -/
def Key.delta : Key → Vec K
  | .left => ⟨-10, 0⟩
  | .right => ⟨10, 0⟩
  | .down => ⟨0, -10⟩
  | .up => ⟨0, 10⟩

/-- `zoom_factor` of the tool bar (main.qml:35, 68, 75): `zoom_step` is 10. -/
def zoomInFactor : K := 1 + 10 / 100

@[inherit_doc zoomInFactor]
def zoomOutFactor : K := 1 - 10 / 100

/-- `pan_speed` (main.qml:101). -/
def panSpeed : K := 3 / 2

/-- The handlers of the window (main.qml:60-79, 102-107, 133-176). The label is left as it is when `format_coordinate` raises. -/
def Window.step (fixed : K → Text) (w : Window K) : Event K → Window K
  | .resize size => { w with item := (w.item.resize size).2 }
  | .setScene scene filled box => { w with item := (w.item.setScene scene filled box).2 }
  | .edit filled box => { w with item := w.item.edit filled box }
  | .fitButton => { w with item := w.item.fit.2 }
  | .zoomIn => { w with item := (w.item.zoomAtCenter (w.item.viewport.scale * zoomInFactor)).2 }
  | .zoomOut => { w with item := (w.item.zoomAtCenter (w.item.viewport.scale * zoomOutFactor)).2 }
  | .key k => { w with item := (w.item.pan k.delta).2 }
  | .press .middle position => { w with mouseStart := some position }
  | .press _ _ => w
  | .release => { w with mouseStart := none }
  | .move position =>
    match w.mouseStart with
    | some start =>
      { w with
        item := (w.item.pan ⟨(position.x - start.x) * panSpeed, (start.y - position.y) * panSpeed⟩).2
        mouseStart := some position }
    | none =>
      match w.item.formatCoordinate fixed position with
      | .error _ => w
      | .ok text => { w with label := text }
  | .wheel position angle =>
    { w with item := (w.item.zoomAt position (if 0 < angle then w.item.viewport.scale * 2 else w.item.viewport.scale / 2)).2 }

/-- A session: the events one after the other. -/
def Window.run (fixed : K → Text) (w : Window K) (events : List (Event K)) : Window K := events.foldl (Window.step fixed) w

end Patro.Viewer
