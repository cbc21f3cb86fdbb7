import Verif.Model.Painters
import Verif.Model.Style
import Verif.Model.Bezier
import Mathlib.Data.Nat.Log
/-!
# Model of `Patro/GraphicEngine/Painter/QtPainter.py`

The calls made to the `QPainter` of Qt, which is not part of the repository, are the output of the model; they are supposed not to raise. What
a paint method calls before it raises is not kept. The viewport is in the model of `Paper`.
-/

namespace Patro.Qt

open Xml (Text)

variable {K : Type} [Field K] [LinearOrder K]

/-! ## The calls -/

/-- A `QColor`, by its name and its alpha channel. -/
structure Colour (K : Type) where
  name : Text
  alpha : K
deriving DecidableEq

/-- A `QPen`. The tables of the stroke, cap and join styles map each member to the constant of Qt with the same name (QtPainter.py:72-92). -/
structure Pen (K : Type) where
  color : Colour K
  width : K
  stroke : Tex.StrokeStyle
  cap : Style.CapStyle
  join : Style.JoinStyle
deriving DecidableEq

/-- An element of a `QPainterPath`. -/
inductive Step (K : Type) where
  | moveTo (p : Vec K)
  | lineTo (p : Vec K)
  | cubicTo (p q r : Vec K)
deriving DecidableEq

/-- What is drawn: the angles of an arc are in sixteenths of a degree, and its ellipse is given by two opposite corners of the rectangle
around it; an image is given by its rectangle, its width, its height and the number of bytes of a line. -/
inductive Figure (K : Type) where
  | ellipse (center : Vec K) (radiusX radiusY : K)
  | arc (corner corner' : Vec K) (start span : Int)
  | path (steps : List (Step K))
  | line (p q : Vec K)
  | polygon (points : List (Vec K))
  | image (p q : Vec K) (width height bytesPerLine : Nat)
  | text (p : Vec K) (t : Text)
deriving DecidableEq

/-- The calls made to the `QPainter`; `setBrush none` is `setBrush(Qt.NoBrush)`. -/
inductive Op (K : Type) where
  | setPen (pen : Pen K)
  | setBrush (color : Option (Colour K))
  | setFont (family : Text) (size : K)
  | draw (figure : Figure K)
deriving DecidableEq

/-! ## The items -/

/-- What the painter uses of a style: `float(line_width)`, the texts of the colours, and the attributes of a Bézier style
(Patro/GraphicEngine/GraphicScene/GraphicStyle.py:70-80, 199-201). -/
structure PathStyle (K : Type) where
  strokeStyle : Tex.StrokeStyle
  lineWidth : Except PyErr K
  strokeColor : Option Text
  strokeAlpha : K
  fillColor : Option Text
  fillAlpha : K
  cap : Style.CapStyle
  join : Style.JoinStyle
  showControl : Bool
  controlColor : Text

/-- A segment of a `PathItem` (GraphicItem.py:446-453, 466-473). -/
inductive Segment (K : Type) where
  | linear (p : Scene.Position K)
  | quadratic (p q : Scene.Position K)
  | cubic (p q r : Scene.Position K)

/-- What the painter uses of an item besides its positions, for all the classes: its class, the text and the font of a `TextItem`, the radii
and the angles of a `CircleItem` or an `EllipseItem`, the shape of the array of an `ImageItem`, the segments and the flag of a `PathItem`,
the attribute `_cubic_points` of a `QuadraticBezierItem`, and the style (Patro/GraphicEngine/GraphicScene/GraphicItem.py). -/
structure Shape (K : Type) where
  kind : Tex.Kind
  text : Text
  fontFamily : Text
  fontSize : K
  radius : K
  radiusX : K
  radiusY : K
  angle : K
  startAngle : K
  stopAngle : K
  imageHeight : Nat
  imageWidth : Nat
  imageDepth : Nat
  segments : List (Segment K)
  closed : Bool
  cubicPoints : Option (List (Vec K))
  style : PathStyle K

/-- An item; the geometry of a `QuadraticBezierItem` is given by its points. -/
abbrev Item (K : Type) := Scene.Item K (Shape K) (List (Vec K))

/-- A scene of such items. -/
abbrev Scn (K : Type) := Scene.Scene K (Shape K) (List (Vec K))

/-- `is_closed` (GraphicItemMixin.py:341-343). -/
def isClosed (sh : Shape K) : Bool := decide (360 ≤ |sh.stopAngle - sh.startAngle|)

/-! ## The painter -/

/-- What a painter defines of its device: `scene_to_viewport(position)`, `length_scene_to_viewport(length)` and `scene_area`. -/
structure Device (K : Type) where
  toView : Vec K → Except PyErr (Vec K)
  length : K → K
  area : Option (Box K)

/-- The device of `QtPainter` during `to_svg`, where `_scale` is a number (QtPainter.py:173-181). -/
def svgDevice (scale : K) : Device K :=
  ⟨fun p => .ok ⟨p.x * scale, p.y * scale⟩, fun l => l * scale, none⟩

/-- The device of `QtQuickPaintedSceneItem` (QtPainter.py:701-713). -/
def viewDevice (v : Paper.Viewport K) : Device K := ⟨v.sceneToViewport, v.lengthToViewport, v.area⟩

variable (dev : Device K) (s : Scn K)

/-- `cast_position(position)` (QtPainter.py:193-199). -/
def castPosition (position : Scene.Position K) : Except PyErr (Vec K) := do
  dev.toView (← s.castPosition position)

/-- `self.cast_position(item.position)`. -/
def castOne (item : Item K) : Except PyErr (Vec K) := do
  castPosition dev s (← Py.getItem item.positions 0)

/-- `cast_item_positions(item)` (Painter.py:132-133). -/
def castItemPositions (item : Item K) : Except PyErr (List (Vec K)) := item.positions.mapM (castPosition dev s)

omit [LinearOrder K] in
/-- `_set_pen(item)` (QtPainter.py:203-247): the line style is a constant of Qt, which is never `StrokeStyle.NoPen`. -/
def setPen (selected : Bool) (style : PathStyle K) : Except PyErr (List (Op K)) := do
  let color : Option (Colour K) := if selected then some ⟨"red".toList, 1⟩ else style.strokeColor.map fun c => ⟨c, style.strokeAlpha⟩
  let width ← style.lineWidth
  let width := if selected then width * 4 else width
  let fill : Option (Colour K) := style.fillColor.map fun c => ⟨c, style.fillAlpha⟩
  let color := if fill.isSome then fill else color
  match color with
  | none => return [.setBrush fill]
  | some color => return [.setBrush fill, .setPen ⟨color, width, style.strokeStyle, style.cap, style.join⟩]

/-- `int(x)`. -/
def truncate [FloorRing K] (x : K) : Int := if 0 ≤ x then ⌊x⌋ else ⌈x⌉

/-- `_paint_arc(item, center, radius_x, radius_y)` (QtPainter.py:306-320). -/
def paintArc [FloorRing K] (item : Item K) (center : Vec K) (radiusX radiusY : K) : Op K :=
  if isClosed item.shape then .draw (.ellipse center radiusX radiusY)
  else
    let start := truncate (item.shape.startAngle * 16)
    let stop := truncate (item.shape.stopAngle * 16)
    let span := stop - start
    let span := if span < 0 then 5760 + span else span
    .draw (.arc (center + ⟨-radiusX, radiusY⟩) (center + ⟨radiusX, -radiusY⟩) start span)

/-- `paint_CircleItem(item)` (QtPainter.py:325-332). -/
def paintCircle [FloorRing K] (item : Item K) : Except PyErr (List (Op K)) := do
  let center ← castOne dev s item
  let radius := dev.length item.shape.radius
  let pen ← setPen item.selected item.shape.style
  return pen ++ [paintArc item center radius radius]

/-- `paint_EllipseItem(item)` (QtPainter.py:336-345). -/
def paintEllipse [FloorRing K] (item : Item K) : Except PyErr (List (Op K)) := do
  let center ← castOne dev s item
  let radiusX := dev.length item.shape.radiusX
  let radiusY := dev.length item.shape.radiusY
  let pen ← setPen item.selected item.shape.style
  return pen ++ [paintArc item center radiusX radiusY]

omit [LinearOrder K] in
/-- The control polygon and the control points (QtPainter.py:357-376). The pen made by `QPen(brush, 1)` has the default styles of Qt. -/
def paintControl (style : PathStyle K) (a b c d : Vec K) : List (Op K) :=
  if style.showControl then
    let color : Colour K := ⟨style.controlColor, 1⟩
    [.setPen ⟨color, 1, .solidLine, .squareCap, .bevelJoin⟩, .setBrush none, .draw (.path [.moveTo a, .lineTo b, .lineTo c, .lineTo d]),
     .setBrush (some color)] ++ ([a, b, c, d].map fun v => .draw (.ellipse v 3 3)) ++ [.setBrush none]
  else []

omit [LinearOrder K] in
/-- `_paint_cubic(item, vertices)` (QtPainter.py:349-376). -/
def paintCubic (item : Item K) (vertices : List (Vec K)) : Except PyErr (List (Op K)) := do
  let pen ← setPen item.selected item.shape.style
  match vertices with
  | [a, b, c, d] => return pen ++ [.draw (.path [.moveTo a, .cubicTo b c d])] ++ paintControl item.shape.style a b c d
  | [] => .error .indexError
  | _ => .error .typeError

/-- `cubic_positions` (GraphicItem.py:392-397): the points of the cubic curve made from the geometry, whose points have been cast by the
scene; the points computed once are kept in the item. -/
def cubicPositions (item : Item K) : Except PyErr (List (Vec K)) :=
  match item.shape.cubicPoints with
  | some points => .ok points
  | none => do
    let points ← match item.geometry with
      | some points => .ok points
      | none => item.positions.mapM s.castPosition
    match points with
    | [a, b, c] =>
      let cubic := (⟨a, b, c⟩ : Bezier.Quad K).toCubic
      return [cubic.p0, cubic.p1, cubic.p2, cubic.p3]
    | _ => .error .typeError

/-- `paint_QuadraticBezierItem(item)` (QtPainter.py:380-383). -/
def paintQuadraticItem (item : Item K) : Except PyErr (List (Op K)) := do
  let points ← cubicPositions s item
  let vertices ← points.mapM fun p => castPosition dev s (.vector p)
  paintCubic item vertices

/-- `paint_CubicBezierItem(item)` (QtPainter.py:387-389). -/
def paintCubicItem (item : Item K) : Except PyErr (List (Op K)) := do
  let vertices ← castItemPositions dev s item
  paintCubic item vertices

/-- `paint_ImageItem(item)` (QtPainter.py:393-403). -/
def paintImage (item : Item K) : Except PyErr (List (Op K)) := do
  match ← castItemPositions dev s item with
  | p :: q :: _ =>
    return [.draw (.image p q item.shape.imageWidth item.shape.imageHeight (item.shape.imageDepth * item.shape.imageWidth))]
  | _ => .error .indexError

/-- `paint_SegmentItem(item)` (QtPainter.py:407-410). -/
def paintSegment (item : Item K) : Except PyErr (List (Op K)) := do
  let pen ← setPen item.selected item.shape.style
  match ← castItemPositions dev s item with
  | [p, q] => return pen ++ [.draw (.line p q)]
  | _ => .error .typeError

/-- `paint_PolylineItem(item)` (QtPainter.py:414-421). -/
def paintPolyline (item : Item K) : Except PyErr (List (Op K)) := do
  let pen ← setPen item.selected item.shape.style
  match ← castItemPositions dev s item with
  | [] => .error .indexError
  | p :: l => return pen ++ [.draw (.path (.moveTo p :: l.map .lineTo))]

/-- `paint_PolygonItem(item)` (QtPainter.py:425-429): the method of Qt needs a point. -/
def paintPolygon (item : Item K) : Except PyErr (List (Op K)) := do
  let pen ← setPen item.selected item.shape.style
  match ← castItemPositions dev s item with
  | [] => .error .typeError
  | points => return pen ++ [.draw (.polygon points)]

/-- A segment of a path (QtPainter.py:438-451): for a curve the method is given the tuple of the positions, which is neither a name nor a
vector, and the local variable of `GraphicSceneScope.cast_position` is not set (Scene.py:177-181). -/
def paintPathSegment : Segment K → Except PyErr (Step K)
  | .linear p => (castPosition dev s p).map .lineTo
  | .quadratic _ _ => .error .unboundLocalError
  | .cubic _ _ _ => .error .unboundLocalError

/-- `paint_PathItem(item)` (QtPainter.py:433-456). -/
def paintPath (item : Item K) : Except PyErr (List (Op K)) := do
  let pen ← setPen item.selected item.shape.style
  let position ← castOne dev s item
  let steps ← item.shape.segments.mapM (paintPathSegment dev s)
  return pen ++ [.draw (.path (.moveTo position :: steps))]

/-- `paint_TextItem(item)` (QtPainter.py:460-472). -/
def paintText (item : Item K) : Except PyErr (List (Op K)) := do
  let position ← castOne dev s item
  return [.setFont item.shape.fontFamily item.shape.fontSize, .draw (.text position item.shape.text)]

/-- The registered paint methods (Painter.py:80-90): there is none for `RectangleItem`, and `CoordinateItem` is not a graphic item. -/
def methods [FloorRing K] : Tex.Kind → Option (Item K → Except PyErr (List (Op K)))
  | .text => some (paintText dev s)
  | .circle => some (paintCircle dev s)
  | .ellipse => some (paintEllipse dev s)
  | .segment => some (paintSegment dev s)
  | .rectangle => none
  | .polyline => some (paintPolyline dev s)
  | .polygon => some (paintPolygon dev s)
  | .image => some (paintImage dev s)
  | .cubicBezier => some (paintCubicItem dev s)
  | .quadraticBezier => some (paintQuadraticItem dev s)
  | .path => some (paintPath dev s)

/-! ## The grid -/

/-- `range(start, stop)`. -/
def intRange (start stop : Int) : List Int := (List.range (stop - start).toNat).map fun k : Nat => start + (k : Int)

/-- `_paint_axis_grid(xinf, xsup, yinf, ysup, is_x, step)` (QtPainter.py:285-297): the step is a positive integer. -/
def axisGrid [FloorRing K] (xInf xSup yInf ySup : K) (isX : Bool) (step : Int) : Except PyErr (List (Op K)) := do
  let lines ← (intRange ⌊xInf / step⌋ (⌊xSup / step⌋ + 1)).mapM fun (i : Int) => do
    let x : K := i * step
    if xInf ≤ x ∧ x ≤ xSup then
      let p0 : Vec K := if isX then ⟨x, yInf⟩ else ⟨yInf, x⟩
      let p1 : Vec K := if isX then ⟨x, ySup⟩ else ⟨ySup, x⟩
      let p0 ← castPosition dev s (.vector p0)
      let p1 ← castPosition dev s (.vector p1)
      return [.draw (.line p0 p1)]
    else return []
  return lines.flatten

/-- The step of the grid (QtPainter.py:268): `math.log10` is exact, and gives an error for a length which is not positive. From one on its
integer part is the one of the integer part of the length; below one the power is at most one and ten is taken. -/
def gridStep [FloorRing K] (length : K) : Except PyErr Int :=
  if length ≤ 0 then .error .valueError
  else .ok (max (10 ^ Nat.log 10 ⌊length⌋.toNat) 10)

omit [LinearOrder K] in
/-- The pen of the grid (QtPainter.py:262-264, 274-276), with the default styles of Qt. -/
def gridPen (width : K) : Pen K := ⟨⟨"black".toList, 1⟩, width, .solidLine, .squareCap, .bevelJoin⟩

/-- `_paint_grid()` (QtPainter.py:251-281). -/
def paintGrid [FloorRing K] : Except PyErr (List (Op K)) :=
  match dev.area with
  | none => .ok []
  | some area => do
    let length := min (area.xSup - area.xInf) (area.ySup - area.yInf)
    let step ← gridStep length
    let smallStep := step / 10
    let a ← axisGrid dev s area.xInf area.xSup area.yInf area.ySup true step
    let b ← axisGrid dev s area.yInf area.ySup area.xInf area.xSup false step
    let c ← axisGrid dev s area.xInf area.xSup area.yInf area.ySup true smallStep
    let d ← axisGrid dev s area.yInf area.ySup area.xInf area.xSup false smallStep
    return [.setPen (gridPen (75 / 100)), .setBrush none] ++ a ++ b ++ [.setPen (gridPen (25 / 100)), .setBrush none] ++ c ++ d

/-- The items painted by `Painter.paint()` (Painter.py:109-119), and the outcome. -/
def paintItems [FloorRing K] : List (Op K) × Except PyErr Unit :=
  match s.zValueIter with
  | .error e => ([], .error e)
  | .ok items =>
    let r := Tex.paintLoop (fun i => i.shape.kind) (methods dev s) items
    (r.1.flatten, r.2)

/-- `paint(painter)` with a scene and the grid (QtPainter.py:159-169): the painter is always true, `_show_grid` is never changed. -/
def paint [FloorRing K] : List (Op K) × Except PyErr Unit :=
  match paintGrid dev s with
  | .error e => ([], .error e)
  | .ok grid => (grid ++ (paintItems dev s).1, (paintItems dev s).2)

/-- `to_svg(path, scale)` (QtPainter.py:127-155): the size, the view box and what is painted, for the attribute `bounding_box` of the scene. The
members `size` and `rect` of `Interval2D` are the lengths of its intervals, and their lower ends followed by the lengths; the conversion of the size
to integers is not modelled. The outcome is that of the painting. -/
def toSvg [FloorRing K] (s : Scn K) (boundingBox : Option (Option (Box K))) (scale : K := 10) :
    Except PyErr ((Vec K × Vec K × Vec K) × List (Op K)) := do
  let box ← Painters.sceneBoundingBox boundingBox
  let size : Vec K := ⟨(box.xSup - box.xInf) * scale, (box.ySup - box.yInf) * scale⟩
  let origin : Vec K := ⟨box.xInf * scale, box.yInf * scale⟩
  let r := paint (svgDevice scale) s
  r.2
  return ((size, origin, size), r.1)

/-! ## The Qt Quick item -/

/-- The attributes of `QtQuickPaintedSceneItem` (QtPainter.py:671-681) that are used here: the identity of the scene and the viewport. -/
structure QuickItem (K : Type) where
  scene : Option Nat
  viewport : Paper.Viewport K

omit [LinearOrder K] in
/-- `QtQuickPaintedSceneItem()` (QtPainter.py:671-681, 484-494). -/
def QuickItem.new : QuickItem K := ⟨none, { scale := 1 }⟩

/-- The setter of `scene` (QtPainter.py:728-738) for a graphic scene, whose attribute `bounding_box` is `boundingBox` (see
`Painters.sceneBoundingBox`); it is read each time it is used, here only once. -/
def QuickItem.setScene (q : QuickItem K) (id : Nat) (boundingBox : Option (Option (Box K))) : Except PyErr Unit × QuickItem K :=
  if q.scene = some id then (.ok (), q)
  else
    let q : QuickItem K := { scene := some id, viewport := { q.viewport with scene := some boundingBox.join } }
    match q.viewport.fitScene with
    | .error e => (.error e, q)
    | .ok v => (.ok (), { q with viewport := v })

/-- `item_at(position, radius_px)` (QtPainter.py:811-830): a scene without item is false. -/
def click {S G : Type} (sh : Scene.Shapes K S G) (v : Paper.Viewport K) (s : Scene.Scene K S G) (position : Vec K) (radiusPx : K := 10) :
    Except PyErr Unit × Scene.Scene K S G :=
  if s.items.isEmpty then (.ok (), s)
  else
    match s.updateRtree sh with
    | (.error e, s) => (.error e, s)
    | (.ok (), s) =>
      let s := s.unselectItems
      match v.viewportToScene position with
      | .error e => (.error e, s)
      | .ok scenePosition =>
        match s.itemAt sh scenePosition (v.lengthToScene radiusPx) with
        | (.error e, s) => (.error e, s)
        | (.ok [], s) => (.ok (), s)
        | (.ok ((_, id) :: _), s) => (.ok (), s.modify id fun i => { i with selected := true })

end Patro.Qt
