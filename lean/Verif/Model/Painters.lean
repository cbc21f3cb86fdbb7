import Verif.Model.Tex
import Verif.Model.Scene
import Verif.Model.Paper
import Verif.Model.Transformation
/-!
# Model of `SvgPainter.py`, `DxfPainter.py`, `PdfPainter.py` and `MplPainter.py` (Patro/GraphicEngine/Painter)

Numbers are elements of an ordered field, `number` is `str` applied to one of them. The drawing libraries (lxml, ezdxf, reportlab and
matplotlib) are not part of the repository: the calls made to them, with their arguments and in their order, are the output of the
model, and are supposed not to raise.
-/

namespace Patro.Painters

open Xml (Text)

variable {K G : Type} [Field K] [LinearOrder K]

/-! ## Painting a scene (Painter.py) -/

/-- What the painters use of an item besides its positions: its class, the text of a `TextItem`, the radius of a `CircleItem` and the style
of a `PathStyleItemMixin` (Patro/GraphicEngine/GraphicScene/GraphicItem.py). -/
structure Shape (K : Type) where
  kind : Tex.Kind
  text : Text
  radius : K
  style : Tex.PathStyle

/-- `Painter.paint()` (Painter.py:109-119): the items of `z_value_iter`, each painted by the method registered for its class
(Painter.py:79-90). -/
def paint {α : Type} (s : Scene.Scene K (Shape K) G) (methods : Tex.Kind → Option (Scene.Item K (Shape K) G → Except PyErr (List α))) :
    List α × Except PyErr Unit :=
  match s.zValueIter with
  | .error e => ([], .error e)
  | .ok items =>
    let r := Tex.paintLoop (fun i => i.shape.kind) methods items
    (r.1.flatten, r.2)

/-- The methods of a painter that defines `paint_TextItem`, `paint_CircleItem`, `paint_SegmentItem` and `paint_CubicBezierItem`, with those
of `Painter` it inherits (Painter.py:150-180), which raise `NotImplementedError`; there is none for `RectangleItem`. -/
def methods {α : Type} (text circle segment cubic : Scene.Item K (Shape K) G → Except PyErr (List α)) :
    Tex.Kind → Option (Scene.Item K (Shape K) G → Except PyErr (List α))
  | .text => some text
  | .circle => some circle
  | .segment => some segment
  | .cubicBezier => some cubic
  | .rectangle => none
  | _ => some fun _ => .error .notImplementedError

/-- `self.cast_position(item.position)`, where `cast` is the method of the painter. -/
def castOne (cast : Scene.Position K → Except PyErr (Vec K)) (item : Scene.Item K (Shape K) G) : Except PyErr (Vec K) := do
  cast (← Py.getItem item.positions 0)

/-- `cast_item_positions(item)` (Painter.py:132-133). -/
def castItemPositions (cast : Scene.Position K → Except PyErr (Vec K)) (item : Scene.Item K (Shape K) G) : Except PyErr (List (Vec K)) :=
  item.positions.mapM cast

/-- `cast_item_coordinates(item, flat=True)` (Painter.py:137-145). -/
def castItemCoordinates (cast : Scene.Position K → Except PyErr (Vec K)) (item : Scene.Item K (Shape K) G) : Except PyErr (List K) := do
  let positions ← castItemPositions cast item
  return positions.foldl (fun coordinates p => coordinates ++ [p.x, p.y]) []

/-! ## SVG (SvgPainter.py) -/

/-- The Python values given to the SVG elements: a number, a text, or a list of integers. -/
inductive Val (K : Type) where
  | num (x : K)
  | text (t : Text)
  | list (l : List Nat)

/-- An element of the SVG tree. -/
structure Element where
  tag : Text
  attrib : Dict String Text
  text : Option Text
deriving DecidableEq

section Svg

variable (number : K → Text)

/-- `str(value)`, and `' '.join([str(x) for x in value])` for a `FloatListAttribute` (Objectivity.py:98-100, 193-194). -/
def valToXml : Val K → Text
  | .num x => number x
  | .text t => t
  | .list l => Xml.join ' ' (l.map Xml.natToText)

/-- A `FloatAttribute`, `StringAttribute`, `PercentLengthAttribute` or `FloatListAttribute` given a value of its kind: `from_xml` returns it.
A line width is written with `str`, and read by `float` (SvgFormat.py:276-285), which is supposed to give back the number. -/
def attr (py : String) (xml : String := py) : Xml.Attr (Val K) :=
  { py, xml, default := none, fromXml := fun t => .ok (some (.text t)), toXml := valToXml number, fromPy := fun v => .ok v }

/-- `SvgFormat.Line.__attributes__` (SvgFormat.py:117-119, 302-317, 363-365, 514-516, 795-806). An attribute collected several times is listed
once: it is set several times to the same value. -/
def lineAttrs : List (Xml.Attr (Val K)) :=
  [attr number "fill", attr number "stroke", attr number "stroke_line_cap" "stroke-linecap", attr number "stroke_line_join" "stroke-linejoin",
   attr number "stroke_miter_limit" "stroke-miterlimit", attr number "stroke_width" "stroke-width",
   attr number "stroke_dasharray" "stroke-dasharray", attr number "id", attr number "style", attr number "transform",
   attr number "x1", attr number "y1", attr number "x2", attr number "y2"]

/-- `SvgFormat.Text.__attributes__` (SvgFormat.py:117-119, 302-305, 342-345, 363-365, 375-378, 393-396, 514-516, 1219-1223). -/
def textAttrs : List (Xml.Attr (Val K)) :=
  [attr number "x", attr number "y", attr number "dx", attr number "dy", attr number "font_size" "font-size",
   attr number "font_family" "font-family", attr number "fill", attr number "stroke", attr number "id", attr number "style",
   attr number "transform", attr number "_class" "class"]

/-- `cls(**kwargs).to_xml()` (Objectivity.py:257-262, 284-294, 318-331). -/
def newElement (tag : Text) (attrs : List (Xml.Attr (Val K))) (kwargs : Dict String (Option (Val K))) (text : Option Text) :
    Except PyErr Element := do
  let o ← Xml.initFromKwargs attrs kwargs
  let x ← Xml.toXml attrs o []
  return ⟨tag, x, text⟩

/-- `__STROKE_STYLE__` (SvgPainter.py:50-57). -/
def svgDashes : Tex.StrokeStyle → Option (List Nat)
  | .noPen => none
  | .solidLine => none
  | .dashLine => some [6, 3]
  | .dotLine => some [1, 2]
  | .dashDotLine => some [6, 3]
  | .dashDotDotLine => some [6, 3]

/-- `_graphic_style(item)` (SvgPainter.py:92-103). `float` reads the line width. -/
def svgGraphicStyle (float : Text → Except PyErr K) (style : Tex.PathStyle) : Except PyErr (Dict String (Option (Val K))) :=
  match style.strokeColor with
  | none => .error .attributeError
  | some color => do
    let width ← float style.lineWidth
    return [("stroke", color.name.map .text), ("stroke_width", some (.text (number width)))] ++
      (match svgDashes style.strokeStyle with
       | some l => [("stroke_dasharray", some (.list l))]
       | none => [])

/-- The transformation of the painter (SvgPainter.py:68-70). -/
def svgTransformation (box : Box K) : Transformation.Aff K :=
  (Transformation.Aff.scale 10 (-10)).imul (Transformation.Aff.translation (-(⟨box.xInf, box.ySup⟩ : Vec K)))

/-- `SvgPainter.cast_position(position)` (SvgPainter.py:82-83). -/
def svgCast (s : Scene.Scene K (Shape K) G) (box : Box K) (position : Scene.Position K) : Except PyErr (Vec K) :=
  (s.castPosition position).map (svgTransformation box).apply

/-- `paint_TextItem(item)` (SvgPainter.py:107-111). -/
def svgText (cast : Scene.Position K → Except PyErr (Vec K)) (item : Scene.Item K (Shape K) G) : Except PyErr (List Element) := do
  let p ← castOne cast item
  let e ← newElement "text".toList (textAttrs number)
    [("x", some (.num p.x)), ("y", some (.num p.y)), ("fill", some (.text "black".toList))] (some item.shape.text)
  return [e]

/-- `paint_CircleItem(item)` (SvgPainter.py:115-118): the element is a text, which has no attribute `cx`, `cy` and `r`. -/
def svgCircle (cast : Scene.Position K → Except PyErr (Vec K)) (item : Scene.Item K (Shape K) G) : Except PyErr (List Element) := do
  let p ← castOne cast item
  let e ← newElement "text".toList (textAttrs number)
    [("cx", some (.num p.x)), ("cy", some (.num p.y)), ("r", some (.num 2)), ("fill", some (.text "black".toList)),
     ("_class", some (.text "normal".toList))] (some [])
  return [e]

/-- `paint_SegmentItem(item)` (SvgPainter.py:122-131). -/
def svgSegment (float : Text → Except PyErr K) (cast : Scene.Position K → Except PyErr (Vec K)) (item : Scene.Item K (Shape K) G) :
    Except PyErr (List Element) := do
  match ← castItemPositions cast item with
  | [p1, p2] => do
    let style ← svgGraphicStyle number float item.shape.style
    let e ← newElement "line".toList (lineAttrs number)
      ([("x1", some (.num p1.x)), ("y1", some (.num p1.y)), ("x2", some (.num p2.x)), ("y2", some (.num p2.y))] ++ style) none
    return [e]
  | _ => .error .valueError

/-- `paint_CubicBezierItem(item)` (SvgPainter.py:135-141): the path is built and not appended. `readPath` is what the constructor of
`SvgFormat.Path` does with the path data, of which only the exception matters. -/
def svgCubic (float : Text → Except PyErr K) (readPath : Text → Except PyErr Unit) (cast : Scene.Position K → Except PyErr (Vec K))
    (item : Scene.Item K (Shape K) G) : Except PyErr (List Element) := do
  match (← castItemCoordinates cast item).map number with
  | a :: b :: c :: d :: e :: f :: g :: h :: _ => do
    let _ ← svgGraphicStyle number float item.shape.style
    readPath ("M ".toList ++ a ++ " ".toList ++ b ++ " C ".toList ++ c ++ " ".toList ++ d ++ ", ".toList ++ e ++ " ".toList ++ f ++
      ", ".toList ++ g ++ " ".toList ++ h)
    return []
  | _ => .error .indexError

/-- The style sheet of the document (SvgPainter.py:73-75). -/
def styleSheet : Element := ⟨"style".toList, [], some "\n        .normal { font: 12px sans-serif; }\n        ".toList⟩

/-- The tree built by `SvgPainter(path, scene, paper)` for the bounding box of the scene (SvgPainter.py:61-76), and the outcome. -/
def svgTree (float : Text → Except PyErr K) (readPath : Text → Except PyErr Unit) (s : Scene.Scene K (Shape K) G) (box : Box K) :
    List Element × Except PyErr Unit :=
  let cast := svgCast s box
  let r := paint s (methods (svgText number cast) (svgCircle number cast) (svgSegment number float cast) (svgCubic number float readPath cast))
  (styleSheet :: r.1, r.2)

/-- An SVG document: the attributes of its root, and its elements. -/
structure Document where
  attrib : Dict String Text
  children : List Element
deriving DecidableEq

/-- `_new_root(paper)` and `_write(paper, root_tree)` without a transformation (Patro/FileFormat/Svg/SvgFile.py:398-443), for `fixed3` the
format `{:.3f}`. The name spaces, the comment and the document type are not modelled. -/
def svgDocument (fixed3 : K → Text) (width height : K) (tree : List Element) : Document :=
  ⟨[("version", "1.1".toList), ("width", fixed3 width ++ "mm".toList), ("height", fixed3 height ++ "mm".toList),
    ("viewBox", "0 0 ".toList ++ fixed3 width ++ " ".toList ++ fixed3 height)], tree⟩

/-- `scene.bounding_box`, and then `.x`: neither `GraphicSceneScope` nor `GraphicScene` defines this attribute
(Patro/GraphicEngine/GraphicScene/Scene.py), it is there when it was assigned from outside, as `detail_scene` does (Patro/Pattern/Sketch.py:176).
`none` is an attribute that was not assigned, `some none` the value `None`, that a sketch without operation gives. -/
def sceneBoundingBox {K : Type} (boundingBox : Option (Option (Box K))) : Except PyErr (Box K) :=
  match boundingBox with
  | some (some box) => .ok box
  | some none => .error .attributeError
  | none => .error .attributeError

/-- `SvgPainter(path, scene, paper)` (SvgPainter.py:61-78): the document written. -/
def svgPainter (fixed3 : K → Text) (float : Text → Except PyErr K) (readPath : Text → Except PyErr Unit) (s : Scene.Scene K (Shape K) G)
    (boundingBox : Option (Option (Box K))) (width height : K) : Except PyErr Document := do
  let box ← sceneBoundingBox boundingBox
  let r := svgTree number float readPath s box
  r.2
  return svgDocument fixed3 width height r.1

end Svg

/-! ## DXF (DxfPainter.py) -/

/-- The attributes `linetype` and `color` of an entity. -/
structure DxfStyle where
  lineType : Text
  color : Option Nat
deriving DecidableEq

/-- The entities added to the model space. -/
inductive Entity (K : Type) where
  | text (t : Text) (position : Vec K)
  | line (p q : Vec K) (style : DxfStyle)
  | openSpline (points : List (K × K × K)) (degree : Nat) (style : DxfStyle)
deriving DecidableEq

/-- `__STROKE_STYLE__` (DxfPainter.py:67-74). -/
def dxfLineType : Tex.StrokeStyle → Text
  | .noPen => "PHANTOM".toList
  | .solidLine => "CONTINUOUS".toList
  | .dashLine => "DASH".toList
  | .dotLine => "DOTTED".toList
  | .dashDotLine => "DASHDOT".toList
  | .dashDotDotLine => "DASHDOTDOT".toList

/-- `__COLOR__` (DxfPainter.py:76-79). -/
def dxfColors : Dict (Option Text) (Option Nat) := [(none, none), (some "black".toList, some 0)]

/-- `_graphic_style(item)` (DxfPainter.py:110-119). -/
def dxfGraphicStyle (style : Tex.PathStyle) : Except PyErr DxfStyle :=
  match style.strokeColor with
  | none => .ok ⟨"PHANTOM".toList, some 2⟩
  | some c => do
    let color ← dxfColors.getItem c.name
    return ⟨dxfLineType style.strokeStyle, color⟩

/-- `EzdxfPainter.cast_position(position)` (DxfPainter.py:105-106). -/
def dxfCast (s : Scene.Scene K (Shape K) G) (position : Scene.Position K) : Except PyErr (Vec K) :=
  (s.castPosition position).map fun v => v.smul 10

/-- `paint_TextItem(item)` (DxfPainter.py:123-127). -/
def dxfText (cast : Scene.Position K → Except PyErr (Vec K)) (item : Scene.Item K (Shape K) G) : Except PyErr (List (Entity K)) := do
  let p ← castOne cast item
  return [.text item.shape.text p]

/-- `paint_CircleItem(item)` (DxfPainter.py:131-133). -/
def dxfCircle (_ : Scene.Item K (Shape K) G) : Except PyErr (List (Entity K)) := .ok []

/-- `paint_SegmentItem(item)` (DxfPainter.py:137-142). -/
def dxfSegment (cast : Scene.Position K → Except PyErr (Vec K)) (item : Scene.Item K (Shape K) G) : Except PyErr (List (Entity K)) := do
  let positions ← castItemPositions cast item
  let style ← dxfGraphicStyle item.shape.style
  match positions with
  | [p, q] => .ok [.line p q style]
  | _ => .error .typeError

/-- `paint_CubicBezierItem(item)` (DxfPainter.py:146-155). -/
def dxfCubic (cast : Scene.Position K → Except PyErr (Vec K)) (item : Scene.Item K (Shape K) G) : Except PyErr (List (Entity K)) := do
  let positions ← castItemPositions cast item
  let style ← dxfGraphicStyle item.shape.style
  return [.openSpline (positions.map fun p => (p.x, p.y, 0)) 3 style]

/-- `EzdxfPainter(path, scene, paper)` (DxfPainter.py:83-101): the entities of the file; nothing is saved when the painting raises. -/
def ezdxfPainter (s : Scene.Scene K (Shape K) G) : Except PyErr (List (Entity K)) := do
  let r := paint s (methods (dxfText (dxfCast s)) dxfCircle (dxfSegment (dxfCast s)) (dxfCubic (dxfCast s)))
  r.2
  return r.1

/-- `DxfPainter(*args, **kwargs)` (DxfPainter.py:163-168): `driver` is the argument of this name. -/
def dxfPainter (s : Scene.Scene K (Shape K) G) (driver : Option String) : Except PyErr (List (Entity K)) :=
  match (driver.getD "ezdxf") with
  | "ezdxf" => ezdxfPainter s
  | _ => .error .keyError

/-! ## PDF (PdfPainter.py) -/

/-- The calls made to the canvas. -/
inductive PdfOp (K : Type) where
  | translate (dx dy : K)
  | setFont (name : Text) (size : Nat)
  | drawString (x y : K) (t : Text)
  | saveState
  | setFillColor (name : Text)
  | circle (x y r : K)
  | restoreState
  | line (x1 y1 x2 y2 : K)
  | bezier (x1 y1 x2 y2 x3 y3 x4 y4 : K)
deriving DecidableEq

/-- `reportlab.lib.units.cm`, in points. -/
def cm : K := 72 / (254 / 100)

/-- `reportlab.lib.units.mm`. -/
def mm : K := cm / 10

/-- `mm_to_pt(x)` (PdfPainter.py:57-59). -/
def mmToPt (x : K) : K := x * 72 / (254 / 10)

/-- `page_size` (PdfPainter.py:63-65). -/
def pageSize (width height : K) : List K := [width, height].map mmToPt

/-- `ReportlabPainter.cast_position(position)` (PdfPainter.py:114-115). -/
def pdfCast (s : Scene.Scene K (Shape K) G) (position : Scene.Position K) : Except PyErr (Vec K) :=
  (s.castPosition position).map fun v => (v.smul cm).smul (7 / 10)

/-- `paint_TextItem(item)` (PdfPainter.py:130-133). -/
def pdfText (cast : Scene.Position K → Except PyErr (Vec K)) (item : Scene.Item K (Shape K) G) : Except PyErr (List (PdfOp K)) := do
  let p ← castOne cast item
  return [.drawString p.x p.y item.shape.text]

/-- `paint_CircleItem(item)` (PdfPainter.py:137-142). -/
def pdfCircle (cast : Scene.Position K → Except PyErr (Vec K)) (item : Scene.Item K (Shape K) G) : Except PyErr (List (PdfOp K)) := do
  let p ← castOne cast item
  return [.saveState, .setFillColor "black".toList, .circle p.x p.y (2 * mm), .restoreState]

/-- `paint_SegmentItem(item)` (PdfPainter.py:146-148). -/
def pdfSegment (cast : Scene.Position K → Except PyErr (Vec K)) (item : Scene.Item K (Shape K) G) : Except PyErr (List (PdfOp K)) := do
  match ← castItemCoordinates cast item with
  | [a, b, c, d] => .ok [.line a b c d]
  | _ => .error .typeError

/-- `paint_CubicBezierItem(item)` (PdfPainter.py:152-154). -/
def pdfCubic (cast : Scene.Position K → Except PyErr (Vec K)) (item : Scene.Item K (Shape K) G) : Except PyErr (List (PdfOp K)) := do
  match ← castItemCoordinates cast item with
  | [a, b, c, d, e, f, g, h] => .ok [.bezier a b c d e f g h]
  | _ => .error .typeError

/-- The calls made for the bounding box of the scene (PdfPainter.py:101-108), and the outcome of the painting. -/
def pdfOps (s : Scene.Scene K (Shape K) G) (box : Box K) : List (PdfOp K) × Except PyErr Unit :=
  let cast := pdfCast s
  let r := paint s (methods (pdfText cast) (pdfCircle cast) (pdfSegment cast) (pdfCubic cast))
  ([.translate (-box.xInf * cm) (-box.yInf * cm), .translate (1 * cm) (1 * cm), .setFont "Times-Roman".toList 20] ++ r.1, r.2)

/-- `ReportlabPainter(path, scene, paper)` (PdfPainter.py:82-110): the page size and the calls saved in the file. -/
def reportlabPainter (s : Scene.Scene K (Shape K) G) (boundingBox : Option (Option (Box K))) (width height : K) :
    Except PyErr (List K × List (PdfOp K)) := do
  let box ← sceneBoundingBox boundingBox
  let r := pdfOps s box
  r.2
  return (pageSize width height, r.1)

/-- `PdfPainter(*args, **kwargs)` (PdfPainter.py:162-166): the argument `driver` is deleted even when it was not given. -/
def pdfPainter (s : Scene.Scene K (Shape K) G) (boundingBox : Option (Option (Box K))) (width height : K) (driver : Option String) :
    Except PyErr (List K × List (PdfOp K)) :=
  match driver with
  | none => .error .keyError
  | some "reportlab" => reportlabPainter s boundingBox width height
  | some _ => .error .keyError

/-! ## matplotlib (MplPainter.py) -/

/-- The codes of a matplotlib path. -/
inductive Code where
  | moveTo | lineTo | curve4
deriving DecidableEq

/-- The artists added to the axes. -/
inductive Artist (K : Type) where
  | text (x y : K) (t : Text)
  | circle (center : Vec K) (radius : K) (color : Text)
  | path (vertices : List (Vec K)) (codes : List Code) (edgeColor : Option Text) (lineWidth : K) (lineStyle : Option Text)
deriving DecidableEq

/-- `__STROKE_STYLE__` (MplPainter.py:41-48). -/
def mplLineStyle : Tex.StrokeStyle → Option Text
  | .noPen => none
  | .solidLine => some "solid".toList
  | .dashLine => some []
  | .dotLine => some "dotted".toList
  | .dashDotLine => some "dashdot".toList
  | .dashDotDotLine => some []

/-- `_add_path(item, vertices, codes)` (MplPainter.py:83-90). -/
def mplPath (float : Text → Except PyErr K) (item : Scene.Item K (Shape K) G) (vertices : List (Vec K)) (codes : List Code) :
    Except PyErr (List (Artist K)) :=
  if vertices.length ≠ codes.length then .error .valueError
  else match item.shape.style.strokeColor with
    | none => .error .attributeError
    | some color => do
      let width ← float item.shape.style.lineWidth
      return [.path vertices codes color.name width (mplLineStyle item.shape.style.strokeStyle)]

/-- `paint_TextItem(item)` (MplPainter.py:94-98). -/
def mplText (cast : Scene.Position K → Except PyErr (Vec K)) (item : Scene.Item K (Shape K) G) : Except PyErr (List (Artist K)) := do
  let p ← castOne cast item
  return [.text p.x p.y item.shape.text]

/-- `paint_CircleItem(item)` (MplPainter.py:102-105). -/
def mplCircle (cast : Scene.Position K → Except PyErr (Vec K)) (item : Scene.Item K (Shape K) G) : Except PyErr (List (Artist K)) := do
  let p ← castOne cast item
  return [.circle p (5 / 10) "black".toList]

/-- `paint_SegmentItem(item)` (MplPainter.py:109-112). -/
def mplSegment (float : Text → Except PyErr K) (cast : Scene.Position K → Except PyErr (Vec K)) (item : Scene.Item K (Shape K) G) :
    Except PyErr (List (Artist K)) := do
  mplPath float item (← castItemPositions cast item) [.moveTo, .lineTo]

/-- `paint_CubicBezierItem(item)` (MplPainter.py:116-119). -/
def mplCubic (float : Text → Except PyErr K) (cast : Scene.Position K → Except PyErr (Vec K)) (item : Scene.Item K (Shape K) G) :
    Except PyErr (List (Artist K)) := do
  mplPath float item (← castItemPositions cast item) [.moveTo, .curve4, .curve4, .curve4]

/-- The limits of the axes (MplPainter.py:64-71). -/
def mplLimits (box : Box K) : Box K :=
  let factor : K := 10 / 100
  let xMargin := (box.xSup - box.xInf) * factor
  let yMargin := (box.ySup - box.yInf) * factor
  Paper.enlarge box (max xMargin yMargin)

/-- The artists for the bounding box of the scene (MplPainter.py:64-74): the position is not changed by this painter. -/
def mplArtists (float : Text → Except PyErr K) (s : Scene.Scene K (Shape K) G) : List (Artist K) × Except PyErr Unit :=
  let cast := s.castPosition
  paint s (methods (mplText cast) (mplCircle cast) (mplSegment float cast) (mplCubic float cast))

/-- `MplPainter(scene, paper)` (MplPainter.py:52-74): the limits of the axes and the artists. -/
def mplPainter (float : Text → Except PyErr K) (s : Scene.Scene K (Shape K) G) (boundingBox : Option (Option (Box K))) :
    Except PyErr (Box K × List (Artist K)) := do
  let box ← sceneBoundingBox boundingBox
  let r := mplArtists float s
  r.2
  return (mplLimits box, r.1)

end Patro.Painters
