import Verif.Model.Painters
/-!
# What painting a scene should give
-/

namespace Patro.Painters

open Xml (Text)

variable {K G : Type} [Field K] [LinearOrder K]

/-- The items in the order they have to be painted: the visible ones, the lower z values first, in the order of insertion among those with
the same z value. -/
def PaintOrder (s : Scene.Scene K (Shape K) G) (l : List (Scene.Item K (Shape K) G)) : Prop :=
  l.Perm (s.items.values.filter fun i => i.visible) ∧ l.Pairwise (fun i j => i.z ≤ j.z) ∧
    ∀ z, (l.filter fun i => decide (i.z = z)) = s.items.values.filter fun i => i.visible && decide (i.z = z)

/-- The points of an item, in the scene. -/
def Points (s : Scene.Scene K (Shape K) G) (i : Scene.Item K (Shape K) G) (ps : List (Vec K)) : Prop :=
  List.Forall₂ (fun position p => s.castPosition position = .ok p) i.positions ps

/-- An item with the number of points of its class, all known to the scene. -/
inductive Placed (s : Scene.Scene K (Shape K) G) : Scene.Item K (Shape K) G → Prop
  | text {i} (p : Vec K) : i.shape.kind = .text → Points s i [p] → Placed s i
  | circle {i} (p : Vec K) : i.shape.kind = .circle → Points s i [p] → Placed s i
  | segment {i} (p q : Vec K) : i.shape.kind = .segment → Points s i [p, q] → Placed s i
  | cubic {i} (p q r t : Vec K) : i.shape.kind = .cubicBezier → Points s i [p, q, r, t] → Placed s i

/-- The place of a point on an SVG page whose upper left corner is the one of the box, for a scene in centimetres and a page in
millimetres. -/
def svgWanted (box : Box K) (p : Vec K) : Vec K := ⟨10 * (p.x - box.xInf), 10 * (box.ySup - p.y)⟩

/-- The place the painter gives to a point. -/
def svgPlace (box : Box K) (p : Vec K) : Vec K := ⟨10 * p.x - box.xInf, -10 * p.y - box.ySup⟩

/-- The text of the dashes of a stroke style, if it has some. -/
def dashText : Tex.StrokeStyle → Option Text
  | .noPen | .solidLine => none
  | .dotLine => some "1 2".toList
  | _ => some "6 3".toList

/-- The element `e` shows the item: a text at its place, or a line from the place of its first point to the one of its second point, with the
colour, the width and the dashes of its style. -/
def SvgShows (number : K → Text) (float : Text → Except PyErr K) (s : Scene.Scene K (Shape K) G) (box : Box K)
    (i : Scene.Item K (Shape K) G) (e : Element) : Prop :=
  (i.shape.kind = .text ∧ ∃ p, Points s i [p] ∧ e.tag = "text".toList ∧ e.text = some i.shape.text ∧
    e.attrib.get? "x" = some (number (svgPlace box p).x) ∧ e.attrib.get? "y" = some (number (svgPlace box p).y) ∧
    e.attrib.get? "fill" = some "black".toList) ∨
  (i.shape.kind = .segment ∧ ∃ p q color width, Points s i [p, q] ∧ i.shape.style.strokeColor = some color ∧
    float i.shape.style.lineWidth = .ok width ∧ e.tag = "line".toList ∧ e.text = none ∧
    e.attrib.get? "x1" = some (number (svgPlace box p).x) ∧ e.attrib.get? "y1" = some (number (svgPlace box p).y) ∧
    e.attrib.get? "x2" = some (number (svgPlace box q).x) ∧ e.attrib.get? "y2" = some (number (svgPlace box q).y) ∧
    e.attrib.get? "stroke" = color.name ∧ e.attrib.get? "stroke-width" = some (number width) ∧
    e.attrib.get? "stroke-dasharray" = dashText i.shape.style.strokeStyle)

/-- The name of the line type of a stroke style in a DXF file. -/
def dxfTypeName (style : Tex.StrokeStyle) : Text :=
  match style with
  | .noPen => "PHANTOM".toList
  | .solidLine => "CONTINUOUS".toList
  | .dashLine => "DASH".toList
  | .dotLine => "DOTTED".toList
  | .dashDotLine => "DASHDOT".toList
  | .dashDotDotLine => "DASHDOTDOT".toList

/-- The style of an item can be written in a DXF file: no colour, a colour without a name, or black. -/
def DxfStyled (style : Tex.PathStyle) (d : DxfStyle) : Prop :=
  (style.strokeColor = none ∧ d = ⟨"PHANTOM".toList, some 2⟩) ∨
  (∃ c, style.strokeColor = some c ∧ c.name = none ∧ d = ⟨dxfTypeName style.strokeStyle, none⟩) ∨
  (∃ c, style.strokeColor = some c ∧ c.name = some "black".toList ∧ d = ⟨dxfTypeName style.strokeStyle, some 0⟩)

/-- The entities that show an item: none for a circle, one for the others, ten units per centimetre. -/
def DxfShows (s : Scene.Scene K (Shape K) G) (i : Scene.Item K (Shape K) G) (l : List (Entity K)) : Prop :=
  (i.shape.kind = .text ∧ ∃ p, Points s i [p] ∧ l = [.text i.shape.text ⟨10 * p.x, 10 * p.y⟩]) ∨
  (i.shape.kind = .circle ∧ l = []) ∨
  (i.shape.kind = .segment ∧ ∃ p q d, Points s i [p, q] ∧ DxfStyled i.shape.style d ∧
    l = [.line ⟨10 * p.x, 10 * p.y⟩ ⟨10 * q.x, 10 * q.y⟩ d]) ∨
  (i.shape.kind = .cubicBezier ∧ ∃ p q r t d, Points s i [p, q, r, t] ∧ DxfStyled i.shape.style d ∧
    l = [.openSpline [(10 * p.x, 10 * p.y, 0), (10 * q.x, 10 * q.y, 0), (10 * r.x, 10 * r.y, 0), (10 * t.x, 10 * t.y, 0)] 3 d])

/-- The calls that draw an item on a PDF canvas, whose unit is seven tenths of a centimetre for a unit of the scene. -/
def PdfShows (s : Scene.Scene K (Shape K) G) (i : Scene.Item K (Shape K) G) (l : List (PdfOp K)) : Prop :=
  let u : K := cm * (7 / 10)
  (i.shape.kind = .text ∧ ∃ p, Points s i [p] ∧ l = [.drawString (u * p.x) (u * p.y) i.shape.text]) ∨
  (i.shape.kind = .circle ∧ ∃ p, Points s i [p] ∧
    l = [.saveState, .setFillColor "black".toList, .circle (u * p.x) (u * p.y) (2 * mm), .restoreState]) ∨
  (i.shape.kind = .segment ∧ ∃ p q, Points s i [p, q] ∧ l = [.line (u * p.x) (u * p.y) (u * q.x) (u * q.y)]) ∨
  (i.shape.kind = .cubicBezier ∧ ∃ p q r t, Points s i [p, q, r, t] ∧
    l = [.bezier (u * p.x) (u * p.y) (u * q.x) (u * q.y) (u * r.x) (u * r.y) (u * t.x) (u * t.y)])

/-- The origin of the canvas on the page once the translations have been made. -/
def pdfOrigin : List (PdfOp K) → Vec K
  | [] => ⟨0, 0⟩
  | .translate dx dy :: l => ⟨dx + (pdfOrigin l).x, dy + (pdfOrigin l).y⟩
  | _ :: l => pdfOrigin l

/-- The line style of Matplotlib for a stroke style: the two styles with dashes are an empty text, which Matplotlib takes for no
line. -/
def mplStyleName (style : Tex.StrokeStyle) : Option Text :=
  if style = .solidLine then some "solid".toList
  else if style = .dotLine then some "dotted".toList
  else if style = .dashDotLine then some "dashdot".toList
  else if style = .noPen then none
  else some []

/-- The artists that show an item on the axes, at its place in the scene. -/
def MplShows (float : Text → Except PyErr K) (s : Scene.Scene K (Shape K) G) (i : Scene.Item K (Shape K) G) (l : List (Artist K)) : Prop :=
  (i.shape.kind = .text ∧ ∃ p, Points s i [p] ∧ l = [.text p.x p.y i.shape.text]) ∨
  (i.shape.kind = .circle ∧ ∃ p, Points s i [p] ∧ l = [.circle p (1 / 2) "black".toList]) ∨
  (i.shape.kind = .segment ∧ ∃ p q c w, Points s i [p, q] ∧ i.shape.style.strokeColor = some c ∧ float i.shape.style.lineWidth = .ok w ∧
    l = [.path [p, q] [.moveTo, .lineTo] c.name w (mplStyleName i.shape.style.strokeStyle)]) ∨
  (i.shape.kind = .cubicBezier ∧ ∃ p q r t c w, Points s i [p, q, r, t] ∧ i.shape.style.strokeColor = some c ∧
    float i.shape.style.lineWidth = .ok w ∧
    l = [.path [p, q, r, t] [.moveTo, .curve4, .curve4, .curve4] c.name w (mplStyleName i.shape.style.strokeStyle)])

end Patro.Painters
