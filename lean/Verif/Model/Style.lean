import Verif.Model.Tex
/-!
# Model of `Patro/GraphicEngine/GraphicScene/GraphicStyle.py` and of `Patro/Pattern/SketchStyle.py`

Numbers are rational; `float(text)` is a parameter. The colour database is a parameter.
-/

namespace Patro.Style

open Xml (Text)
open Tex (StrokeStyle)

/-- `CapStyle` (Patro/GraphicStyle/__init__.py:58-65). -/
inductive CapStyle where
  | flatCap | squareCap | roundCap
deriving DecidableEq, Repr

/-- `JoinStyle` (Patro/GraphicStyle/__init__.py:69-78). -/
inductive JoinStyle where
  | miterJoin | bevelJoin | roundJoin | svgMiterJoin
deriving DecidableEq, Repr

/-- A Python value given to a style. A `bool` is a number too, but its truth value is what matters here. -/
inductive Value where
  | stroke (s : StrokeStyle)
  | cap (s : CapStyle)
  | join (s : JoinStyle)
  | num (q : ℚ)
  | bool (b : Bool)
  | text (t : Text)
  | color (c : Colour.Color)
  | none
deriving DecidableEq

/-- The number of a value, for the calls of an enumeration. -/
def Value.number? : Value → Option ℚ
  | .num q => some q
  | .bool b => some (if b then 1 else 0)
  | _ => Option.none

/-- The member of an enumeration with the given value, where `auto()` numbers the members from 1. -/
def memberOf {α : Type _} (members : List α) (v : Value) : Except PyErr α :=
  match v.number? with
  | some q =>
    match ((members.zipIdx 1).find? fun m => (m.2 : ℚ) = q) with
    | some m => .ok m.1
    | Option.none => .error .valueError
  | Option.none => .error .valueError

/-- `StrokeStyle(value)`. -/
def strokeStyleOf : Value → Except PyErr StrokeStyle
  | .stroke s => .ok s
  | v => memberOf [.noPen, .solidLine, .dashLine, .dotLine, .dashDotLine, .dashDotDotLine] v

/-- `CapStyle(value)`. -/
def capStyleOf : Value → Except PyErr CapStyle
  | .cap s => .ok s
  | v => memberOf [.flatCap, .squareCap, .roundCap] v

/-- `JoinStyle(value)`. -/
def joinStyleOf : Value → Except PyErr JoinStyle
  | .join s => .ok s
  | v => memberOf [.miterJoin, .bevelJoin, .roundJoin, .svgMiterJoin] v

/-- `float(value)`. -/
def floatOf (floatText : Text → Except PyErr ℚ) : Value → Except PyErr ℚ
  | .num q => .ok q
  | .bool b => .ok (if b then 1 else 0)
  | .text t => floatText t
  | _ => .error .typeError

/-- `bool(value)`: members of enumerations and colours are true. -/
def boolOf : Value → Bool
  | .num q => decide (q ≠ 0)
  | .bool b => b
  | .text t => decide (t ≠ [])
  | .none => false
  | _ => true

/-- The argument of `Colors.ensure_color`. -/
def Value.colorArg : Value → Option Colour.Arg
  | .none => Option.none
  | .color c => some (.color c)
  | .text t => some (.text t)
  | _ => some .other

/-- The value of an optional colour. -/
def ofColor : Option Colour.Color → Value
  | some c => .color c
  | Option.none => .none

/-- `GraphicPathStyle` (GraphicStyle.py:47-184). -/
structure PathStyle where
  strokeStyle : StrokeStyle
  lineWidth : Value
  strokeColor : Option Colour.Color
  strokeAlpha : ℚ
  fillColor : Option Colour.Color
  fillAlpha : ℚ
  capStyle : CapStyle
  joinStyle : JoinStyle
deriving DecidableEq

/-- `kwargs.get(key, default)`. -/
def arg (kwargs : Dict String Value) (key : String) (default : Value) : Value := (kwargs.get? key).getD default

section

variable (colors : Colour.DataBase) (floatText : Text → Except PyErr ℚ)

/-- `GraphicPathStyle(**kwargs)` (GraphicStyle.py:53-80) with the setters (GraphicStyle.py:109-184). The default colour is
looked up in any case. -/
def PathStyle.new (kwargs : Dict String Value) : Except PyErr PathStyle := do
  let strokeStyle ← strokeStyleOf (arg kwargs "stroke_style" (.stroke .solidLine))
  let lineWidth := arg kwargs "line_width" (.num 1)
  let black ← colors.getItem "black".toList
  let strokeColor ← colors.ensureColor (arg kwargs "stroke_color" (.color black)).colorArg
  let strokeAlpha ← floatOf floatText (arg kwargs "stroke_alpha" (.num 1))
  let fillColor ← colors.ensureColor (arg kwargs "fill_color" .none).colorArg
  let fillAlpha ← floatOf floatText (arg kwargs "fill_alpha" (.num 1))
  let capStyle ← capStyleOf (arg kwargs "cap_style" (.cap .squareCap))
  let joinStyle ← joinStyleOf (arg kwargs "join_style" (.join .bevelJoin))
  return { strokeStyle, lineWidth, strokeColor, strokeAlpha, fillColor, fillAlpha, capStyle, joinStyle }

/-- `_to_dict()` (GraphicStyle.py:84-95). -/
def PathStyle.toDict (s : PathStyle) : Dict String Value :=
  [("stroke_style", .stroke s.strokeStyle), ("line_width", s.lineWidth), ("stroke_color", ofColor s.strokeColor),
    ("fill_color", ofColor s.fillColor)]

/-- `clone()` (GraphicStyle.py:99-100). -/
def PathStyle.clone (s : PathStyle) : Except PyErr PathStyle := PathStyle.new colors floatText s.toDict

/-- `line_width_as_float` (GraphicStyle.py:128-130). -/
def PathStyle.lineWidthAsFloat (s : PathStyle) : Except PyErr ℚ := floatOf floatText s.lineWidth

/-- `GraphicBezierStyle` (GraphicStyle.py:188-229). -/
structure BezierStyle where
  path : PathStyle
  showControl : Bool
  controlColor : Option Colour.Color
deriving DecidableEq

/-- `GraphicBezierStyle(**kwargs)` (GraphicStyle.py:194-201, 213-229). -/
def BezierStyle.new (kwargs : Dict String Value) : Except PyErr BezierStyle := do
  let path ← PathStyle.new colors floatText kwargs
  let showControl := boolOf (arg kwargs "show_control" (.bool false))
  let controlColor ← colors.ensureColor (arg kwargs "control_color" .none).colorArg
  return { path, showControl, controlColor }

/-- `_to_dict()` (GraphicStyle.py:84-95) with the keys of GraphicStyle.py:205-209. -/
def BezierStyle.toDict (s : BezierStyle) : Dict String Value :=
  [("show_control", .bool s.showControl), ("control_color", ofColor s.controlColor)]

/-- `clone()` (GraphicStyle.py:99-100). -/
def BezierStyle.clone (s : BezierStyle) : Except PyErr BezierStyle := BezierStyle.new colors floatText s.toDict

/-! ## Styles of sketches -/

/-- `DetailSketchStyle` (Patro/Pattern/SketchStyle.py:33-111): the attributes; the font has an empty family. -/
structure SketchStyle where
  pointSize : Value
  pointColor : Option Colour.Color
  fontSize : Value
  labelLineWidth : Value
  lineWidth : Value
  constructionLineWidth : Value
deriving DecidableEq

/-- `DetailSketchStyle(**kargs)` (SketchStyle.py:39-49). -/
def SketchStyle.new (kargs : Dict String Value) : Except PyErr SketchStyle := do
  let black ← colors.getItem "black".toList
  let pointColor ← colors.ensureColor (arg kargs "point_color" (.color black)).colorArg
  return ⟨arg kargs "point_size" (.num (1 / 5)), pointColor, arg kargs "font_size" (.num 16), arg kargs "label_line_width" (.num 2),
    arg kargs "line_width" (.num 3), arg kargs "construction_line_width" (.num (3 / 2))⟩

/-- `point_style` (SketchStyle.py:69-71). -/
def SketchStyle.pointStyle (s : SketchStyle) : Except PyErr PathStyle :=
  PathStyle.new colors floatText [("fill_color", ofColor s.pointColor)]

/-- `label_line_style` (SketchStyle.py:91-93). -/
def SketchStyle.labelLineStyle (s : SketchStyle) : Except PyErr PathStyle :=
  PathStyle.new colors floatText [("line_width", s.labelLineWidth)]

end

end Patro.Style
