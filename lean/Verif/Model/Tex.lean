import Verif.Model.Text
import Verif.Model.Color
import Verif.Model.Scene
/-!
# Model of `Patro/GraphicEngine/TeX`, `Painter.paint` and `TexPainter`

Numbers are written by a function given as a parameter; the rest of the text is modelled character by character.
-/

namespace Patro.Tex

open Xml (Text)

/-! ## `str.format` -/

/-- Where the reading of a format is: in the plain text, just after a `{` or a `}` of the plain text, or in a field, with the
number of nested braces and the characters read so far in reverse order. -/
inductive Mode where
  | plain
  | opened
  | closed
  | field (depth : Nat) (acc : Text)

/-- `template.format(…)`, where `lookup` gives the text of a field, from its name, its attributes and its format
specification. Automatic numbering of the fields and indices that contain braces are not modelled. -/
def formatGo (lookup : Text → Except PyErr Text) : Mode → Text → Except PyErr Text
  | .plain, [] => .ok []
  | .plain, c :: t =>
    if c = '{' then formatGo lookup .opened t
    else if c = '}' then formatGo lookup .closed t
    else (formatGo lookup .plain t).map (c :: ·)
  | .opened, [] => .error .valueError
  | .opened, c :: t =>
    if c = '{' then (formatGo lookup .plain t).map ('{' :: ·)
    else if c = '}' then do
      let v ← lookup []
      let r ← formatGo lookup .plain t
      return v ++ r
    else formatGo lookup (.field 0 [c]) t
  | .closed, [] => .error .valueError
  | .closed, c :: t => if c = '}' then (formatGo lookup .plain t).map ('}' :: ·) else .error .valueError
  | .field _ _, [] => .error .valueError
  | .field d acc, c :: t =>
    if c = '{' then formatGo lookup (.field (d + 1) (c :: acc)) t
    else if c = '}' then
      match d with
      | 0 => do
        let v ← lookup acc.reverse
        let r ← formatGo lookup .plain t
        return v ++ r
      | d + 1 => formatGo lookup (.field d (c :: acc)) t
    else formatGo lookup (.field d (c :: acc)) t

/-- `template.format(…)`. -/
def format (lookup : Text → Except PyErr Text) (template : Text) : Except PyErr Text := formatGo lookup .plain template

/-- A character that ends the name of the argument in a field. -/
def endsName (c : Char) : Bool := c = '.' || c = '[' || c = ':' || c = '!'

/-- The position written in a field. -/
def parseIndex (t : Text) : Option Nat :=
  if t = [] then none else t.foldlM (fun acc c => (Xml.digit? c).map (10 * acc + ·)) 0

/-- The fields of a call of `format` with `n` positional arguments and no keyword: a number is the position of an
argument, whose text is given by `value` from what follows the number; another name raises `KeyError`. -/
def positionalField (n : Nat) (value : Nat → Text → Except PyErr Text) (field : Text) : Except PyErr Text :=
  let name := field.takeWhile (fun c => !endsName c)
  let rest := field.dropWhile (fun c => !endsName c)
  match parseIndex name with
  | some i => if i < n then value i rest else .error .indexError
  | none => .error .keyError

/-- `Document._format(pattern, …)` (Patro/GraphicEngine/TeX/Document.py:79-86). -/
def guillemetFormat (lookup : Text → Except PyErr Text) (pattern : Text) : Except PyErr Text :=
  let pattern := Patro.Text.replace ['{'] ['{', '{'] pattern
  let pattern := Patro.Text.replace ['}'] ['}', '}'] pattern
  let pattern := Patro.Text.replace ['«'] ['{'] pattern
  let pattern := Patro.Text.replace ['»'] ['}'] pattern
  format lookup pattern

/-! ## Buffers, environments and documents -/

/-- What a buffer contains: texts, buffers (Patro/GraphicEngine/TeX/Buffer.py:27-70) and environments
(Patro/GraphicEngine/TeX/Environment.py:27-55) with a name and options. -/
inductive Node where
  | text (t : Text)
  | buffer (content : List Node)
  | env (name options : Text) (content : List Node)

/-- The first line of an environment (Environment.py:41-45). -/
def beginLine (name options : Text) : Text :=
  "\\begin{".toList ++ name ++ ['}'] ++ (if options = [] then [] else '[' :: options ++ [']']) ++ ['\n']

/-- The last line of an environment (Environment.py:46). -/
def endLine (name : Text) : Text := "\\end{".toList ++ name ++ ['}', '\n']

mutual
/-- `str(item)` (Buffer.py:38-43, Environment.py:50-55). -/
def Node.str : Node → Text
  | .text t => t
  | .buffer content => strs content
  | .env name options content => beginLine name options ++ strs content ++ endLine name
/-- The texts of the items, one after the other. -/
def strs : List Node → Text
  | [] => []
  | n :: l => n.str ++ strs l
end

/-- `buffer.append(data)` (Buffer.py:53-70) for one item or a list of items. -/
def append (content : List Node) (data : Node ⊕ List Node) : List Node :=
  match data with
  | .inl item => content ++ [item]
  | .inr items => items.foldl (fun c i => c ++ [i]) content

/-- `Document` (Document.py:37-53). -/
structure Document where
  filename : Text
  className : Text
  classOptions : Text
  preambule : List Node := []
  content : List Node := []

/-- `text.rfind(pat)`: the position of the last occurrence; `none` stands for -1. -/
def rfindGo (pat : Text) : Text → Nat → Option Nat → Option Nat
  | [], i, last => if pat = [] then some i else last
  | c :: t, i, last => rfindGo pat t (i + 1) (if pat.isPrefixOf (c :: t) then some i else last)

/-- `text.rfind(pat)` as an integer. -/
def rfind (pat t : Text) : Int :=
  match rfindGo pat t 0 none with
  | some i => i
  | none => -1

/-- `Document(filename, class_name, class_options)` (Document.py:41-53). -/
def Document.new (filename className : Text) (classOptions : Text := []) : Document :=
  let filename := if (filename.length : Int) - rfind ".tex".toList filename = 4 then filename.take (filename.length - 4) else filename
  { filename, className, classOptions }

namespace Document

/-- `tex_filename` and `pdf_filename` (Document.py:57-67). -/
def texFilename (d : Document) : Text := d.filename ++ ".tex".toList
@[inherit_doc texFilename] def pdfFilename (d : Document) : Text := d.filename ++ ".pdf".toList

/-- `output_directory` (Document.py:61-63) uses an attribute `_tex_filename` that does not exist. -/
def outputDirectory (_ : Document) : Except PyErr Text := .error .attributeError

/-- The attributes of the document, as they are used in the format of `__str__`. -/
def attr (d : Document) (name : Text) : Except PyErr Text :=
  if name = "._class_options".toList then .ok d.classOptions
  else if name = "._class_name".toList then .ok d.className
  else .error .attributeError

/-- `str(document)` (Document.py:90-95). -/
def str (d : Document) : Except PyErr Text := do
  let source ← guillemetFormat (positionalField 1 fun _ => d.attr)
    "\\documentclass[«0._class_options»]{«0._class_name»}".toList
  return source ++ ['\n'] ++ strs d.preambule ++ (Node.env "document".toList [] d.content).str

end Document

/-! ## Styles of TikZ paths -/

/-- `StrokeStyle` (Patro/GraphicStyle/__init__.py:46-53). -/
inductive StrokeStyle where
  | noPen
  | solidLine
  | dashLine
  | dotLine
  | dashDotLine
  | dashDotDotLine
deriving DecidableEq, Repr

/-- `__STROKE_STYLE__` (Patro/GraphicEngine/TeX/Tikz.py:31-37); `none` stands for a missing key, `some none` for `None`. -/
def strokeText : StrokeStyle → Option (Option Text)
  | .dashLine => some (some "dash pattern=on 5mm off 5mm".toList)
  | .dashDotLine => some (some "dash pattern=on 5mm off 4mm on 2mm off 4mm".toList)
  | .dotLine => some (some "dash pattern=on 2mm off 2mm".toList)
  | .noPen => some none
  | .solidLine => some (some "solid".toList)
  | .dashDotDotLine => none

/-- The style of a path, as it is used here: the text of the line width, and the colour. -/
structure PathStyle where
  strokeStyle : StrokeStyle
  lineWidth : Text
  strokeColor : Option Colour.Color

/-- `', '.join(styles)`. -/
def joinStyles : List Text → Text
  | [] => []
  | [s] => s
  | s :: l => s ++ [',', ' '] ++ joinStyles l

/-- `format_path_style(path_style)` (Tikz.py:40-52). -/
def formatPathStyle (s : PathStyle) : Except PyErr Text :=
  match strokeText s.strokeStyle with
  | none => .error .keyError
  | some stroke =>
    match s.strokeColor with
    | none => .error .attributeError
    | some color => .ok (joinStyles (["line width=".toList ++ s.lineWidth] ++ stroke.toList ++ color.name.toList))

/-! ## Painters -/

/-- The loop of `Painter.paint` (Patro/GraphicEngine/Painter/Painter.py:109-119) over the items in the order of
`z_value_iter`. `methods` gives the registered paint method of a class; what the methods painted is kept when one
raises. -/
def paintLoop {ι κ α : Type _} (kind : ι → κ) (methods : κ → Option (ι → Except PyErr α)) : List ι → List α × Except PyErr Unit
  | [] => ([], .ok ())
  | i :: rest =>
    match methods (kind i) with
    | none => ([], .error .notImplementedError)
    | some m =>
      match m i with
      | .ok out => (out :: (paintLoop kind methods rest).1, (paintLoop kind methods rest).2)
      | .error .keyError => ([], .error .notImplementedError)
      | .error e => ([], .error e)

/-- The classes of items (Patro/GraphicEngine/GraphicScene/GraphicItem.py). -/
inductive Kind where
  | text | circle | ellipse | segment | rectangle | polyline | polygon | image | cubicBezier | quadraticBezier | path
deriving DecidableEq, Repr

/-- An item of the scene with what the TeX painter uses of it. -/
structure Item (K : Type _) where
  kind : Kind
  positions : List (Scene.Position K)
  text : Text := []
  radius : K
  style : PathStyle

section

variable {K : Type _} (number : K → Text)

/-- `_format_position(position)` (Patro/GraphicEngine/Painter/TexPainter.py:99-103), where `number` is the format
`.2f`. -/
def formatPosition : Scene.Position K → Text
  | .name n => '(' :: n.toList ++ [')']
  | .vector v => '(' :: number v.x ++ [','] ++ number v.y ++ [')']

/-- `paint_CoordinateItem(item)` (TexPainter.py:114-117). -/
def paintCoordinate (name : String) (position : Scene.Position K) : Text :=
  "\\coordinate (".toList ++ name.toList ++ ") at ".toList ++ formatPosition number position ++ ";\n".toList

/-- The arguments of a format, by position. -/
def argument (args : List Text) (i : Nat) (_ : Text) : Except PyErr Text := Py.getItem args i

/-- `paint_TextItem(item)` (TexPainter.py:121-123). -/
def paintText (item : Item K) : Except PyErr Text := do
  let position ← Py.getItem item.positions 0
  let args := [formatPosition number position, item.text]
  let line ← guillemetFormat (positionalField 2 (argument args)) "\\draw[] «0» node[anchor=north west] {«1»};".toList
  return line ++ ['\n']

/-- `paint_CircleItem(item)` (TexPainter.py:127-129). -/
def paintCircle (item : Item K) : Except PyErr Text := do
  let position ← Py.getItem item.positions 0
  return "\\fill [black] ".toList ++ formatPosition number position ++ " circle (1pt);\n".toList

/-- `paint_SegmentItem(item)` (TexPainter.py:133-136). -/
def paintSegment (item : Item K) : Except PyErr Text := do
  let style ← formatPathStyle item.style
  let coordinates := item.positions.map (formatPosition number)
  let a ← Py.getItem coordinates 0
  let b ← Py.getItem coordinates 1
  return "\\draw[".toList ++ style ++ "] ".toList ++ a ++ " -- ".toList ++ b ++ ";\n".toList

/-- `paint_CubicBezierItem(item)` (TexPainter.py:140-143). -/
def paintCubic (item : Item K) : Except PyErr Text := do
  let style ← formatPathStyle item.style
  let coordinates := item.positions.map (formatPosition number)
  let a ← Py.getItem coordinates 0
  let b ← Py.getItem coordinates 1
  let c ← Py.getItem coordinates 2
  let d ← Py.getItem coordinates 3
  return "\\draw[".toList ++ style ++ "] ".toList ++ a ++ " .. controls ".toList ++ b ++ " and ".toList ++ c ++
    " .. ".toList ++ d ++ ";\n".toList

/-- The paint methods of `TexPainter` and those of `Painter` that are not overridden (Painter.py:150-180); there is none for
rectangles. -/
def texMethods : Kind → Option (Item K → Except PyErr Text)
  | .text => some (paintText number)
  | .circle => some (paintCircle number)
  | .segment => some (paintSegment number)
  | .cubicBezier => some (paintCubic number)
  | .rectangle => none
  | _ => some fun _ => .error .notImplementedError

/-- `TexPainter.paint()` (TexPainter.py:107-110): the coordinates, then the items. -/
def texPaint (coordinates : List (String × Scene.Position K)) (items : List (Item K)) : List Text × Except PyErr Unit :=
  let r := paintLoop Item.kind (texMethods number) items
  (coordinates.map (fun c => paintCoordinate number c.1 c.2) ++ r.1, r.2)

end

end Patro.Tex
