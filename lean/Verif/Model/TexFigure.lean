import Verif.Model.Tex
import Verif.Model.Paper
import Verif.Model.Painters
/-!
# Model of the figures of `TexPainter`

The document is a value: a figure is appended to the content before it is painted, and what is painted goes in the figure, so that the content
holds what was painted even when the painting stops.
-/

namespace Patro.Tex

open Xml (Text)

/-- The preamble `_preambule` up to the name of the paper (Patro/GraphicEngine/Painter/TexPainter.py:37-43). -/
def preambleBegin : Text :=
  "\n%** Package ****************************************************************************************\n\n%**** Page settings ******************************\n\n\\usepackage[%\n".toList

/-- The preamble after the margin (TexPainter.py:46-64). -/
def preambleEnd : Text :=
  "headsep=0cm, footskip=0cm,%\ndvips,%\n]{geometry}\n\n%**** Encoding ***********************************\n\n\\usepackage[utf8]{inputenc}\n\n%*************************************************\n\n\\usepackage{tikz}\n\\usetikzlibrary{calc}\n\\usepgflibrary{arrows}\n\n\\usepackage{calc}\n\n%***************************************************************************************************\n\n".toList

/-- The preamble `_preambule` (TexPainter.py:37-64). -/
def preambleTemplate : Text :=
  preambleBegin ++ "paper=«0.paper_name»,%\n%landscape,\n%includeheadfoot,%\nmargin=«0.margin»mm,%\n".toList ++ preambleEnd

/-- `paper_name` (TexPainter.py:81-83), for an ASCII name. -/
def paperName (name : Text) : Text := name.map Char.toLower ++ "paper".toList

/-- The attributes of the painter that the preamble uses (TexPainter.py:81-87), for the text `margin` of the margin. -/
def painterAttr (name margin : Text) (attr : Text) : Except PyErr Text :=
  if attr = ".paper_name".toList then .ok (paperName name)
  else if attr = ".margin".toList then .ok margin
  else .error .attributeError

/-- `TexPainter(path, scene, paper)` (TexPainter.py:73-77): the document, for a path given as a text, the name of the paper and the text of its
margin. -/
def texPainter (path name margin : Text) : Except PyErr Document := do
  let d := Document.new path "article".toList "12pt".toList
  let preambule ← guillemetFormat (positionalField 1 fun _ => painterAttr name margin) preambleTemplate
  return { d with preambule := append d.preambule (.inl (.text preambule)) }

/-- `_add_pagestyle_empty()` (TexPainter.py:147-149). -/
def addPagestyle (d : Document) : Document :=
  { d with content := append d.content (.inl (.text "\\pagestyle{empty}\n".toList)) }

/-- `Center().append(figure)` (Patro/GraphicEngine/TeX/Environment.py:59-61) for `TikzFigure(options)`
(Patro/GraphicEngine/TeX/Tikz.py:56-57) with its content. -/
def figure (options : Text) (content : List Text) : Node :=
  .env "center".toList [] [.env "tikzpicture".toList options (content.map .text)]

section

variable {K : Type} [Field K] [LinearOrder K] (number repr : K → Text)
variable (coordinates : List (String × Scene.Position K)) (items : List (Item K))

omit [Field K] [LinearOrder K] in
/-- `add_detail_figure()` (TexPainter.py:153-161), for the coordinates of the scene and its items in the order of the painting. -/
def addDetailFigure (d : Document) : Document × Except PyErr Unit :=
  let d := addPagestyle d
  let d := { d with content := append d.content (.inl (.text "\\fontsize{64}{72}\\selectfont % \\fontsize{size}{baselineskip}\n".toList)) }
  let r := texPaint number coordinates items
  ({ d with content := append d.content (.inl (figure "x=8mm,y=8mm".toList r.1)) }, r.2)

omit [LinearOrder K] in
/-- The label of a tile (TexPainter.py:174-180), where `repr` is the text of a number and `natToText` the one of an integer. -/
def tileLabel (t : Paper.Tile K) : Except PyErr Text := do
  let args := [repr (t.interval.xInf + 1), repr (t.interval.yInf + 1), Xml.natToText (t.row + 1), Xml.natToText (t.column + 1)]
  let line ← guillemetFormat (positionalField 4 (argument args)) "\\draw[] («0»,«1») node[anchor=south west] {«2», «3»};".toList
  return line ++ ['\n']

omit [Field K] [LinearOrder K] in
/-- The clipping path of a tile (TexPainter.py:183-187), where `number` is the format `.2f`. -/
def tileClip (b : Box K) : Text :=
  let point := fun x y => '(' :: number x ++ [','] ++ number y ++ [')']
  "\\draw[clip] ".toList ++ point b.xInf b.yInf ++ " -- ".toList ++ point b.xSup b.yInf ++ " -- ".toList ++
    point b.xSup b.ySup ++ " -- ".toList ++ point b.xInf b.ySup ++ " -- cycle;\n".toList

omit [LinearOrder K] in
/-- The texts at the beginning of the figure of a tile (TexPainter.py:172-187). -/
def tileHead (t : Paper.Tile K) : Except PyErr (List Text) := do
  let label ← tileLabel repr t
  return ["\\fontsize{128}{128}\\selectfont % \\fontsize{size}{baselineskip}\n".toList, "\\color{gray!50}\n".toList, label,
    "\\fontsize{14}{16}\\selectfont % \\fontsize{size}{baselineskip}\n".toList, "\\color{black}\n".toList, tileClip number t.interval]

omit [LinearOrder K] in
/-- The loop of `add_tiled_detail_figure()` over the tiles (TexPainter.py:168-189). -/
def tileLoop (d : Document) : List (Paper.Tile K) → Document × Except PyErr Unit
  | [] => (d, .ok ())
  | t :: rest =>
    match tileHead number repr t with
    | .error e => (d, .error e)
    | .ok head =>
      let r := texPaint number coordinates items
      let d := { d with content := append d.content (.inl (figure "x=10mm,y=10mm".toList (head ++ r.1))) }
      match r.2 with
      | .error e => (d, .error e)
      | .ok () => tileLoop d rest

/-- `add_tiled_detail_figure()` (TexPainter.py:165-189), for the attribute `bounding_box` of the scene and the dimensions of the paper. -/
def addTiledDetailFigure [FloorRing K] (d : Document) (boundingBox : Option (Option (Box K))) (width height margin : K) :
    Document × Except PyErr Unit :=
  let d := addPagestyle d
  match Painters.sceneBoundingBox boundingBox with
  | .error e => (d, .error e)
  | .ok box =>
    match Paper.tiler box width height margin with
    | .error e => (d, .error e)
    | .ok tiles => tileLoop number repr coordinates items d tiles

end

end Patro.Tex
