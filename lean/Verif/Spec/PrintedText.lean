import Verif.Spec.Printed
import Verif.Spec.TexFigure
import Verif.Model.PrintedText
/-!
# What a sketch should become in a SVG file and in a TeX document
-/

namespace Patro.Printed

open Detail (Mark Drawn)
open Painters (Element)
open Xml (Text)

noncomputable section

/-! ## TeX -/

/-- The points of a sketch with their positions, in the order of the operations. -/
def pointsOf (ops : List Drawn) (st : SketchGeometry.St) : List (String × Vec ℝ) :=
  ops.zipIdx.filterMap fun d => d.1.op.name.map fun n => (n, (st.vec d.2).getD 0)

section

variable (number : ℝ → Text) (str : Style.Value → Text)

/-- The line which gives a name to a position in a picture. -/
def coordinateLine (c : String × Vec ℝ) : Text :=
  "\\coordinate (".toList ++ c.1.toList ++ ") at ".toList ++ Tex.tikzPoint number c.2.x c.2.y ++ ";\n".toList

/-- The text `t` stands for the point `p` in a picture: it gives its coordinates, or a name that was given to it. -/
def StandsFor (named : List (String × Vec ℝ)) (t : Text) (p : Vec ℝ) : Prop :=
  t = Tex.tikzPoint number p.x p.y ∨ ∃ n : String, t = "(".toList ++ n.toList ++ ")".toList ∧ named.lookup n = some p

/-- The pen of a line: its width, its dashes unless there is no pen, its colour if this one has a name. -/
def tikzPen (s : Style.PathStyle) : Text :=
  "line width=".toList ++ str s.lineWidth ++
    (match s.strokeStyle with
     | .noPen => []
     | .solidLine => ", solid".toList
     | .dashLine => ", dash pattern=on 5mm off 5mm".toList
     | .dotLine => ", dash pattern=on 2mm off 2mm".toList
     | .dashDotLine => ", dash pattern=on 5mm off 4mm on 2mm off 4mm".toList
     | .dashDotDotLine => ", dash pattern=on 5mm off 4mm on 2mm off 4mm on 2mm off 4mm".toList) ++
    (match s.strokeColor.bind (·.name) with
     | none => []
     | some n => ", ".toList ++ n)

/-- The line `t` of a picture draws the mark: a dot, a line, a label whose corner is at the place of the mark, or a cubic curve. -/
def TexShows (named : List (String × Vec ℝ)) (m : Mark) (t : Text) : Prop :=
  match m.shape, m.points with
  | .circle _ _, [p] => ∃ a, StandsFor number named a p ∧ t = "\\fill [black] ".toList ++ a ++ " circle (1pt);\n".toList
  | .segment s, [p, q] => ∃ a b, StandsFor number named a p ∧ StandsFor number named b q ∧
      t = "\\draw[".toList ++ tikzPen str s ++ "] ".toList ++ a ++ " -- ".toList ++ b ++ ";\n".toList
  | .text l _, [p] => ∃ a, StandsFor number named a p ∧
      t = "\\draw[] ".toList ++ a ++ " node[anchor=north west] {".toList ++ l.toList ++ "};\n".toList
  | .cubic s, [p, q, r, u] => ∃ a b c d, StandsFor number named a p ∧ StandsFor number named b q ∧ StandsFor number named c r ∧
      StandsFor number named d u ∧
      t = "\\draw[".toList ++ tikzPen str s ++ "] ".toList ++ a ++ " .. controls ".toList ++ b ++ " and ".toList ++ c ++ " .. ".toList ++ d ++
        ";\n".toList
  | _, _ => False

end

/-- The lines of the sketch have a colour, and a stroke style other than the one TeX has no text for. -/
def TexPens (ops : List Drawn) : Prop :=
  ∀ d ∈ ops, Detail.usesLine d.op = true → ∀ s c, Detail.penOf d = some (s, c) → c.isSome ∧ s ≠ .dashDotDotLine

/-! ## SVG -/

/-- The elements of a mark in a SVG document. A label and a line are shown, at a place that is not the one wanted, see `svg_place_wrong`; a disc is an
empty text without a place, and a curve is missing. -/
def SvgMark (number : ℝ → Text) (width : Style.Value → ℝ) (box : Box ℝ) (m : Mark) (es : List Element) : Prop :=
  match m.shape, m.points with
  | .text t _, [p] => ∃ e, es = [e] ∧ e.tag = "text".toList ∧ e.text = some t.toList ∧
      e.attrib.get? "x" = some (number (10 * p.x - box.xInf)) ∧ e.attrib.get? "y" = some (number (-10 * p.y - box.ySup)) ∧
      e.attrib.get? "fill" = some "black".toList
  | .segment s, [p, q] => ∃ e, es = [e] ∧ e.tag = "line".toList ∧ e.text = none ∧
      e.attrib.get? "x1" = some (number (10 * p.x - box.xInf)) ∧ e.attrib.get? "y1" = some (number (-10 * p.y - box.ySup)) ∧
      e.attrib.get? "x2" = some (number (10 * q.x - box.xInf)) ∧ e.attrib.get? "y2" = some (number (-10 * q.y - box.ySup)) ∧
      e.attrib.get? "stroke" = s.strokeColor.bind (·.name) ∧ e.attrib.get? "stroke-width" = some (number (width s.lineWidth)) ∧
      e.attrib.get? "stroke-dasharray" = Painters.dashText s.strokeStyle
  | .circle _ _, [_] => es = [⟨"text".toList, [("fill", "black".toList), ("class", "normal".toList)], some []⟩]
  | .cubic _, [_, _, _, _] => es = []
  | _, _ => False

/-- The data of the path of a cubic curve. -/
def cubicData (a b c d e f g h : Text) : Text :=
  "M ".toList ++ a ++ " ".toList ++ b ++ " C ".toList ++ c ++ " ".toList ++ d ++ ", ".toList ++ e ++ " ".toList ++ f ++
      ", ".toList ++ g ++ " ".toList ++ h

/-- What is needed of `str` and `float` of Python: the text of a number has no separator, is not a letter, and is read. -/
structure Writes (number : ℝ → Text) (float : Text → Option ℝ) : Prop where
  ne_nil : ∀ x, number x ≠ []
  sep : ∀ x, ' ' ∉ number x ∧ ',' ∉ number x
  letter : ∀ x c, number x = [c] → c.isAlpha = false
  read : ∀ x, (float (number x)).isSome

end

end Patro.Printed
