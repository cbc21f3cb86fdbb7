import Verif.Model.Printed
import Verif.Spec.Detail
import Verif.Spec.Painters
/-!
# What a sketch should become in a file

The marks of a sketch are those of `Spec/Detail.lean`: discs, lines, labels and curves at the positions computed for its operations.
-/

namespace Patro.Printed

open Detail (Mark Drawn)
open Painters (PdfOp Entity DxfStyle Artist)
open Xml (Text)

noncomputable section

/-- The calls which draw a mark on a PDF canvas, where a unit of the sketch is 0.7 cm, that is `u` points. -/
def pdfMark (m : Mark) : List (PdfOp ℝ) :=
  let u : ℝ := 7 / 10 * (72 / 2.54)
  match m.shape, m.points with
  | .circle _ _, [p] => [.saveState, .setFillColor "black".toList, .circle (u * p.x) (u * p.y) (2 * (7.2 / 2.54)), .restoreState]
  | .segment _, [p, q] => [.line (u * p.x) (u * p.y) (u * q.x) (u * q.y)]
  | .text t _, [p] => [.drawString (u * p.x) (u * p.y) t.toList]
  | .cubic _, [p, q, r, t] => [.bezier (u * p.x) (u * p.y) (u * q.x) (u * q.y) (u * r.x) (u * r.y) (u * t.x) (u * t.y)]
  | _, _ => []

/-- The line type and the colour of a line in a DXF file, for no colour, black or a colour without a name. -/
def dxfPen (style : Style.PathStyle) : DxfStyle :=
  match style.strokeColor with
  | none => ⟨"PHANTOM".toList, some 2⟩
  | some c => ⟨Painters.dxfTypeName style.strokeStyle, if c.name = none then none else some 0⟩

/-- The entities of a mark in a DXF file, where a unit of the sketch is ten units: nothing for a disc. -/
def dxfMark (m : Mark) : List (Entity ℝ) :=
  match m.shape, m.points with
  | .segment s, [p, q] => [.line ⟨10 * p.x, 10 * p.y⟩ ⟨10 * q.x, 10 * q.y⟩ (dxfPen s)]
  | .text t _, [p] => [.text t.toList ⟨10 * p.x, 10 * p.y⟩]
  | .cubic s, [p, q, r, t] =>
    [.openSpline [(10 * p.x, 10 * p.y, 0), (10 * q.x, 10 * q.y, 0), (10 * r.x, 10 * r.y, 0), (10 * t.x, 10 * t.y, 0)] 3 (dxfPen s)]
  | _, _ => []

/-- The artists of a mark on the axes of Matplotlib, for `width` the width of a line. -/
def mplMark (width : Style.Value → ℝ) (m : Mark) : List (Artist ℝ) :=
  match m.shape, m.points with
  | .circle _ _, [p] => [.circle p (1 / 2) "black".toList]
  | .segment s, [p, q] =>
    [.path [p, q] [.moveTo, .lineTo] (s.strokeColor.bind (·.name)) (width s.lineWidth) (Painters.mplStyleName s.strokeStyle)]
  | .text t _, [p] => [.text p.x p.y t.toList]
  | .cubic s, [p, q, r, t] =>
    [.path [p, q, r, t] [.moveTo, .curve4, .curve4, .curve4] (s.strokeColor.bind (·.name)) (width s.lineWidth)
      (Painters.mplStyleName s.strokeStyle)]
  | _, _ => []

/-- The sketch is evaluated and can be drawn: its operations refer to points before them, every point has a position, every curve its control
points, every line a style, and the points have different names. -/
structure Ready (ops : List Drawn) (st : SketchGeometry.St) : Prop where
  refs : Detail.Refs ops
  evaluated : Detail.Evaluated ops st
  styled : Detail.Styled ops
  names : (Detail.names ops).Nodup

end

end Patro.Printed
