import Verif.Spec.ValPrinted
import Verif.Spec.Detail
/-! # What is drawn for the elements of a Valentina file -/

namespace Patro.ValPrinted

open Valentina (Element Class IsClass)
open ValPlaces (Drawing Ref place idAttr)
open Detail (Mark lineOf)
open Style (SketchStyle)
open Tex (StrokeStyle)
open Xml (Text)

variable {F : Type}

/-- The calculations `es` of a file are read as the sketch `s`, whose operations are `ds` and which is evaluated to `st`. The elements have their
attributes, the points have different names and a place. -/
structure Evaluates (env : Valentina.Env F) (compile : Text → SketchGeometry.Expr) (real : F → ℝ) (counter : Int) (es : List Element)
    (s : Valentina.Sketch F) (ds : List Detail.Drawn) (st : SketchGeometry.St) : Prop where
  complete : ∀ e ∈ es, ValPlaces.Complete e
  drawable : ∀ e ∈ es, Drawable env e
  names : ((ValPlaces.implemented es).filterMap pointName).Nodup
  read : Valentina.Sketch.read env { counter := counter } es = (s, .ok ())
  drawn : toDrawns compile real s.ops = some ds
  evaluated : SketchGeometry.evalSketch SketchGeometry.St.empty (ds.map (·.op)) = .ok st
  places : ∀ e ∈ es, IsClass e .lineIntersect ∨ IsClass e .pointOfContact → (place (ValPlaces.drawing s.ops st) e).isSome

/-- The attribute `attr` is this colour, or is missing. -/
def ColourAttr (env : Valentina.Env F) (e : Element) (attr : String) (c : Option Colour.Color) : Prop :=
  (e.attrib.get? attr = none ∧ c = none) ∨ ∃ t c', e.attrib.get? attr = some t ∧ Valentina.ColourName env.db t c' ∧ c = some c'

/-- The pen of the line, the curve or the construction line of an element: a style and a colour. A curve is always solid. -/
def ElementPen (env : Valentina.Env F) (e : Element) (pen : StrokeStyle × Option Colour.Color) : Class → Prop
  | .spline => pen.1 = .solidLine ∧ ColourAttr env e "color" pen.2
  | .line | .alongLine | .endLine | .normal =>
    (∃ t, e.attrib.get? "typeLine" = some t ∧ Valentina.StyleName t pen.1) ∧ ColourAttr env e "lineColor" pen.2
  | _ => False

noncomputable section

/-- What is drawn for a point: a disc, a line to its label and the label. -/
def labelMarks (black : Colour.Color) (style : SketchStyle) (i : Nat) (p label : Vec ℝ) (name : String) : List Mark :=
  [⟨.circle style.pointSize { lineOf (.solidLine, some black) (.num 1) with fillColor := style.pointColor }, [p], i⟩,
   ⟨.segment (lineOf (.solidLine, some black) style.labelLineWidth), [p, label], i⟩,
   ⟨.text name style.fontSize, [label], i⟩]

/-- What is drawn for an element of a class, which is the `i`-th one, when the points are those of the drawing `d`. -/
def Draws (env : Valentina.Env F) (real : F → ℝ) (black : Colour.Color) (style : SketchStyle) (d : Drawing) (i : Nat) (e : Element)
    (ms : List Mark) : Class → Prop
  | .line => ∃ p q pen, Ref d e "firstPoint" p ∧ Ref d e "secondPoint" q ∧ ElementPen env e pen .line ∧
      ms = [⟨.segment (lineOf pen style.lineWidth), [p, q], i⟩]
  | .spline => ∃ p q c1 c2 pen, Ref d e "point1" p ∧ Ref d e "point4" q ∧ (idAttr e "id").bind d.control = some (c1, c2) ∧
      ElementPen env e pen .spline ∧ ms = [⟨.cubic (lineOf pen style.lineWidth), [p, c1, c2, q], i⟩]
  | c => ∃ name p mx my x y, (e.attrib.get? "name").map String.ofList = some name ∧ place d e = some p ∧
      e.attrib.get? "mx" = some mx ∧ env.parse mx = .ok x ∧ e.attrib.get? "my" = some my ∧ env.parse my = .ok y ∧
      match origin c with
      | none => ms = labelMarks black style i p ⟨p.x + real x, p.y - real y⟩ name
      | some a => ∃ q pen, Ref d e a q ∧ ElementPen env e pen c ∧
          ms = labelMarks black style i p ⟨p.x + real x, p.y - real y⟩ name ++
            [⟨.segment (lineOf pen style.constructionLineWidth), [q, p], i⟩]

/-- The marks of the elements, in the order of the file. -/
def FileDraws (env : Valentina.Env F) (real : F → ℝ) (black : Colour.Color) (style : SketchStyle) (d : Drawing) (es : List Element)
    (parts : List (List Mark)) : Prop :=
  List.Forall₂ (fun e ms => ∃ c, IsClass e.1 c ∧ Draws env real black style d e.2 e.1 ms c) (ValPlaces.implemented es).zipIdx parts

/-- The points of a file with their places, in the order of the file. -/
def pointsOf (d : Drawing) (es : List Element) : List (String × Vec ℝ) :=
  es.filterMap fun e => (pointName e).bind fun n => (place d e).map fun p => (n, p)

end

end Patro.ValPrinted
