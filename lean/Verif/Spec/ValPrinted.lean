import Verif.Model.ValPrinted
import Verif.Spec.ValPlaces
import Verif.Spec.Printed
/-! # What is printed for the elements of a Valentina file -/

namespace Patro.ValPrinted

open Valentina (Element Class IsClass)
open ValPlaces (Drawing Ref place idAttr)
open Painters (PdfOp)
open Xml (Text)

variable {F : Type}

/-- The attributes of an element which say how it is drawn: the style of its line, with a colour which is known if there is one, and the
offset of the label of a point. -/
structure Drawable (env : Valentina.Env F) (e : Element) : Prop where
  style : ∀ c ∈ [Class.alongLine, .endLine, .normal, .line], IsClass e c → (e.attrib.get? "typeLine").isSome
  color : IsClass e .spline → ∀ t, e.attrib.get? "color" = some t → ∃ c, Valentina.ColourName env.db t c
  offset : ∀ c : Class, c.isPoint = true → IsClass e c → (e.attrib.get? "mx").isSome ∧ (e.attrib.get? "my").isSome

/-- The name of an element, if it is a point. -/
def pointName (e : Element) : Option String :=
  if e.tag = some "point" then (e.attrib.get? "name").map String.ofList else none

noncomputable section

/-- A unit of the sketch, in points of the page: 0.7 cm. -/
def unit : ℝ := 7 / 10 * (72 / 2.54)

/-- A line of the page between two points of the sketch. -/
def lineCall (p q : Vec ℝ) : PdfOp ℝ := .line (unit * p.x) (unit * p.y) (unit * q.x) (unit * q.y)

/-- A point, with its label and a line to the label. -/
def pointCalls (p label : Vec ℝ) (name : String) : List (PdfOp ℝ) :=
  [.saveState, .setFillColor "black".toList, .circle (unit * p.x) (unit * p.y) (2 * (7.2 / 2.54)), .restoreState, lineCall p label,
    .drawString (unit * label.x) (unit * label.y) name.toList]

/-- The attribute which is the point the construction line of a point starts from. -/
def origin : Class → Option String
  | .alongLine => some "firstPoint"
  | .endLine => some "basePoint"
  | .normal => some "firstPoint"
  | _ => none

/-- What is printed for an element of a class, when the points are those of the drawing `d`. -/
def Prints (env : Valentina.Env F) (real : F → ℝ) (d : Drawing) (e : Element) (calls : List (PdfOp ℝ)) : Class → Prop
  | .line => ∃ p q, Ref d e "firstPoint" p ∧ Ref d e "secondPoint" q ∧ calls = [lineCall p q]
  | .spline => ∃ p q c1 c2, Ref d e "point1" p ∧ Ref d e "point4" q ∧ (idAttr e "id").bind d.control = some (c1, c2) ∧
      calls = [.bezier (unit * p.x) (unit * p.y) (unit * c1.x) (unit * c1.y) (unit * c2.x) (unit * c2.y) (unit * q.x) (unit * q.y)]
  | c => ∃ name p mx my x y, (e.attrib.get? "name").map String.ofList = some name ∧ place d e = some p ∧
      e.attrib.get? "mx" = some mx ∧ env.parse mx = .ok x ∧ e.attrib.get? "my" = some my ∧ env.parse my = .ok y ∧
      match origin c with
      | none => calls = pointCalls p ⟨p.x + real x, p.y - real y⟩ name
      | some a => ∃ q, Ref d e a q ∧ calls = pointCalls p ⟨p.x + real x, p.y - real y⟩ name ++ [lineCall q p]

end

end Patro.ValPrinted
