import Verif.Model.ValPlaces
import Verif.Spec.Valentina
import Verif.Spec.SketchGeometry
/-! # What the elements of a Valentina file say about the places of the points -/

namespace Patro.ValPlaces

open Valentina (Operation Sketch Class Element IsClass NotImplemented)
open SketchGeometry (Expr Op Env St AtFrom direction)
open Xml (Text)

/-- A drawing: the place of each point and the control points of each spline, by id. -/
structure Drawing where
  point : Int → Option (Vec ℝ)
  control : Int → Option (Vec ℝ × Vec ℝ)

/-- The elements which are calculations that are implemented. -/
noncomputable def implemented (es : List Element) : List Element :=
  open Classical in es.filter fun e => ¬ NotImplemented e

/-- An attribute which is a whole number: the id of an element, or the id of another element. -/
def idAttr (e : Element) (attr : String) : Option Int :=
  match e.attrib.get? attr with
  | some t => (Xml.intFromText t).toOption
  | none => none

/-- The element is a point of this name. -/
def IsPoint (e : Element) (name : String) : Prop :=
  ∃ c : Class, c.isPoint = true ∧ IsClass e c ∧ (e.attrib.get? "name").map String.ofList = some name

/-- What a name means in the formulas of `e`, after the elements `before`: the point itself, whose place is not yet known, or the last
point of this name. -/
noncomputable def meaning (d : Drawing) (before : List Element) (e : Element) (name : String) : Option (Option (Vec ℝ)) :=
  open Classical in
  if IsPoint e name then some none
  else (before.reverse.find? fun p => IsPoint p name).map fun p => (idAttr p "id").bind d.point

/-- The formula of the attribute `attr` has the value `v`. -/
def Value (compile : Text → Expr) (d : Drawing) (before : List Element) (e : Element) (current : Option (Vec ℝ)) (attr : String) (v : ℝ) :
    Prop :=
  ∃ t, e.attrib.get? attr = some t ∧ compile t ⟨meaning d before e, current⟩ = .ok v

/-- The point that the attribute `attr` refers to is at `p`. -/
def Ref (d : Drawing) (e : Element) (attr : String) (p : Vec ℝ) : Prop := ∃ i, idAttr e attr = some i ∧ d.point i = some p

/-- The place of the point `e`. -/
def place (d : Drawing) (e : Element) : Option (Vec ℝ) := (idAttr e "id").bind d.point

/-- What an element of a class says, where `val current attr v` says that the formula of the attribute `attr` has the value `v`, with the segment
`current`. -/
def SaysWith (val : Option (Vec ℝ) → String → ℝ → Prop) (d : Drawing) (e : Element) : Class → Prop
  | .single => ∃ x y, val none "x" x ∧ val none "y" y ∧ place d e = some ⟨x, y⟩
  | .alongLine => ∃ a b l p, Ref d e "firstPoint" a ∧ Ref d e "secondPoint" b ∧ val (some (b - a)) "length" l ∧
      place d e = some p ∧ AtFrom a b 0 l p
  | .endLine => ∃ a angle l, Ref d e "basePoint" a ∧ val none "angle" angle ∧
      val none "length" l ∧ place d e = some (a + (direction angle).smul l)
  | .lineIntersect => ∃ a b c f, Ref d e "p1Line1" a ∧ Ref d e "p2Line1" b ∧ Ref d e "p1Line2" c ∧ Ref d e "p2Line2" f ∧
      (place d e = none ↔ |(b.x - a.x) * (f.y - c.y) - (b.y - a.y) * (f.x - c.x)| ≤ 5 / 10 ^ 8) ∧
      ∀ p, place d e = some p → (⟨a, b - a⟩ : Line ℝ).Contains p ∧ (⟨c, f - c⟩ : Line ℝ).Contains p
  | .normal => ∃ a b angle l p, Ref d e "firstPoint" a ∧ Ref d e "secondPoint" b ∧
      val (some (b - a)) "angle" angle ∧ val (some (b - a)) "length" l ∧
      place d e = some p ∧ AtFrom a b (90 + angle) l p
  | .pointOfContact => ∃ a b c r, Ref d e "firstPoint" a ∧ Ref d e "secondPoint" b ∧ Ref d e "center" c ∧
      val none "radius" r ∧
      (place d e = none ↔ ∀ p, (⟨a, b - a⟩ : Line ℝ).Contains p → distance p c ≠ |r|) ∧
      ∀ p, place d e = some p → (⟨a, b - a⟩ : Line ℝ).Contains p ∧ distance p c = |r|
  | .pointOfIntersection => ∃ a b, Ref d e "firstPoint" a ∧ Ref d e "secondPoint" b ∧ place d e = some ⟨a.x, b.y⟩
  | .line => True
  | .spline => ∃ a b a1 l1 a2 l2, Ref d e "point1" a ∧ Ref d e "point4" b ∧ val none "angle1" a1 ∧
      val none "length1" l1 ∧ val none "angle2" a2 ∧ val none "length2" l2 ∧
      (idAttr e "id").bind d.control = some (a + (direction a1).smul l1, b + (direction a2).smul l2)

/-- What an element of a class says, with the values that the code gives to the formulas. -/
def Says (compile : Text → Expr) (d : Drawing) (before : List Element) (e : Element) : Class → Prop := SaysWith (Value compile d before e) d e

/-- The attributes of an element which place it: those of references and formulas. -/
def placing (c : Class) : List String :=
  ((Valentina.table c).filter fun r => r.meaning = .reference ∨ r.meaning = .formula).map Valentina.Row.xml

/-- The element has an id, a name if it is a point, and all the attributes that place it. -/
def Complete (e : Element) : Prop :=
  ∀ c, IsClass e c → (e.attrib.get? "id").isSome ∧ (c.isPoint = true → (e.attrib.get? "name").isSome) ∧
    ∀ a ∈ placing c, (e.attrib.get? a).isSome

/-- The drawing of an evaluated sketch. -/
def drawing {F : Type} (ops : List (Operation F)) (st : St) : Drawing where
  point i := (number ops i).bind st.vec
  control i := (number ops i).bind st.ctrl

end Patro.ValPlaces
