import Verif.Spec.ValPlaces
/-! # What an element of a Valentina file needs in order to be evaluated -/

namespace Patro.ValPlaces

open Valentina (Class Element)
open SketchGeometry (Expr)
open Xml (Text)

/-- The formula of the attribute `attr` has a value. -/
def HasValue (compile : Text → Expr) (d : Drawing) (before : List Element) (e : Element) (current : Option (Vec ℝ)) (attr : String) : Prop :=
  ∃ v, Value compile d before e current attr v

/-- The point that the attribute `attr` refers to has a place. -/
def HasPlace (d : Drawing) (e : Element) (attr : String) : Prop := ∃ p, Ref d e attr p

/-- What an element of a class needs, when the points so far are those of the drawing `d`: the points it refers to have a place, its formulas
have a value, its two points are different if they give a direction or a line which meets a circle, and this line does not touch the circle
in one point. -/
def Needs (compile : Text → Expr) (d : Drawing) (before : List Element) (e : Element) : Class → Prop
  | .single => ∀ attr ∈ ["x", "y"], HasValue compile d before e none attr
  | .alongLine => ∃ a b, Ref d e "firstPoint" a ∧ Ref d e "secondPoint" b ∧ a ≠ b ∧ HasValue compile d before e (some (b - a)) "length"
  | .endLine => HasPlace d e "basePoint" ∧ ∀ attr ∈ ["angle", "length"], HasValue compile d before e none attr
  | .lineIntersect => ∀ attr ∈ ["p1Line1", "p2Line1", "p1Line2", "p2Line2"], HasPlace d e attr
  | .normal => ∃ a b, Ref d e "firstPoint" a ∧ Ref d e "secondPoint" b ∧ a ≠ b ∧
      ∀ attr ∈ ["angle", "length"], HasValue compile d before e (some (b - a)) attr
  | .pointOfContact => ∃ a b c r, Ref d e "firstPoint" a ∧ Ref d e "secondPoint" b ∧ Ref d e "center" c ∧
      Value compile d before e none "radius" r ∧ a ≠ b ∧ ¬ ∃! p, (⟨a, b - a⟩ : Line ℝ).Contains p ∧ distance p c = |r|
  | .pointOfIntersection => ∀ attr ∈ ["firstPoint", "secondPoint"], HasPlace d e attr
  | .line => True
  | .spline => (∀ attr ∈ ["point1", "point4"], HasPlace d e attr) ∧
      ∀ attr ∈ ["angle1", "length1", "angle2", "length2"], HasValue compile d before e none attr

end Patro.ValPlaces
