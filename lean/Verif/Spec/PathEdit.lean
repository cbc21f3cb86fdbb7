import Verif.Model.PathEdit
/-! # Specification for the parts of a path as mutable objects -/

namespace Patro.PathEdit

noncomputable section

/-- The values a user can read of the parts of a path. -/
inductive Read where
  | direction (i : Nat)
  | bissector (i : Nat)
  | bulgeAngle (i : Nat)
  | bulgeCenter (i : Nat)
  | bulgeStart (i : Nat)
  | bulgeStop (i : Nat)
  | arc (i : Nat) (radius : ℝ)
  | points (i : Nat)

/-- The path after a reading. -/
def Read.after (o : Obj) : Read → Obj
  | .direction i => (PathEdit.direction i o).2
  | .bissector i => (PathEdit.bissector i o).2
  | .bulgeAngle i => (bulgeAngleRad i o).2
  | .bulgeCenter i => (PathEdit.bulgeCenter i o).2
  | .bulgeStart i => (PathEdit.bulgeStart i o).2
  | .bulgeStop i => (PathEdit.bulgeStop i o).2
  | .arc i radius => (bulgeGeometry i radius o).2
  | .points i => (PathEdit.points i o).2

/-- What is read is the same on two objects, for every part and every value. -/
structure SameReadings (o o' : Obj) : Prop where
  direction : ∀ i, (PathEdit.direction i o).1 = (PathEdit.direction i o').1
  bissector : ∀ i, (PathEdit.bissector i o).1 = (PathEdit.bissector i o').1
  bulgeAngle : ∀ i, (bulgeAngleRad i o).1 = (bulgeAngleRad i o').1
  bulgeCenter : ∀ i, (PathEdit.bulgeCenter i o).1 = (PathEdit.bulgeCenter i o').1
  bulgeStart : ∀ i, (PathEdit.bulgeStart i o).1 = (PathEdit.bulgeStart i o').1
  bulgeStop : ∀ i, (PathEdit.bulgeStop i o).1 = (PathEdit.bulgeStop i o').1
  arc : ∀ i radius, (bulgeGeometry i radius o).1 = (bulgeGeometry i radius o').1
  points : ∀ i, (PathEdit.points i o).1 = (PathEdit.points i o').1

end

end Patro.PathEdit
