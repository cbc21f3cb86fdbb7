import Verif.Spec.SketchGeometry
/-! # When an operation of a sketch can be evaluated -/

namespace Patro.SketchGeometry

/-- What an operation needs in order to be evaluated: the points it refers to have a place and its expressions have a value; the two points of a
line which gives a direction, or which meets a circle, are different, and the line does not touch the circle in one point. -/
def Placeable (vec : Nat → Option (Vec ℝ)) (env : Env) : Op → Prop
  | .single _ x y => (∃ v, x env = .ok v) ∧ ∃ v, y env = .ok v
  | .along _ f s l => (∃ a b, vec f = some a ∧ vec s = some b ∧ a ≠ b) ∧ ∃ v, l env = .ok v
  | .endLine _ b a l => (∃ p, vec b = some p) ∧ (∃ v, a env = .ok v) ∧ ∃ v, l env = .ok v
  | .lineIntersect _ a b c d => ∀ j ∈ [a, b, c, d], ∃ p, vec j = some p
  | .normal _ f s a l => (∃ a b, vec f = some a ∧ vec s = some b ∧ a ≠ b) ∧ (∃ v, a env = .ok v) ∧ ∃ v, l env = .ok v
  | .contact _ f s c r => ∃ a b o v, vec f = some a ∧ vec s = some b ∧ vec c = some o ∧ r env = .ok v ∧ a ≠ b ∧
      ¬ ∃! p, (⟨a, b - a⟩ : Line ℝ).Contains p ∧ distance p o = |v|
  | .intersection _ f s => ∀ j ∈ [f, s], ∃ p, vec j = some p
  | .line .. => True
  | .spline f s a1 l1 a2 l2 => (∀ j ∈ [f, s], ∃ p, vec j = some p) ∧ ∀ e ∈ [a1, l1, a2, l2], ∃ v, e env = .ok v

end Patro.SketchGeometry
