import Verif.Model.SketchGeometry
import Verif.Spec.Line
/-! # Specification for the points of a sketch -/

namespace Patro.SketchGeometry

/-- The unit vector at an angle in degrees. -/
noncomputable def direction (angle : ℝ) : Vec ℝ := ⟨Real.cos (angle * Real.pi / 180), Real.sin (angle * Real.pi / 180)⟩

/-- `p` is at the signed distance `l` of `a` in the direction of `b` turned counter-clockwise by `angle` degrees. -/
def AtFrom (a b : Vec ℝ) (angle l : ℝ) (p : Vec ℝ) : Prop :=
  a ≠ b ∧ ∃ k, k * distance a b = l ∧
    p.x - a.x = k * ((b.x - a.x) * Real.cos (angle * Real.pi / 180) - (b.y - a.y) * Real.sin (angle * Real.pi / 180)) ∧
    p.y - a.y = k * ((b.x - a.x) * Real.sin (angle * Real.pi / 180) + (b.y - a.y) * Real.cos (angle * Real.pi / 180))

/-- The geometric definition of the operation of number `i`, on the points of the sketch (`vec`), the control points (`ctrl`) and
the values of the expressions (`value`). -/
def Satisfies (vec : Nat → Option (Vec ℝ)) (ctrl : Nat → Option (Vec ℝ × Vec ℝ)) (value : Nat → Nat → Option ℝ) (i : Nat) :
    Op → Prop
  | .single .. => ∃ x y, value i 0 = some x ∧ value i 1 = some y ∧ vec i = some ⟨x, y⟩
  | .along _ f s _ => ∃ a b l p, vec f = some a ∧ vec s = some b ∧ value i 0 = some l ∧ vec i = some p ∧ AtFrom a b 0 l p
  | .endLine _ b _ _ => ∃ a angle l p, vec b = some a ∧ value i 0 = some angle ∧ value i 1 = some l ∧ vec i = some p ∧
      p = a + (direction angle).smul l
  | .lineIntersect _ p1 p2 p3 p4 => ∃ a b c d, vec p1 = some a ∧ vec p2 = some b ∧ vec p3 = some c ∧ vec p4 = some d ∧
      (vec i = none ↔ |(b.x - a.x) * (d.y - c.y) - (b.y - a.y) * (d.x - c.x)| ≤ 5 / 10 ^ 8) ∧
      ∀ p, vec i = some p → (⟨a, b - a⟩ : Line ℝ).Contains p ∧ (⟨c, d - c⟩ : Line ℝ).Contains p
  | .normal _ f s _ _ => ∃ a b angle l p, vec f = some a ∧ vec s = some b ∧ value i 0 = some angle ∧ value i 1 = some l ∧
      vec i = some p ∧ AtFrom a b (90 + angle) l p
  | .contact _ f s c _ => ∃ a b o r, vec f = some a ∧ vec s = some b ∧ vec c = some o ∧ value i 0 = some r ∧
      (vec i = none ↔ ∀ p, (⟨a, b - a⟩ : Line ℝ).Contains p → distance p o ≠ |r|) ∧
      ∀ p, vec i = some p → (⟨a, b - a⟩ : Line ℝ).Contains p ∧ distance p o = |r|
  | .intersection _ f s => ∃ a b, vec f = some a ∧ vec s = some b ∧ vec i = some ⟨a.x, b.y⟩
  | .line .. => True
  | .spline f s _ _ _ _ => ∃ a b a1 l1 a2 l2, vec f = some a ∧ vec s = some b ∧ value i 0 = some a1 ∧ value i 1 = some l1 ∧
      value i 2 = some a2 ∧ value i 3 = some l2 ∧ ctrl i = some (a + (direction a1).smul l1, b + (direction a2).smul l2)

/-- Operations refer to operations created before them. -/
def WellFormed (ops : List Op) : Prop := ∀ (i : Nat) (o : Op), ops[i]? = some o → ∀ j ∈ o.refs, j < i

/-- The expressions of an operation, in the order of their positions. -/
def Op.exprs : Op → List Expr
  | .single _ x y => [x, y]
  | .along _ _ _ l => [l]
  | .endLine _ _ a l => [a, l]
  | .normal _ _ _ a l => [a, l]
  | .contact _ _ _ _ r => [r]
  | .spline _ _ a1 l1 a2 l2 => [a1, l1, a2, l2]
  | .lineIntersect .. | .intersection .. | .line .. => []

/-- The segment that `CurrentLength` refers to in the expressions of an operation. -/
def Op.current (vec : Nat → Option (Vec ℝ)) : Op → Option (Vec ℝ)
  | .along _ f s _ | .normal _ f s _ _ => do
    let a ← vec f
    let b ← vec s
    return b - a
  | _ => none

/-- The point that a name means for the expressions of the operation of number `i`: the last point with this name up to the
operation itself, whose own vector is not yet known. -/
def visible (ops : List Op) (vec : Nat → Option (Vec ℝ)) (i : Nat) (n : String) : Option (Option (Vec ℝ)) :=
  ((List.range (i + 1)).reverse.find? fun j => ops[j]?.bind Op.name = some n).map fun j => if j < i then vec j else none

end Patro.SketchGeometry
