import Verif.Model.BezierClip
/-! # Points of a chain of edges -/

namespace Patro.BezierClip

variable {K : Type _} [Field K] [LinearOrder K]

/-- The point `(x, y)` is on an edge of the chain with the vertices `part`. -/
def On (part : List (Vec K)) (x y : K) : Prop :=
  ∃ (i : Nat) (p q : Vec K), part[i]? = some p ∧ part[i + 1]? = some q ∧
    ∃ s : K, 0 ≤ s ∧ s ≤ 1 ∧ x = p.x + s * (q.x - p.x) ∧ y = p.y + s * (q.y - p.y)

/-- The ordinate `y` is at least the threshold, for the top of a hull, at most the threshold for its bottom. -/
def Beyond (top : Bool) (threshold y : K) : Prop := if top then threshold ≤ y else y ≤ threshold

end Patro.BezierClip
