import Verif.Model.DxfRoundTrip
import Verif.Spec.Painters
import Verif.Spec.DxfImport
/-! # Specification of a scene saved as a DXF file and imported again -/

namespace Patro.DxfRoundTrip

open Painters (Shape Points PaintOrder)

noncomputable section

variable {G : Type}

/-- A segment or a cubic curve: what a DXF file keeps of a scene. -/
def drawn (i : Scene.Item ℝ (Shape ℝ) G) : Bool := i.shape.kind == .segment || i.shape.kind == .cubicBezier

/-- The point at `t` of the Bézier curve of control points `p`, `q`, `r` and `s`, by the polynomials of Bernstein. -/
def bezier (p q r s : Vec ℝ) (t : ℝ) : Vec ℝ :=
  ⟨(1 - t) ^ 3 * p.x + 3 * t * (1 - t) ^ 2 * q.x + 3 * t ^ 2 * (1 - t) * r.x + t ^ 3 * s.x,
   (1 - t) ^ 3 * p.y + 3 * t * (1 - t) ^ 2 * q.y + 3 * t ^ 2 * (1 - t) * r.y + t ^ 3 * s.y⟩

/-- A point `k` times further from the origin. -/
def scaled (k : ℝ) (p : Vec ℝ) : Vec ℝ := ⟨k * p.x, k * p.y⟩

/-- The item `j` of an importer is the item `i` of the scene, `k` times larger: a segment has the same ends, a cubic curve is a spline with the
same point at every parameter from 0 to 1, and no other parameter. -/
def Gives (s : Scene.Scene ℝ (Shape ℝ) G) (k : ℝ) (i : Scene.Item ℝ (Shape ℝ) G) (j : DxfImport.Item) : Prop :=
  (i.shape.kind = .segment ∧ ∃ p q, Points s i [p, q] ∧ j = .segment ⟨scaled k p, scaled k q⟩) ∨
  (i.shape.kind = .cubicBezier ∧ ∃ p q r t b, Points s i [p, q, r, t] ∧ j = .spline b ∧
    (∀ x, 0 ≤ x → x ≤ 1 → b.pointAt x = .ok (scaled k (bezier p q r t x))) ∧ ∀ x, x < 0 ∨ 1 < x → b.pointAt x = .error .valueError)

end

end Patro.DxfRoundTrip
