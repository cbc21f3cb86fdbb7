import Verif.Model.Vector
import Mathlib.Analysis.SpecialFunctions.Trigonometric.Basic
/-! # Specification for the axes of inertia of a set of points -/

namespace Patro

noncomputable section

/-- The mean of the squares of the coordinates of the points along the direction of angle `θ`, in degrees. -/
def spread (points : List (Vec ℝ)) (θ : ℝ) : ℝ :=
  (points.map fun p => (p.x * Real.cos (θ * Real.pi / 180) + p.y * Real.sin (θ * Real.pi / 180)) ^ 2).sum / points.length

end

end Patro
