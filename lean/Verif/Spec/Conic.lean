import Verif.Model.Conic
import Verif.Spec.Transformation
/-! # Specification for angular domains and circles -/

namespace Patro.Conic

/-- The angle (in degrees) is, up to full turns, in the sector swept counter-clockwise over `sweep` degrees from `start`. -/
def InSector (start sweep angle : ℝ) : Prop := ∃ (k : ℤ) (s : ℝ), 0 ≤ s ∧ s ≤ sweep ∧ angle = start + s + 360 * k

/-- The number of degrees swept counter-clockwise from the start to the stop of a domain, whose bounds are in [0, 360]. -/
noncomputable def Domain.sweep (d : Domain ℝ) : ℝ := if d.start ≤ d.stop then d.stop - d.start else d.stop - d.start + 360

/-- The point at an angle on a circle. -/
noncomputable def onCircle (center : Vec ℝ) (radius angle : ℝ) : Vec ℝ :=
  ⟨center.x + radius * Real.cos (angle * Real.pi / 180), center.y + radius * Real.sin (angle * Real.pi / 180)⟩

/-- The points of a circle. -/
def circlePoints (center : Vec ℝ) (radius : ℝ) : Set (Vec ℝ) := {q | distance q center = radius}

/-- The points of the arc swept counter-clockwise over `sweep` degrees from `start`. -/
def arcPoints (center : Vec ℝ) (radius start sweep : ℝ) : Set (Vec ℝ) :=
  {q | ∃ s, 0 ≤ s ∧ s ≤ sweep ∧ q = onCircle center radius (start + s)}

end Patro.Conic
