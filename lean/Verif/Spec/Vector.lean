import Verif.Model.Vector
import Mathlib.Analysis.SpecialFunctions.Complex.Arg
/-! # Specification for vectors: the complex plane -/

namespace Patro.Vec

/-- The complex number of a vector. -/
def toComplex (v : Vec ℝ) : ℂ := ⟨v.x, v.y⟩

/-- Two vectors are parallel when they are linearly dependent. -/
def Dependent {K : Type _} [Field K] (v w : Vec K) : Prop :=
  ∃ a b : K, (a ≠ 0 ∨ b ≠ 0) ∧ v.smul a + w.smul b = 0

end Patro.Vec
