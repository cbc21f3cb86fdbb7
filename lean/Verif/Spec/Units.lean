import Verif.Model.Units
import Mathlib.Algebra.CharZero.Defs
/-! # Specification of units -/

namespace Patro.Units

variable {K : Type} [Field K]

/-- The length in millimetres: an inch is 25.4 mm, and 72 points. -/
def Length.inMm : Length K → K
  | .mm v => v
  | .inch v => v * (254 / 10)
  | .point v => v * (254 / 720)

/-- The unit of a length. -/
inductive Unit' where
  | mm
  | inch
  | point
deriving DecidableEq

def Length.unit : Length K → Unit'
  | .mm _ => .mm
  | .inch _ => .inch
  | .point _ => .point

/-- A conversion to a unit keeps the length and gives this unit. -/
def Converts (a b : Length K) (u : Unit') : Prop := b.unit = u ∧ b.inMm = a.inMm

/-- Linear density in gram per metre: tex counts grams per kilometre, denier grams per nine kilometres, the metric number metres per gram. -/
def texDensity (x : K) : K := x / 1000
def denDensity (x : K) : K := x / 9000
def nmDensity (x : K) : K := 1 / x

end Patro.Units
