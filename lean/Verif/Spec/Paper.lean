import Verif.Model.Paper
/-! # Specification for papers, tiles and viewports -/

namespace Patro.Paper

variable {K : Type} [Field K] [LinearOrder K]

/-- A point of a closed box. -/
def Within (p : Vec K) (b : Box K) : Prop := b.xInf ≤ p.x ∧ p.x ≤ b.xSup ∧ b.yInf ≤ p.y ∧ p.y ≤ b.ySup

/-- A point in the inside of a box. -/
def Inside (p : Vec K) (b : Box K) : Prop := b.xInf < p.x ∧ p.x < b.xSup ∧ b.yInf < p.y ∧ p.y < b.ySup

/-- Tiles cover a box: each point of the box is on a tile. -/
def Covers (l : List (Tile K)) (b : Box K) : Prop := ∀ p, Within p b → ∃ t ∈ l, Within p t.interval

end Patro.Paper
