import Verif.Model.Scene
/-! # Specification for scenes -/

namespace Patro.Scene

variable {K S G : Type} [Field K] [LinearOrder K]

/-- One call of the API of a scene or of one of its items. The identity of a new item is the one of no other item. -/
inductive Step (sh : Shapes K S G) : Scene K S G → Scene K S G → Prop
  | addItem (s) (id : Nat) (shape : S) (positions) (userData) (fresh : id ∉ s.items.keys) : Step sh s (s.addItem id shape positions userData)
  | removeItem (s) (id : Nat) : Step sh s (s.removeItem id).2
  | setZ (s) (id : Nat) (z : K) : Step sh s (s.modify id fun i => { i with z := z })
  | setVisible (s) (id : Nat) (b : Bool) : Step sh s (s.modify id fun i => { i with visible := b })
  | setSelected (s) (id : Nat) (b : Bool) : Step sh s (s.modify id fun i => { i with selected := b })
  | setDirty (s) (id : Nat) (b : Bool) : Step sh s (s.modify id fun i => i.setDirty b)
  | unselectItems (s) : Step sh s s.unselectItems
  | readGeometry (s) (id : Nat) : Step sh s (s.modify id fun i => (s.itemGeometry sh i).2)
  | readBox (s) (id : Nat) : Step sh s (s.modify id fun i => (s.itemBox sh i).2)
  | readDistance (s) (id : Nat) (p : Vec K) : Step sh s (s.modify id fun i => (s.itemDistance sh i p).2)
  | addCoordinate (s) (n : String) (p : Vec K) : Step sh s (s.addCoordinate n p)
  | removeCoordinate (s s') (n : String) (h : s.removeCoordinate n = .ok s') : Step sh s s'
  | updateRtree (s) : Step sh s (s.updateRtree sh).2
  | itemAt (s) (p : Vec K) (r : K) : Step sh s (s.itemAt sh p r).2

/-- The scenes that can be reached from an empty one. -/
inductive Reachable (sh : Shapes K S G) : Scene K S G → Prop
  | empty (t : Vec K → Vec K) : Reachable sh { transformation := t }
  | step {s s'} (h : Reachable sh s) (st : Step sh s s') : Reachable sh s'

/-- The square around a position. -/
def square (p : Vec K) (r : K) : Box K := ⟨p.x - r, p.x + r, p.y - r, p.y + r⟩

/-- Bounding boxes do bound: a shape within a distance of a point has a box which meets the square of this half side around it. -/
def Sound (sh : Shapes K S G) : Prop :=
  ∀ g b p d r, sh.boundingBox g = .ok b → sh.distance g p = .ok (some d) → d ≤ r → b.Meets (square p r)

end Patro.Scene
