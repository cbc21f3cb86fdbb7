import Verif.Model.Viewer
/-! # Specification for the viewer and its window -/

namespace Patro.Viewer

open Paper (Viewport)

variable {K : Type} [Field K] [LinearOrder K]

/-- The picture that a viewport of a given size shows, for a point of the scene at its middle and a scale in pixels by millimetre: the y axis of
the viewport goes down. -/
def picture (size center : Vec K) (scale : K) (p : Vec K) : Vec K :=
  ⟨size.x / 2 + scale * (p.x - center.x), size.y / 2 - scale * (p.y - center.y)⟩

/-- A viewport shows a picture: it converts the points in both directions as the picture says, and gives the size, the scale and the area of the
scene that is seen. -/
def Shows (v : Viewport K) (size center : Vec K) (scale : K) : Prop :=
  v.size = some size ∧ v.center = some center ∧ v.scale = scale ∧
    (∀ p, v.sceneToViewport p = .ok (picture size center scale p)) ∧
    (∀ p, v.viewportToScene (picture size center scale p) = .ok p) ∧
    ∃ area : Box K, v.area = some area ∧ picture size center scale ⟨area.xInf, area.ySup⟩ = ⟨0, 0⟩ ∧
      picture size center scale ⟨area.xSup, area.yInf⟩ = size

/-- A viewport that has never been set: no point can be converted. -/
def Blank (v : Viewport K) : Prop :=
  v.center = none ∧ v.area = none ∧
    ∀ p, v.sceneToViewport p = .error .attributeError ∧ v.viewportToScene p = .error .attributeError

/-- A box which is not reduced to a point. -/
def Proper (b : Box K) : Prop := b.xInf ≤ b.xSup ∧ b.yInf ≤ b.ySup ∧ (b.xInf < b.xSup ∨ b.yInf < b.ySup)

/-- The events that are considered: the sizes are positive and the boxes are proper. There is no condition on what the user does. -/
def Event.Fair : Event K → Prop
  | .resize size => 0 < size.x ∧ 0 < size.y
  | .setScene _ _ box => ∀ b, box = some b → Proper b
  | .edit _ box => ∀ b, box = some b → Proper b
  | _ => True

/-- The size in an event. -/
def Event.size : Event K → Option (Vec K)
  | .resize size => some size
  | _ => none

/-- The last size that was given. -/
def lastSize (events : List (Event K)) : Option (Vec K) := (events.filterMap Event.size).getLast?

end Patro.Viewer
