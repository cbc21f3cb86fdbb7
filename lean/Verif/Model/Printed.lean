import Verif.Model.Detail
import Verif.Model.Painters
/-!
# Model of the way from a sketch to a file: the scene of `Sketch.detail_scene` given to the painters

`Model/Detail.lean` makes the scene, with the attributes of the items as they are set, and `Model/Painters.lean` reads a scene, of whose items
it keeps what the painters read. Nothing happens in between: the scene is given to the constructor of the painter
(Patro/GraphicEngine/Painter/Painter.py:94-101).
-/

namespace Patro.Printed

open Xml (Text)

/-- What a painter reads of a path style: `str` is what it makes of the line width (Patro/GraphicEngine/GraphicScene/GraphicStyle.py:96-184). -/
def painterStyle (str : Style.Value → Text) (p : Style.PathStyle) : Tex.PathStyle := ⟨p.strokeStyle, str p.lineWidth, p.strokeColor⟩

/-- What a painter reads of an item (Patro/GraphicEngine/GraphicScene/GraphicItem.py:76-110, 112-140, 205-225, 316-351). No painter but TeX reads
the radius, which is left out; a text has no path style. -/
def painterShape (str : Style.Value → Text) : Detail.Shape → Painters.Shape ℝ
  | .circle _ p => ⟨.circle, [], 0, painterStyle str p⟩
  | .segment p => ⟨.segment, [], 0, painterStyle str p⟩
  | .text t _ => ⟨.text, t.toList, 0, ⟨.solidLine, str (.num 1), none⟩⟩
  | .cubic p => ⟨.cubicBezier, [], 0, painterStyle str p⟩

/-- The item, as the painter sees it. -/
def painterItem (str : Style.Value → Text) (i : Scene.Item ℝ Detail.Shape Unit) : Scene.Item ℝ (Painters.Shape ℝ) Unit :=
  { shape := painterShape str i.shape, positions := i.positions, userData := i.userData, z := i.z, visible := i.visible,
    selected := i.selected, dirty := i.dirty, geometry := i.geometry, boundingBox := i.boundingBox }

/-- The scene, as the painter sees it: `self._scene` (Painter.py:94-101). -/
def painterScene (str : Style.Value → Text) (s : Detail.Sc) : Scene.Scene ℝ (Painters.Shape ℝ) Unit :=
  { transformation := s.transformation, coordinates := s.coordinates, items := s.items.map fun e => (e.1, painterItem str e.2),
    userDataMap := s.userDataMap, rtree := s.rtree, boxes := s.boxes }

end Patro.Printed
