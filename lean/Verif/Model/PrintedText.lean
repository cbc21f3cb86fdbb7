import Verif.Model.Printed
import Verif.Model.TexFigure
import Verif.Model.SvgPath
/-!
# Model of the way from a sketch to a TeX document, and of what the SVG painter does with the data of a path

As in `Model/Printed.lean`, the scene of `Sketch.detail_scene` is given to the painter.
-/

namespace Patro.Printed

open Xml (Text)

/-- What the TeX painter reads of an item (Patro/GraphicEngine/Painter/TexPainter.py:121-143): its positions are kept as they are, and the radius
is not used. -/
def texItem (str : Style.Value → Text) (i : Scene.Item ℝ Detail.Shape Unit) : Tex.Item ℝ :=
  let shape := painterShape str i.shape
  ⟨shape.kind, i.positions, shape.text, shape.radius, shape.style⟩

/-- `self._scene.coordinates` (Patro/GraphicEngine/GraphicScene/Scene.py:121-123, TexPainter.py:107-117): the names and the positions, in the
order of the insertion. -/
def texCoordinates (s : Detail.Sc) : List (String × Scene.Position ℝ) := s.coordinates.map fun c => (c.1, .vector c.2)

/-- The items painted, in the order of `z_value_iter` (Patro/GraphicEngine/Painter/Painter.py:109-119). -/
noncomputable def texItems (str : Style.Value → Text) (s : Detail.Sc) : Except PyErr (List (Tex.Item ℝ)) :=
  s.zValueIter.map fun l => l.map (texItem str)

/-- What the constructor of `SvgFormat.Path` does with the data of a path (Patro/Common/Xml/Objectivity.py:284-294,
Patro/FileFormat/Svg/SvgFormat.py:958-1004): it reads it, and only an exception matters. For a text that makes the parser run for ever or gives a
letter for an argument, which the SVG painter does not write, any value would do. -/
noncomputable def readPathData (float : Text → Option ℝ) (t : Text) : Except PyErr Unit :=
  match SvgPath.fromXml float (t.length + 1) t with
  | some (.ok _) => .ok ()
  | some (.error e) => .error e
  | none => .error .valueError

end Patro.Printed
