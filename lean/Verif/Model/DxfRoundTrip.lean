import Verif.Model.Painters
import Verif.Model.DxfImport
/-!
# A scene saved as a DXF file and imported again

`EzdxfPainter` (Patro/GraphicEngine/Painter/DxfPainter.py:59-155) writes the file, `DxfImporter` (Patro/FileFormat/Dxf/Importer.py:42-170)
reads it. The file itself is made and read by ezdxf, which is external: `written` is what it is assumed to give back.
-/

namespace Patro.DxfRoundTrip

noncomputable section

/-- The entity ezdxf gives back for one it has written: `add_text` (DxfPainter.py:127), `add_line` (DxfPainter.py:139-142) and
`add_open_spline` (DxfPainter.py:151-155). Assumption on ezdxf: a line is read with the coordinates it was written with and a null z; an open
spline has its control points and its degree, `knots` chosen by ezdxf, no weights and no fit points, and is not closed. -/
def written (knots : List ℝ) : Painters.Entity ℝ → DxfImport.Entity
  | .text _ _ => .other "TEXT"
  | .line p q _ => .line (p.x, p.y, 0) (q.x, q.y, 0)
  | .openSpline points degree _ => .spline points degree false knots [] []

/-- `EzdxfPainter(path, scene, paper)` (DxfPainter.py:83-101) then `DxfImporter(path)` (Importer.py:49-55). -/
def saveAndImport {G : Type} (knots : List ℝ) (s : Scene.Scene ℝ (Painters.Shape ℝ) G) : Except PyErr (List DxfImport.Item) := do
  let entities ← Painters.ezdxfPainter s
  DxfImport.new (entities.map (written knots))

end

end Patro.DxfRoundTrip
