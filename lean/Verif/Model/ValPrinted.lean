import Verif.Model.ValPlaces
import Verif.Model.Printed
/-!
# The drawing of a sketch that was read from a file

The operations of `Verif.Model.Valentina` as the operations which `Verif.Model.Detail` draws.
-/

namespace Patro.ValPrinted

open Valentina (Operation Sketch Val)
open SketchGeometry (Expr)
open Detail (Drawn)
open Xml (Text)

variable {F : Type}

/-- `operation.line_style` and `operation.line_color` (SketchOperation.py:216-240). Other values than stroke styles, colours, texts and `None`
do not occur; an operation of a class without these properties is never asked for them. -/
def valueOf : Option (Option (Val F)) → Style.Value
  | some (some (.stroke s)) => .stroke s
  | some (some (.color c)) => .color c
  | some (some (.text t)) => .text t
  | _ => .none

/-- `operation.label_offset` (SketchOperation.py:385-387), which only a point has. -/
def offsetOf (real : F → ℝ) : Option (F × F) → Vec ℝ
  | some (x, y) => ⟨real x, real y⟩
  | none => ⟨0, 0⟩

/-- The operation as it is drawn: what `detail_scene` reads (Sketch.py:155-246). `real` is the number a float stands for. -/
def toDrawn (compile : Text → Expr) (real : F → ℝ) (ops : List (Operation F)) (o : Operation F) : Option Drawn :=
  match ValPlaces.toOp compile ops o with
  | none => none
  | some op => some
    { op := op
      labelOffset := offsetOf real o.offset
      lineStyle := valueOf (o.fields.get? "line_style")
      lineColor := valueOf (o.fields.get? "line_color") }

/-- The operations of a sketch, as `detail_scene` meets them (Sketch.py:183). -/
def toDrawns (compile : Text → Expr) (real : F → ℝ) (ops : List (Operation F)) : Option (List Drawn) :=
  ops.mapM (toDrawn compile real ops)

end Patro.ValPrinted
