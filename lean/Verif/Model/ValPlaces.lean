import Verif.Model.Valentina
import Verif.Model.SketchGeometry
/-!
# The evaluation of a sketch that was read from a file

The operations of `Verif.Model.Valentina`, which refer to each other by id, as the operations of `Verif.Model.SketchGeometry`, which
refer to each other by position. What `Expression` makes of the text of a formula (Calculator.py:255-347) is the parameter
`compile`.
-/

namespace Patro.ValPlaces

open Valentina (Operation Sketch)
open SketchGeometry (Expr Op)
open Xml (Text)

variable {F : Type}

/-- The position of the operation with an id. -/
def number (ops : List (Operation F)) (id : Int) : Option Nat := ops.findIdx? fun o => decide (o.id = id)

/-- A property which is an operation (SketchOperation.py:107-118). -/
def refOf (ops : List (Operation F)) (o : Operation F) (name : String) : Option Nat :=
  match o.fields.get? name with
  | some (some (.op i)) => number ops i
  | _ => none

/-- A property which is an expression (SketchOperation.py:122-123). -/
def exprOf (compile : Text → Expr) (o : Operation F) (name : String) : Option Expr :=
  match o.fields.get? name with
  | some (some (.expr t)) => some (compile t)
  | _ => none

/-- The name of a point. A point without name is left out of this model. -/
def nameOf (o : Operation F) : Option String :=
  match o.fields.get? "name" with
  | some (some (.text t)) => some (String.ofList t)
  | _ => none

/-- The operation as it is evaluated: the attributes which `eval_internal` reads (SketchOperation.py:405-800). -/
def toOp (compile : Text → Expr) (ops : List (Operation F)) (o : Operation F) : Option Op :=
  match o.cls with
  | .single => do
    return .single (← nameOf o) (← exprOf compile o "x") (← exprOf compile o "y")
  | .alongLine => do
    return .along (← nameOf o) (← refOf ops o "first_point") (← refOf ops o "second_point") (← exprOf compile o "length")
  | .endLine => do
    return .endLine (← nameOf o) (← refOf ops o "base_point") (← exprOf compile o "angle") (← exprOf compile o "length")
  | .lineIntersect => do
    return .lineIntersect (← nameOf o) (← refOf ops o "point1_line1") (← refOf ops o "point2_line1") (← refOf ops o "point1_line2")
      (← refOf ops o "point2_line2")
  | .normal => do
    return .normal (← nameOf o) (← refOf ops o "first_point") (← refOf ops o "second_point") (← exprOf compile o "angle")
      (← exprOf compile o "length")
  | .pointOfContact => do
    return .contact (← nameOf o) (← refOf ops o "first_point") (← refOf ops o "second_point") (← refOf ops o "center")
      (← exprOf compile o "radius")
  | .pointOfIntersection => do
    return .intersection (← nameOf o) (← refOf ops o "first_point") (← refOf ops o "second_point")
  | .line => do
    return .line (← refOf ops o "first_point") (← refOf ops o "second_point")
  | .spline => do
    return .spline (← refOf ops o "first_point") (← refOf ops o "second_point") (← exprOf compile o "angle1") (← exprOf compile o "length1")
      (← exprOf compile o "angle2") (← exprOf compile o "length2")

/-- The operations of a sketch, as `Sketch.eval` meets them (Sketch.py:108-119). -/
def toOps (compile : Text → Expr) (ops : List (Operation F)) : Option (List Op) := ops.mapM (toOp compile ops)

end Patro.ValPlaces
