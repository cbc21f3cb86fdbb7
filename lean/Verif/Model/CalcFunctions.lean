import Verif.Model.SketchGeometry
import Verif.Model.Calculator
/-!
# Model of the special functions of the calculator and of the dependencies of an expression
(`Patro/Pattern/Calculator.py`)

The result of `ast.parse` is a tree of Python's `ast` module, cut down to the nodes `NodeVisitor` looks at.
-/

namespace Patro.CalcFunctions

open Patro.Text (Text)
open Patro.SketchGeometry (Env Err lift)

/-! ## Dependencies -/

/-- A Python expression tree: names, string constants, other constants, attributes `value.attr`, calls, and every other node with
its children in the order of its fields. The keyword arguments of a call are children like the arguments. -/
inductive Ast where
  | name (id : Text)
  | str (s : Text)
  | const
  | attr (value : Ast) (attr : Text)
  | call (func : Ast) (args : List Ast) (keywords : List Ast)
  | other (children : List Ast)

/-- `function.value.id` where `function` is an `ast.Attribute`: only names have an `id` (Calculator.py:69). -/
def baseId : Ast → Except PyErr Text
  | .name id => .ok id
  | _ => .error .attributeError

/-- `self._calculator._name_to_point(arg.s)` (Calculator.py:73, 132-133): only constants have an `s`; a constant which is not a
string is no name of a point. -/
def argPoint {P : Type} (points : Text → Option P) : Ast → Except PyErr P
  | .str s => match points s with
    | some p => .ok p
    | none => .error .keyError
  | .const => .error .keyError
  | _ => .error .attributeError

/-- The loop over the arguments (Calculator.py:72-74). -/
def argPoints {P : Type} (points : Text → Option P) : List Ast → Except PyErr (List P)
  | [] => .ok []
  | a :: l => do
    let p ← argPoint points a
    return p :: (← argPoints points l)

/-- What `visit_Call` does before it visits the children (Calculator.py:68-74). -/
def callPoints {P : Type} (points : Text → Option P) (func : Ast) (args : List Ast) : Except PyErr (List P) :=
  match func with
  | .attr value attr => do
    let id ← baseId value
    if id = "__calculator__".toList then
      if attr = "_function_Line".toList then argPoints points args else .ok []
    else .ok []
  | _ => .ok []

mutual

/-- `NodeVisitor.visit` (Calculator.py:63-76, `ast.NodeVisitor.generic_visit`): the points appended to `_dependencies`. -/
def visit {P : Type} (points : Text → Option P) : Ast → Except PyErr (List P)
  | .name _ => .ok []
  | .str _ => .ok []
  | .const => .ok []
  | .attr value _ => visit points value
  | .call func args keywords => do
    let own ← callPoints points func args
    let f ← visit points func
    let a ← visitAll points args
    let k ← visitAll points keywords
    return own ++ (f ++ (a ++ k))
  | .other children => visitAll points children

/-- The children one after the other. -/
def visitAll {P : Type} (points : Text → Option P) : List Ast → Except PyErr (List P)
  | [] => .ok []
  | a :: l => do
    let x ← visit points a
    let y ← visitAll points l
    return x ++ y

end

/-- The tree of the text written by `_compile` for a call such as `Line_A_B` (Calculator.py:302-305). -/
def specialCall (function : Text) (args : List Text) : Ast :=
  .call (.attr (.name "__calculator__".toList) ("_function_".toList ++ function)) (args.map .str) []

/-! ## The special functions -/

noncomputable section

/-- `_name_to_vector_point(name)` (Calculator.py:137-138). -/
def vectorPoint (env : Env) (name : String) : Except PyErr (Option (Vec ℝ)) :=
  match env.points name with
  | some v => .ok v
  | none => .error .keyError

/-- `point1, point2 = self._names_to_vector_points(point_name1, point_name2)` (Calculator.py:142-143, 163). -/
def vectorPoints (env : Env) (n1 n2 : String) : Except PyErr (Option (Vec ℝ) × Option (Vec ℝ)) := do
  let v1 ← vectorPoint env n1
  let v2 ← vectorPoint env n2
  return (v1, v2)

/-- `point2 - point1`: `None` on either side raises (`TypeError` on the left, `AttributeError` on the right, where `other.v` is
read). -/
def difference : Option (Vec ℝ) → Option (Vec ℝ) → Except PyErr (Vec ℝ)
  | some p1, some p2 => .ok (p2 - p1)
  | _, none => .error .typeError
  | none, some _ => .error .attributeError

/-- The functions `_function_…(point_name1, point_name2)` and `_function_CurrentLength()` (Calculator.py:162-191): a call with a
wrong number of arguments is a `TypeError`, an unknown function an `AttributeError`. -/
def callFunction (env : Env) (function : String) (args : List String) : Except PyErr ℝ :=
  if function = "CurrentLength" then
    match args with
    | [] => match env.current with
      | some v => .ok v.magnitude
      | none => .error .attributeError
    | _ => .error .typeError
  else if function = "Line" then
    match args with
    | [a, b] => do
      let (p1, p2) ← vectorPoints env a b
      let d ← difference p1 p2
      return d.magnitude
    | _ => .error .typeError
  else if function = "AngleLine" then
    match args with
    | [a, b] => do
      let (p1, p2) ← vectorPoints env a b
      let d ← difference p1 p2
      return d.orientation
    | _ => .error .typeError
  else if function ∈ ["Angle1Spl", "Angle2Spl", "C1LengthSpl", "C2LengthSpl", "Spl"] then
    match args with
    | [a, b] => do
      let _ ← vectorPoints env a b
      return 0
    | _ => .error .typeError
  else .error .attributeError

end

end Patro.CalcFunctions
