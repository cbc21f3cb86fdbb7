import Verif.Model.CalcFunctions
/-!
# Specification: the calls of an expression, the points they name
-/

namespace Patro.CalcFunctions

open Patro.Text (Text)

mutual

/-- The calls of an expression, function and arguments: an outer call before the calls inside it, from left to right. -/
def callsOf : Ast → List (Ast × List Ast)
  | .name _ => []
  | .str _ => []
  | .const => []
  | .attr value _ => callsOf value
  | .call func args keywords => (func, args) :: (callsOf func ++ (callsOfAll args ++ callsOfAll keywords))
  | .other children => callsOfAll children

/-- The calls of several expressions. -/
def callsOfAll : List Ast → List (Ast × List Ast)
  | [] => []
  | a :: l => callsOf a ++ callsOfAll l

end

/-- The call of the special function `Line`. -/
def IsLine (func : Ast) : Prop := func = .attr (.name "__calculator__".toList) "_function_Line".toList

open Classical in
/-- The arguments of the calls of `Line`, in order. -/
noncomputable def lineArguments (calls : List (Ast × List Ast)) : List Ast :=
  calls.flatMap fun c => if IsLine c.1 then c.2 else []

/-- A method is only called on a name: `x.f()`, not `(x.y).f()` nor `g().f()`. -/
def MethodsOfNames (calls : List (Ast × List Ast)) : Prop :=
  ∀ c ∈ calls, ∀ value attr, c.1 = .attr value attr → ∃ id, value = .name id

/-- An argument is the name of a point. -/
def Names {P : Type} (points : Text → Option P) (arg : Ast) (p : P) : Prop := ∃ s, arg = .str s ∧ points s = some p

end Patro.CalcFunctions
