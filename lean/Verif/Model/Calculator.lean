import Verif.Model.Py
import Verif.Model.Text
import Verif.Model.Xml
/-!
# Model of `Patro/Pattern/Calculator.py`

The text rewriting of `Expression._compile` is modelled; parsing, compiling and running the rewritten Python
expression (`ast.parse`, `compile`, `eval`) are parameters here; `Model/Formula.lean` models them for arithmetic expressions.
-/

namespace Patro.Calculator

open Patro
open Patro.Text (Text find replace)

/-! ## Identifier scan -/

/-- The characters accepted inside an identifier (Calculator.py:252). -/
def isIdent (c : Char) : Bool :=
  ('a' ≤ c && c ≤ 'z') || ('A' ≤ c && c ≤ 'Z') || ('0' ≤ c && c ≤ '9') || c = '_'

/-- `Expression._find_identifier(prefix, start)` (Calculator.py:241-256): the identifier found and the position
where the next search starts. `none` stands for `(None, None)`. -/
def findIdentifier (expression pre : Text) (start : Nat) : Option (Text × Nat) :=
  match find pre expression start with
  | none => none
  | some s =>
    let tail := (expression.drop (s + 1)).takeWhile isIdent
    let index := s + 1 + tail.length
    some ((expression.drop s).take (index - s), index + 1)

/-- The `while True` loop collecting identifiers (Calculator.py:269-276 and 293-299).  `fuel` only serves to define
the loop: `scan_terminates` shows that it never runs out when it exceeds the length of the text. -/
def scan (expression pre : Text) : Nat → Nat → Option (List Text)
  | 0, _ => none
  | fuel + 1, start =>
    match findIdentifier expression pre start with
    | none => some []
    | some (name, next) => (scan expression pre fuel next).map (name :: ·)

/-- All the identifiers found. -/
def identifiers (expression pre : Text) : List Text :=
  (scan expression pre (expression.length + 2) 0).getD []

/-! ## Rewriting -/

/-- Rewriting of the custom measurements (Calculator.py:262-279). `pyName` is
`self._calculator.measurements[measurement].name`. Each turn restarts from the original expression. -/
def rewriteCustom (pyName : Text → Except PyErr Text) (expression : Text) : Except PyErr Text :=
  if '@' ∈ expression then
    (identifiers expression ['@']).foldlM (init := expression) fun _ m => do
      let p ← pyName m
      return replace m p expression
  else .ok expression

/-- The function prefixes in the order of the code (Calculator.py:283-292). -/
def functionPrefixes : List Text :=
  ["Angle1Spl_".toList, "Angle2Spl_".toList, "AngleLine_".toList, "CurrentLength".toList,
   "C1LengthSpl_".toList, "C2LengthSpl_".toList, "Line_".toList, "Spl_".toList]

/-- The calls found in the original expression (Calculator.py:282-299). -/
def functionCalls (expression : Text) : List Text :=
  functionPrefixes.flatMap (identifiers expression)

/-- `', '.join(items)`. -/
def joinComma : List Text → Text
  | [] => []
  | [w] => w
  | w :: ws => w ++ ", ".toList ++ joinComma ws

/-- The Python text of a call such as `Line_A1_A2` (Calculator.py:302-305). -/
def pythonisedFunction (call : Text) : Text :=
  match Xml.split '_' call with
  | [] => []  -- `split` never returns an empty list
  | function :: args =>
    "__calculator__._function_".toList ++ function ++ "(".toList ++
      joinComma (args.map fun x => "'".toList ++ x ++ "'".toList) ++ ")".toList

/-- Rewriting of the function calls (Calculator.py:301-307): the calls are searched in the original expression,
`expression` is the text being rewritten. -/
def rewriteCalls (original expression : Text) : Text :=
  (functionCalls original).foldl (fun e call => replace call (pythonisedFunction call) e) expression

/-- The text handed to `ast.parse` (Calculator.py:260-309). -/
def pythonise (pyName : Text → Except PyErr Text) (original : Text) : Except PyErr Text := do
  let e ← rewriteCustom pyName original
  return rewriteCalls original e

/-! ## Value cache -/

/-- What `eval(code, cache)` does: a value (possibly `None`), or an exception. -/
abbrev Outcome (V : Type _) := Except PyErr (Option V)

/-- The mutable part of an `Expression` (Calculator.py:203-213). -/
structure Expr (Code V : Type _) where
  code : Option Code
  value : Option V
  valueError : Bool
  /-- Ghost: number of times `eval(self._code, …)` ran. -/
  evaluations : Nat

variable {Code V Env : Type _}

/-- `Expression.__init__`. -/
def Expr.new : Expr Code V := { code := none, value := none, valueError := false, evaluations := 0 }

/-- `Expression.eval` (Calculator.py:332-347) in the environment `env`; `compile` is `_compile`, `run` is
Python's `eval`. -/
def Expr.eval (compile : Env → Except PyErr Code) (run : Code → Env → Outcome V) (e : Expr Code V) (env : Env) :
    Except PyErr Unit × Expr Code V :=
  let compiled : Except PyErr Code := match e.code with
    | some c => .ok c
    | none => compile env
  match compiled with
  | .error err => (.error err, e)
  | .ok c =>
    let e := { e with code := some c, evaluations := e.evaluations + 1 }
    match run c env with
    | .ok v => (.ok (), { e with value := v, valueError := false })
    | .error .nameError => (.ok (), { e with value := none, valueError := true })
    | .error err => (.error err, e)

/-- `Expression.value` (Calculator.py:360-365). -/
def Expr.getValue (compile : Env → Except PyErr Code) (run : Code → Env → Outcome V) (e : Expr Code V) (env : Env) :
    Except PyErr (Option V) × Expr Code V :=
  if e.value.isNone && !e.valueError then
    match e.eval compile run env with
    | (.error err, e) => (.error err, e)
    | (.ok (), e) => (.ok e.value, e)
  else (.ok e.value, e)

/-- `Expression.set_dirty` (Calculator.py:351-353). -/
def Expr.setDirty (e : Expr Code V) : Expr Code V := { e with value := none, valueError := false }

/-- What happens to an expression: the calculator's variables change, the value is read, `set_dirty()`. -/
inductive Op (Env : Type _) where
  | setEnv (env : Env)
  | read
  | setDirty

/-- One step of a history: the new environment and expression, and the result of a read. -/
def step (compile : Env → Except PyErr Code) (run : Code → Env → Outcome V) (s : Env × Expr Code V) :
    Op Env → Option (Except PyErr (Option V)) × (Env × Expr Code V)
  | .setEnv env => (none, (env, s.2))
  | .read => let (r, e) := s.2.getValue compile run s.1; (some r, (s.1, e))
  | .setDirty => (none, (s.1, s.2.setDirty))

/-- A history: the results of the reads and the final state. -/
def runOps (compile : Env → Except PyErr Code) (run : Code → Env → Outcome V) :
    Env × Expr Code V → List (Op Env) → List (Except PyErr (Option V)) × (Env × Expr Code V)
  | s, [] => ([], s)
  | s, op :: ops =>
    let (r, s') := step compile run s op
    let (rs, s'') := runOps compile run s' ops
    (r.toList ++ rs, s'')

end Patro.Calculator
