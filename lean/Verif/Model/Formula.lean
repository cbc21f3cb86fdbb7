import Verif.Model.CalcFunctions
import Verif.Model.Calculator
/-!
# Model of the evaluation of a formula from its text (`Expression.eval` of `Patro/Pattern/Calculator.py`)

`ast.parse`, `compile` and `eval` of Python are modelled for arithmetic: decimal numbers, names, `+ - * /`, signs, parentheses and the calls
which `_compile` writes. A text outside of this part of the language is not modelled (`none`): it is a `SyntaxError` or has another meaning.
-/

namespace Patro.Formulas

open Patro.Text (Text)
open Patro.Calculator (isIdent pythonise)
open Patro.SketchGeometry (Env Err)

/-! ## Tokens -/

/-- The tokens of Python that are used. -/
inductive Tok where
  | num (whole fraction : Text)
  | name (n : Text)
  | str (s : Text)
  | sym (c : Char)
deriving DecidableEq, Repr

/-- The token being read. -/
inductive Cur where
  | nothing
  | whole (ds : Text)
  | fraction (ds fs : Text)
  | name (n : Text)
  | str (s : Text)
deriving DecidableEq

/-- A decimal digit. -/
def isDigit (c : Char) : Bool := c ∈ "0123456789".toList

/-- The reserved words of Python. -/
def reserved : List Text :=
  ["False", "None", "True", "and", "as", "assert", "async", "await", "break", "class", "continue", "def", "del", "elif", "else", "except",
   "finally", "for", "from", "global", "if", "import", "in", "is", "lambda", "nonlocal", "not", "or", "pass", "raise", "return", "try", "while",
   "with", "yield"].map String.toList

/-- The token which ends here, if it is one: a whole number has no zeros before it, a name is not a reserved word, a string is closed. -/
def Cur.flush : Cur → Option (List Tok)
  | .nothing => some []
  | .whole ds => if ds.head? = some '0' ∧ ds ≠ ['0'] then none else some [.num ds []]
  | .fraction ds fs => some [.num ds fs]
  | .name n => if n ∈ reserved then none else some [.name n]
  | .str _ => none

/-- What a character begins: the tokens it makes by itself, and the token it begins. -/
def Cur.begin (c : Char) : Option (List Tok × Cur) :=
  if isDigit c then some ([], .whole [c])
  else if isIdent c then some ([], .name [c])
  else if c = '\'' then some ([], .str [])
  else if c = ' ' then some ([], .nothing)
  else if c ∈ "()+-*/.,".toList then some ([.sym c], .nothing)
  else none

/-- The tokens which end before a character, and the token after it. -/
def Cur.step (cur : Cur) (c : Char) : Option (List Tok × Cur) :=
  match cur with
  | .str s => if c = '\'' then some ([.str s], .nothing) else some ([], .str (s ++ [c]))
  | .name n => if isIdent c then some ([], .name (n ++ [c])) else
      match (Cur.name n).flush, Cur.begin c with
      | some a, some (b, cur) => some (a ++ b, cur)
      | _, _ => none
  | .whole ds =>
    if isDigit c then some ([], .whole (ds ++ [c]))
    else if c = '.' then some ([], .fraction ds [])
    else if isIdent c then none
    else match (Cur.whole ds).flush, Cur.begin c with
      | some a, some (b, cur) => some (a ++ b, cur)
      | _, _ => none
  | .fraction ds fs =>
    if isDigit c then some ([], .fraction ds (fs ++ [c]))
    else if isIdent c then none
    else match (Cur.fraction ds fs).flush, Cur.begin c with
      | some a, some (b, cur) => some (a ++ b, cur)
      | _, _ => none
  | .nothing => Cur.begin c

/-- The tokens of a text, after the beginning of a token. -/
def lexFrom (cur : Cur) : Text → Option (List Tok)
  | [] => cur.flush
  | c :: t =>
    match cur.step c with
    | none => none
    | some (ts, cur) => (lexFrom cur t).map (ts ++ ·)

/-- The tokens of a text. -/
def lex (t : Text) : Option (List Tok) := lexFrom .nothing t

/-! ## Expressions -/

/-- The expressions of Python that are used. A call is one of `__calculator__`. -/
inductive Tree where
  | num (whole fraction : Text)
  | name (n : Text)
  | call (f : Text) (args : List Text)
  | pos (a : Tree)
  | neg (a : Tree)
  | add (a b : Tree)
  | sub (a b : Tree)
  | mul (a b : Tree)
  | div (a b : Tree)
deriving DecidableEq

/-- The arguments of a call, after the parenthesis. -/
def parseArgs : List Tok → Option (List Text × List Tok)
  | .sym ')' :: r => some ([], r)
  | .str s :: .sym ')' :: r => some ([s], r)
  | .str s :: .sym ',' :: r =>
    match parseArgs r with
    | some (args, r) => some (s :: args, r)
    | none => none
  | _ => none

mutual

/-- A sum. `fuel` only serves to define the functions: it never runs out, see `parse_tree`. -/
def parseSum : Nat → List Tok → Option (Tree × List Tok)
  | 0, _ => none
  | n + 1, ts =>
    match parseProduct n ts with
    | some (a, r) => sumLoop n a r
    | none => none

/-- The terms of a sum after the first one. -/
def sumLoop : Nat → Tree → List Tok → Option (Tree × List Tok)
  | 0, _, _ => none
  | n + 1, a, .sym '+' :: r =>
    match parseProduct n r with
    | some (b, r) => sumLoop n (.add a b) r
    | none => none
  | n + 1, a, .sym '-' :: r =>
    match parseProduct n r with
    | some (b, r) => sumLoop n (.sub a b) r
    | none => none
  | _ + 1, a, ts => some (a, ts)

/-- A product. -/
def parseProduct : Nat → List Tok → Option (Tree × List Tok)
  | 0, _ => none
  | n + 1, ts =>
    match parseSigned n ts with
    | some (a, r) => productLoop n a r
    | none => none

/-- The factors of a product after the first one. -/
def productLoop : Nat → Tree → List Tok → Option (Tree × List Tok)
  | 0, _, _ => none
  | n + 1, a, .sym '*' :: r =>
    match parseSigned n r with
    | some (b, r) => productLoop n (.mul a b) r
    | none => none
  | n + 1, a, .sym '/' :: r =>
    match parseSigned n r with
    | some (b, r) => productLoop n (.div a b) r
    | none => none
  | _ + 1, a, ts => some (a, ts)

/-- A factor with its signs. -/
def parseSigned : Nat → List Tok → Option (Tree × List Tok)
  | 0, _ => none
  | n + 1, .sym '+' :: r =>
    match parseSigned n r with
    | some (a, r) => some (.pos a, r)
    | none => none
  | n + 1, .sym '-' :: r =>
    match parseSigned n r with
    | some (a, r) => some (.neg a, r)
    | none => none
  | n + 1, ts => parseAtom n ts

/-- A number, a name, a call or an expression in parentheses. -/
def parseAtom : Nat → List Tok → Option (Tree × List Tok)
  | 0, _ => none
  | _ + 1, .num ds fs :: r => some (.num ds fs, r)
  | _ + 1, .name n :: .sym '.' :: .name f :: .sym '(' :: r =>
    if n = "__calculator__".toList then
      match parseArgs r with
      | some (args, r) => some (.call f args, r)
      | none => none
    else none
  | _ + 1, .name n :: r => if n = "__calculator__".toList then none else some (.name n, r)
  | n + 1, .sym '(' :: r =>
    match parseSum n r with
    | some (a, .sym ')' :: r) => some (a, r)
    | _ => none
  | _ + 1, _ => none

end

/-- `ast.parse(expression, mode='eval')` (Calculator.py:314): a blank at the beginning is an `IndentationError`. -/
def parse (t : Text) : Option Tree :=
  if t.head? = some ' ' then none else
  match lex t with
  | none => none
  | some ts =>
    match parseSum (4 * ts.length + 4) ts with
    | some (a, []) => some a
    | _ => none

/-! ## Evaluation -/

/-- The tree of the module `ast`, as far as `NodeVisitor` looks at it. -/
def Tree.ast : Tree → CalcFunctions.Ast
  | .num .. => .const
  | .name n => .name n
  | .call f args => .call (.attr (.name "__calculator__".toList) f) (args.map .str) []
  | .pos a => .other [a.ast]
  | .neg a => .other [a.ast]
  | .add a b => .other [a.ast, b.ast]
  | .sub a b => .other [a.ast, b.ast]
  | .mul a b => .other [a.ast, b.ast]
  | .div a b => .other [a.ast, b.ast]

/-- The names of an expression. -/
def Tree.names : Tree → List Text
  | .num .. => []
  | .name n => [n]
  | .call .. => []
  | .pos a => a.names
  | .neg a => a.names
  | .add a b => a.names ++ b.names
  | .sub a b => a.names ++ b.names
  | .mul a b => a.names ++ b.names
  | .div a b => a.names ++ b.names

/-- The whole number written with these digits. -/
def digits (ds : Text) : Nat := ds.foldl (fun n c => 10 * n + (c.toNat - '0'.toNat)) 0

noncomputable section

/-- The number of a literal; rounding is not modelled. -/
def literal (whole fraction : Text) : ℝ := digits whole + digits fraction / 10 ^ fraction.length

/-- The method `_function_f` of the calculator, by its attribute name (Calculator.py:162-191). -/
def callMethod (env : Env) (f : Text) (args : List Text) : Except PyErr ℝ :=
  let n := "_function_".toList
  if n <+: f then CalcFunctions.callFunction env (String.ofList (f.drop n.length)) (args.map String.ofList) else .error .attributeError

/-- `eval(self._code, self._calculator.cache)` (Calculator.py:338): `cache` gives the values of the measurements (Calculator.py:90-98). A name
which is not there is a `NameError`. -/
def Tree.eval (cache : Text → Option ℝ) (env : Env) : Tree → Except PyErr ℝ
  | .num ds fs => .ok (literal ds fs)
  | .name n =>
    match cache n with
    | some v => .ok v
    | none => .error .nameError
  | .call f args => callMethod env f args
  | .pos a => a.eval cache env
  | .neg a => do
    let x ← a.eval cache env
    return -x
  | .add a b => do
    let x ← a.eval cache env
    let y ← b.eval cache env
    return x + y
  | .sub a b => do
    let x ← a.eval cache env
    let y ← b.eval cache env
    return x - y
  | .mul a b => do
    let x ← a.eval cache env
    let y ← b.eval cache env
    return x * y
  | .div a b => do
    let x ← a.eval cache env
    let y ← b.eval cache env
    if y = 0 then .error .zeroDivisionError else return x / y

/-- What `expression.value` gives (Calculator.py:260-347, 360-365): a number, `None` after a `NameError`, or an exception. The text is rewritten,
parsed, its dependencies are looked for, and it is evaluated. `builtin`: the names of the functions of Python, which are found when there is no
measurement of this name. `none`: the text is outside of the modelled part of Python. -/
def value (builtin : Text → Bool) (pyName : Text → Except PyErr Text) (cache : Text → Option ℝ) (text : Text) (env : Env) :
    Option (Except PyErr (Option ℝ)) :=
  match pythonise pyName text with
  | .error e => some (.error e)
  | .ok t =>
    match parse t with
    | none => none
    | some tree =>
      match CalcFunctions.visit (fun n => env.points (String.ofList n)) tree.ast with
      | .error e => some (.error e)
      | .ok _ =>
        if tree.names.any (fun n => builtin n && (cache n).isNone) then none else
        match tree.eval cache env with
        | .ok v => some (.ok (some v))
        | .error .nameError => some (.ok none)
        | .error e => some (.error e)

/-- The expression of a text, for the evaluation of a sketch: `None` cannot be used as a number. For a text which is not modelled, the
`ValueError` is only a placeholder. -/
def compile (builtin : Text → Bool) (pyName : Text → Except PyErr Text) (cache : Text → Option ℝ) (text : Text) : SketchGeometry.Expr :=
  fun env =>
    match value builtin pyName cache text env with
    | some (.ok (some v)) => .ok v
    | some (.ok none) => .error (.py .typeError)
    | some (.error e) => .error (.py e)
    | none => .error (.py .valueError)

end

end Patro.Formulas
