import Verif.Model.ToPython
/-! # Specification of `to_python`: a reader of the Python calls with keywords whose values are literals

Only the literals which can occur are read: texts between single quotes without escape, numbers, `None` and `Vector2D(number, number)`. -/

namespace Patro.ToPython

open Patro.Text (Text)

/-- A literal; a number is kept as it is written. -/
inductive Lit where
  | none
  | str (t : Text)
  | number (t : Text)
  | vector (x y : Text)
deriving DecidableEq, Repr

/-- A character of an identifier. -/
def isIdent (c : Char) : Bool := c.isAlphanum || c = '_'

/-- A character of a number. -/
def isNumChar (c : Char) : Bool := c.isDigit || c = '.' || c = '-' || c = '+' || c = 'e' || c = 'E'

/-- Digits, at least one. -/
def digits (t : Text) : Bool := t.all Char.isDigit && t ≠ []

/-- An exponent or nothing. -/
def exponent (t : Text) : Bool :=
  match t with
  | [] => true
  | c :: '-' :: d => (c = 'e' || c = 'E') && digits d
  | c :: '+' :: d => (c = 'e' || c = 'E') && digits d
  | c :: d => (c = 'e' || c = 'E') && digits d

/-- A number of Python without sign: an integer has no leading zero, but for zero itself. -/
def unsigned (t : Text) : Bool :=
  let int := t.takeWhile Char.isDigit
  match t.dropWhile Char.isDigit with
  | [] => digits int && (int.head? ≠ some '0' || int.all (· = '0'))
  | '.' :: r => (int ≠ [] || (r.takeWhile Char.isDigit) ≠ []) && exponent (r.dropWhile Char.isDigit)
  | r => digits int && exponent r

/-- A number of Python, with a sign or not. -/
def isNumber (t : Text) : Bool :=
  match t with
  | '-' :: r => unsigned r
  | '+' :: r => unsigned r
  | r => unsigned r

/-- A number at the beginning of a text, and the rest. -/
def readNumber (t : Text) : Option (Text × Text) :=
  if isNumber (t.takeWhile isNumChar) then some (t.takeWhile isNumChar, t.dropWhile isNumChar) else none

/-- The end of a text between single quotes, and the rest. A backslash would start an escape: it is not read. -/
def readString : Text → Option (Text × Text)
  | [] => none
  | c :: t =>
    if c = '\'' then some ([], t)
    else if c = '\\' ∨ c = '\n' ∨ c = '\r' then none
    else (readString t).map fun p => (c :: p.1, p.2)

/-- The rest of a text after a prefix. -/
def expect : Text → Text → Option Text
  | [], t => some t
  | c :: p, d :: t => if c = d then expect p t else none
  | _ :: _, [] => none

/-- The rest of `Vector2D(number, number)` after the parenthesis. -/
def readVector (t : Text) : Option (Lit × Text) := do
  let (x, t) ← readNumber t
  let t ← expect ", ".toList t
  let (y, t) ← readNumber t
  let t ← expect ")".toList t
  return (.vector x y, t)

/-- A literal at the beginning of a text, and the rest. -/
def readValue (t : Text) : Option (Lit × Text) :=
  match expect "'".toList t with
  | some t => (readString t).map fun p => (.str p.1, p.2)
  | none =>
    match expect "None".toList t with
    | some t => some (.none, t)
    | none =>
      match expect "Vector2D(".toList t with
      | some t => readVector t
      | none => (readNumber t).map fun p => (.number p.1, p.2)

/-- `key=value` at the beginning of a text. -/
def readKey (t : Text) : Option ((Text × Lit) × Text) := do
  let key := t.takeWhile isIdent
  if key = [] then none else
  let t ← expect "=".toList (t.dropWhile isIdent)
  let (v, t) ← readValue t
  return ((key, v), t)

/-- The rest of a call: `, key=value` any number of times, then the closing parenthesis. The number bounds the arguments read. -/
def readArgs : Nat → Text → Option (List (Text × Lit))
  | 0, _ => none
  | n + 1, t =>
    if t = ")".toList then some []
    else do
      let t ← expect ", ".toList t
      let (a, t) ← readKey t
      let l ← readArgs n t
      return a :: l

/-- `Class(sketch, key=value, …)`: the class and the arguments. -/
def readCall (t : Text) : Option (Text × List (Text × Lit)) := do
  let cls := t.takeWhile isIdent
  if cls = [] then none else
  let r ← expect "(sketch".toList (t.dropWhile isIdent)
  let args ← readArgs (t.length + 1) r
  return (cls, args)

/-- A text which can be written between single quotes as it is. -/
def Plain (t : Text) : Prop := ∀ c ∈ t, c ≠ '\'' ∧ c ≠ '\\' ∧ c ≠ '\n' ∧ c ≠ '\r'

/-- What a value should be written as. -/
def Means (isFloat : Text → Bool) : Arg → Lit → Prop
  | .none, l => l = .none
  | .num t, l => isNumber t = true ∧ l = .number t
  | .str t, l => Plain t ∧ l = .str t
  | .point n, l => Plain n ∧ l = .str n
  | .expr t, l => if isFloat t then isNumber t = true ∧ l = .number t else Plain t ∧ l = .str t
  | .vector x y, l => isNumber x = true ∧ isNumber y = true ∧ l = .vector x y
  | .other, _ => False

/-- The parameters a user gives to make an operation of each class, in their order, besides the sketch and the id (the documentation of the
classes). -/
def parameters : Cls → List Text
  | .singlePoint => ["name".toList, "x".toList, "y".toList, "label_offset".toList]
  | .alongLinePoint => ["name".toList, "first_point".toList, "second_point".toList, "length".toList, "label_offset".toList,
      "line_style".toList, "line_color".toList]
  | .endLinePoint => ["name".toList, "base_point".toList, "angle".toList, "length".toList, "label_offset".toList,
      "line_style".toList, "line_color".toList]
  | .lineIntersectPoint => ["name".toList, "point1_line1".toList, "point2_line1".toList, "point1_line2".toList, "point2_line2".toList,
      "label_offset".toList]
  | .normalPoint => ["name".toList, "first_point".toList, "second_point".toList, "angle".toList, "length".toList, "label_offset".toList,
      "line_style".toList, "line_color".toList]
  | .pointOfContact => ["name".toList, "first_point".toList, "second_point".toList, "center".toList, "radius".toList, "label_offset".toList]
  | .pointOfIntersection => ["name".toList, "first_point".toList, "second_point".toList, "label_offset".toList]
  | .line => ["first_point".toList, "second_point".toList, "line_style".toList, "line_color".toList]
  | .simpleInteractiveSpline => ["first_point".toList, "second_point".toList, "angle1".toList, "length1".toList, "angle2".toList,
      "length2".toList, "line_style".toList, "line_color".toList]

end Patro.ToPython
