import Verif.Model.Py
import Verif.Model.Xml
import Verif.Model.Path
/-!
# Model of `PathDataAttribute` (Patro/FileFormat/Svg/SvgFormat.py:874-1072)

A text is a list of characters. `float` of Python is a parameter: `none` when it raises `ValueError`. `isalpha` and `lower` are the ones of
the ASCII letters: a single letter out of ASCII is not a command and raises `ValueError` either way, as it is not a number.
-/

namespace Patro.SvgPath

open Patro.Xml (Text)

/-- An item of the list `parts`: a one letter string or a number. -/
inductive Tok (F : Type _) where
  | letter (c : Char)
  | num (x : F)
deriving DecidableEq, Repr

/-- A tuple `(command, args)`. -/
abbrev Command (F : Type _) := Char × List (Tok F)

/-- `NUMBER_OF_ARGS` (SvgFormat.py:939-950). -/
def numberOfArgs : Dict Char Nat :=
  [('m', 2), ('l', 2), ('h', 1), ('v', 1), ('c', 6), ('s', 4), ('q', 4), ('t', 3), ('a', 7), ('z', 0)]

/-- `split_space_list(value)` (SvgFormat.py:91-92). -/
def splitSpaceList (value : Text) : List Text := (Xml.split ' ' value).filter (· ≠ [])

variable {F : Type _}

/-- The conversion of one item (SvgFormat.py:972-975). -/
def tok (float : Text → Option F) (part : Text) : Except PyErr (Tok F) :=
  match part with
  | [c] => if c.isAlpha then .ok (.letter c) else match float [c] with
    | some x => .ok (.num x)
    | none => .error .valueError
  | part => match float part with
    | some x => .ok (.num x)
    | none => .error .valueError

/-- The first part of `from_xml` (SvgFormat.py:962-976). The text `data_path`, where the letters are separated, is not used after. -/
def toks (float : Text → Option F) (svgPath : Text) : Except PyErr (List (Tok F)) :=
  (splitSpaceList (svgPath.map fun c => if c = ',' then ' ' else c)).mapM (tok float)

/-- The local variables of the loop (SvgFormat.py:978-981). -/
structure State (F : Type _) where
  commands : List (Command F)
  command : Option Char
  nargs : Option Nat
  i : Nat

/-- The state before the loop (SvgFormat.py:978-981). -/
def State.init : State F := ⟨[], none, none, 0⟩

/-- The implicit line to (SvgFormat.py:997-1000). -/
def implicit (command : Char) : Char := if command = 'm' then 'l' else if command = 'M' then 'L' else command

/-- The end of the body of the loop, from `next_i = i + number_of_args` (SvgFormat.py:992-1000). When `number_of_args` is `None` the sum
raises; it is `None` exactly when `command` is. -/
def emit (parts : List (Tok F)) (s : State F) : Except PyErr (State F) :=
  match s.nargs, s.command with
  | some n, some command =>
    .ok ⟨s.commands ++ [(command, (parts.drop s.i).take n)], some (implicit command), some n, s.i + n⟩
  | _, _ => .error .typeError

/-- The body of the loop for the item `part` of index `i` (SvgFormat.py:983-1000). -/
def step (parts : List (Tok F)) (s : State F) (part : Tok F) : Except PyErr (State F) :=
  match part with
  | .letter c =>
    match numberOfArgs.get? c.toLower with
    | none => .error .valueError
    | some n => emit parts { s with command := some c, nargs := some n, i := s.i + 1 }
  | .num _ => emit parts s

/-- The loop `while i < len(parts)` (SvgFormat.py:982-1000): `none` when it is still running after `fuel` turns. -/
def run (parts : List (Tok F)) : Nat → State F → Option (Except PyErr (List (Command F)))
  | 0, _ => none
  | fuel + 1, s =>
    match parts[s.i]? with
    | none => some (.ok s.commands)
    | some part =>
      match step parts s part with
      | .error e => some (.error e)
      | .ok s => run parts fuel s

/-- The commands of `from_xml` (SvgFormat.py:978-1000). -/
def parse (fuel : Nat) (parts : List (Tok F)) : Option (Except PyErr (List (Command F))) := run parts fuel State.init

/-- `to_xml(value)` (SvgFormat.py:1008-1016) for a list of commands whose arguments are numbers; `print` is `str`. -/
def toXml (print : F → Text) (value : List (Char × List F)) : Text :=
  value.foldl (init := []) fun pathData command =>
    (if pathData = [] then [] else pathData ++ [' ']) ++ Xml.join ' ' ([command.1] :: command.2.map print)

/-! ## Geometry -/

section Geometry

variable {K : Type _} [Field K] [LinearOrder K]

open Patro.Path (Path)

/-- `Vector2D(args)` for a list (Vector.py:83-103). -/
def vector (args : List K) : Except PyErr (Vec K) :=
  match args with
  | [x, y] => .ok ⟨x, y⟩
  | _ => .error .valueError

/-- The list of `as_vector` (SvgFormat.py:1027). -/
def pairs : List K → List (Vec K)
  | x :: y :: args => ⟨x, y⟩ :: pairs args
  | _ => []

/-- `as_vector(args)` (SvgFormat.py:1020-1027). -/
def asVector (args : List K) : Except PyErr (List (Vec K)) :=
  if args.length ≠ args.length / 2 * 2 then .error .valueError else .ok (pairs args)

/-- The path after a method which adds a part, whose result is not used. -/
def added (r : Path.Outcome K) : Except PyErr (Path K) :=
  match r with
  | (.ok _, path) => .ok path
  | (.error e, _) => .error e

/-- The branch of a command when the path exists (SvgFormat.py:1045-1070). The arguments are numbers. A call with a wrong number of
positional arguments raises `TypeError`, as does the one for `s` with two points, since the second one is given for `absolute`. A second
`m` has no branch. -/
def extend (path : Path K) (command : Char) (args : List K) : Except PyErr (Path K) :=
  let lower := command.toLower
  let absolute : Bool := lower ≠ command
  if lower = 'l' then do
    let p ← vector args
    added (path.lineTo p none absolute)
  else if command = 'h' then
    match args with
    | [x] => added (path.horizontalTo x none false)
    | _ => .error .typeError
  else if command = 'H' then
    match args with
    | [x] => added (path.absoluteHorizontalTo x)
    | _ => .error .typeError
  else if lower = 'v' then
    match args with
    | [y] => added (path.verticalTo y none absolute)
    | _ => .error .typeError
  else if command = 'V' then
    match args with
    | [y] => added (path.absoluteVerticalTo y)
    | _ => .error .typeError
  else if lower = 'c' then do
    match ← asVector args with
    | [p1, p2, p3] => added (path.cubicTo p1 p2 p3 absolute)
    | _ => .error .typeError
  else if lower = 's' then do
    match ← asVector args with
    | [p] => added (path.stringedQuadraticTo p absolute)
    | _ => .error .typeError
  else if lower = 'q' then do
    match ← asVector args with
    | [p1, p2] => added (path.quadraticTo p1 p2 absolute)
    | _ => .error .typeError
  else if lower = 't' then do
    match ← asVector args with
    | [p1, p2] => added (path.stringedCubicTo p1 p2 absolute)
    | _ => .error .typeError
  else if lower = 'a' then
    match args with
    | [rx, ry, angle, largeArc, sweep, x, y] => added (path.arcTo ⟨x, y⟩ rx ry angle (largeArc ≠ 0) (sweep ≠ 0) absolute)
    | _ => .error .valueError
  else if lower = 'z' then added path.close
  else .ok path

/-- The body of the loop of `to_geometry` (SvgFormat.py:1034-1070). -/
def geometryStep (path : Option (Path K)) (command : Char × List K) : Except PyErr (Option (Path K)) :=
  match path with
  | none =>
    if command.1.toLower ≠ 'm' then .error .nameError
    else do
      let p ← vector command.2
      return some (Path.new p)
  | some path => do
    let path ← extend path command.1 command.2
    return some path

/-- `to_geometry(commands)` (SvgFormat.py:1031-1072). -/
def toGeometry (commands : List (Char × List K)) : Except PyErr (Option (Path K)) := commands.foldlM geometryStep none

/-- The number of an item. -/
def Tok.num? : Tok K → Option K
  | .num x => some x
  | .letter _ => none

/-- A command whose arguments are numbers. -/
def nums? (c : Command K) : Option (Char × List K) := (c.2.mapM Tok.num?).map fun args => (c.1, args)

/-- `from_xml(svg_path)` (SvgFormat.py:958-1004) when the loop stops and the arguments are numbers. A letter among the arguments, after
truncated data, is `none` here: it makes the code raise `ValueError`, unless it is one of the first five arguments of an arc. -/
def fromXml (float : Text → Option K) (fuel : Nat) (svgPath : Text) : Option (Except PyErr (Option (Path K))) :=
  match toks float svgPath with
  | .error e => some (.error e)
  | .ok parts =>
    match parse fuel parts with
    | none => none
    | some (.error e) => some (.error e)
    | some (.ok commands) =>
      match commands.mapM nums? with
      | none => none
      | some commands => some (toGeometry commands)

/-- `to_xml(value)` (SvgFormat.py:1008-1016) when the value is a path, as it is after `from_xml`: the parts of the path are not tuples. -/
def pathToXml (value : Path K) : Except PyErr Text := if value.parts = [] then .ok [] else .error .typeError

end Geometry

end Patro.SvgPath
