import Verif.Model.Py
import Verif.Model.Text
/-!
# Model of `Patro/Measurement/Measurement.py`

Formulas are sympy expressions in the code.  Here they are trees over numbers, names and arbitrary binary
operations; sympy's algebraic simplifications, its reserved names (`E`, `pi`, `I`, …) and its parser are not
modelled. `subs` with a dictionary of symbols is assumed to replace one symbol after the other in ascending name
order (sympy orders symbols by `default_sort_key`), which is what sympy documents.
-/

namespace Patro.Measurement

open Patro
open Patro.Text (Text replace)

/-! ## Names -/

/-- `Measurement._validate_name(name)` (Measurement.py:69-77). `isAlnum` is `str.isalnum` of one character. -/
def validateName (isAlnum : Char → Bool) (name : Text) : Except PyErr Text :=
  let name := replace [' '] ['_'] name
  if name.all (fun c => isAlnum c || c == '_') then .ok name else .error .valueError

/-! ## Formulas -/

/-- A formula. -/
inductive Formula (K : Type _) where
  | num (k : K)
  | var (name : Text)
  | bin (op : K → K → K) (a b : Formula K)

namespace Formula

variable {K : Type _}

/-- `expression.subs(symbol, replacement)`. -/
def subst (f : Formula K) (n : Text) (d : Formula K) : Formula K :=
  match f with
  | num k => num k
  | var m => if m = n then d else var m
  | bin op a b => bin op (subst a n d) (subst b n d)

/-- The number denoted by a formula without names; `none` when a name is left. -/
def ground? : Formula K → Option K
  | num k => some k
  | var _ => none
  | bin op a b => match ground? a, ground? b with
    | some x, some y => some (op x y)
    | _, _ => none

end Formula

/-! ## Measurement sets -/

/-- A measurement (Measurement.py:45-65). -/
structure Meas (K : Type _) where
  expression : Formula K
  evaluated : Option (Formula K)
  value : Option K

/-- A measurement set: `_measurements` by name; `_expressions` holds the expression of each. -/
abbrev MSet (K : Type _) := Dict Text (Meas K)

variable {K : Type _}

/-- The `value` argument of `add`: a Python number or a formula text. -/
inductive Arg (K : Type _) where
  | number (k : K)
  | formula (f : Formula K)

/-- `Measurement.__init__` (Measurement.py:46-65) without the human readable texts. -/
def Meas.new : Arg K → Meas K
  | .number k => { expression := .num k, evaluated := some (.num k), value := some k }
  | .formula f => { expression := f, evaluated := none, value := none }

/-- `MeasurementSet.add(name, value)` (Measurement.py:198-205). -/
def MSet.add (isAlnum : Char → Bool) (s : MSet K) (name : Text) (value : Arg K) : Except PyErr (MSet K) := do
  let n ← validateName isAlnum name
  if s.contains n then .error .nameError
  else return s.set n (Meas.new value)

/-- Insert a name in an ascending list. -/
def insertName (n : Text) : List Text → List Text
  | [] => [n]
  | m :: l => if n ≤ m then n :: m :: l else m :: insertName n l

/-- `sorted(names)`. -/
def sortNames : List Text → List Text
  | [] => []
  | n :: l => insertName n (sortNames l)

/-- `MeasurementSet.sorted_iter` (Measurement.py:182-184): the names and measurements in the order they are
yielded. -/
def MSet.sortedIter (s : MSet K) : List (Text × Meas K) :=
  (sortNames s.keys).filterMap fun n => (s.get? n).map fun m => (n, m)

/-- `MeasurementSet.subs` (Measurement.py:209-210): one pass over the names in ascending order. -/
def MSet.subs (s : MSet K) (f : Formula K) : Formula K :=
  s.sortedIter.foldl (fun e nm => e.subst nm.1 nm.2.expression) f

/-- `measurement.value` for the measurement called `name` (Measurement.py:108-121): the evaluated expression is
cached, then converted to a number. `rnd` is the rounding of `evalf(3)`. `float` of a formula with a name left raises
`TypeError`. -/
def MSet.value (rnd : K → K) (s : MSet K) (name : Text) : Except PyErr K × MSet K :=
  match s.get? name with
  | none => (.error .keyError, s)
  | some m =>
    match m.value with
    | some v => (.ok v, s)
    | none =>
      let ev := m.evaluated.getD (s.subs m.expression)
      match ev.ground? with
      | some k => (.ok (rnd k), s.set name { m with evaluated := some ev, value := some (rnd k) })
      | none => (.error .typeError, s.set name { m with evaluated := some ev })

end Patro.Measurement
