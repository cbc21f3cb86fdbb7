import Verif.Model.Measurement
/-!
# Model of the files and of the attributes of `Patro/Measurement/Measurement.py`

The files are a dictionary from paths to texts. `yaml.dump` and `yaml.load` are parameters, and so are the codecs that Python knows.
-/

namespace Patro.Measurement

open Patro
open Patro.Text (Text replace)

/-! ## Files -/

/-- The files, by path. -/
abbrev Files := Dict Text Text

/-- `open(path, 'w', encoding=…)`: the file is opened, and emptied, before the name of the codec is looked up. -/
def openWrite (isCodec : Text → Bool) (files : Files) (path encoding : Text) : Except PyErr Unit × Files :=
  (if isCodec encoding then .ok () else .error .lookupError, files.set path [])

/-- `open(path, 'r', encoding=…)` and `read()`: a missing file raises `FileNotFoundError`, before the name of the codec is looked up. -/
def openRead (isCodec : Text → Bool) (files : Files) (path encoding : Text) : Except PyErr Text :=
  match files.get? path with
  | none => .error .osError
  | some content => if isCodec encoding then .ok content else .error .lookupError

/-! ## Measurements in a file -/

section

variable {K : Type}

/-- The attribute `_expression` (Measurement.py:57-65): the Python number that was given, or what sympy read in a text. -/
inductive Expression (K : Type) where
  | python (k : K)
  | sympy (f : Formula K)

/-- What is saved of a measurement: its expression, and its texts for humans. -/
structure Entry (K : Type) where
  expression : Expression K
  fullName : Text := []
  description : Text := []

/-- A set of measurements by name, as it is used here (Measurement.py:144-145). -/
abbrev Entries (K : Type) := Dict Text (Entry K)

/-- A scalar of a YAML file. -/
inductive Scalar (K : Type) where
  | number (k : K)
  | text (t : Text)

variable (isPlain : K → Bool) (printNumber : K → Text) (print : Formula K → Text)

/-- The expression in a file (Measurement.py:226-231): `isPlain` tells the numbers of sympy that are integers or floats, `printNumber` is `str` of
a Python number, which is not one of them, `print` is `str` of an expression. -/
def toScalar : Expression K → Scalar K
  | .python k => .text (printNumber k)
  | .sympy (.num k) => if isPlain k then .number k else .text (print (.num k))
  | .sympy f => .text (print f)

/-- The data of a measurement (Measurement.py:232-235). -/
def toData (e : Entry K) : List (Scalar K) :=
  let data := [toScalar isPlain printNumber print e.expression]
  if !e.fullName.isEmpty || !e.description.isEmpty then data ++ [.text e.fullName, .text e.description] else data

/-- The dictionary that is saved (Measurement.py:223-235): the names in ascending order. -/
def toDictionary (s : Entries K) : List (Text × List (Scalar K)) :=
  (sortNames s.keys).filterMap fun n => (s.get? n).map fun e => (n, toData isPlain printNumber print e)

/-- `save_as_yaml(yaml_path)` (Measurement.py:222-238), where `dump` is `yaml.dump`. -/
def saveAsYaml (isCodec : Text → Bool) (dump : List (Text × List (Scalar K)) → Text) (files : Files) (path : Text) (s : Entries K) :
    Except PyErr Unit × Files :=
  let measurements := toDictionary isPlain printNumber print s
  match openWrite isCodec files path "uft8".toList with
  | (.error e, files) => (.error e, files)
  | (.ok (), files) => (.ok (), files.set path (dump measurements))

/-- `add(name, value, full_name, description)` (Measurement.py:198-205) for scalars of a file: a number is kept, a text is read by sympy, and the
texts for humans are converted by `str`. -/
def addScalar (isAlnum : Char → Bool) (sympify : Text → Except PyErr (Formula K)) (s : Entries K) (name : Text) (value fullName description : Scalar K) :
    Except PyErr (Entries K) := do
  let n ← validateName isAlnum name
  let expression ← match value with
    | .number k => .ok (.python k)
    | .text t => (sympify t).map .sympy
  let str := fun v : Scalar K => match v with
    | .number k => printNumber k
    | .text t => t
  if s.contains n then .error .nameError
  else return s.set n { expression, fullName := str fullName, description := str description }

/-- The loop of `load_yaml` (Measurement.py:245-252): what was added is kept when one of the measurements raises. -/
def loadLoop (isAlnum : Char → Bool) (sympify : Text → Except PyErr (Formula K)) :
    Entries K → List (Text × List (Scalar K)) → Except PyErr Unit × Entries K
  | s, [] => (.ok (), s)
  | s, (name, data) :: rest =>
    let arguments : Except PyErr (Scalar K × Scalar K × Scalar K) :=
      match data with
      | [] => .error .indexError
      | [value] => .ok (value, .text [], .text [])
      | [value, fullName, description] => .ok (value, fullName, description)
      | _ => .error .valueError
    match arguments.bind fun a => addScalar printNumber isAlnum sympify s name a.1 a.2.1 a.2.2 with
    | .error e => (.error e, s)
    | .ok s => loadLoop isAlnum sympify s rest

/-- `load_yaml(yaml_path)` (Measurement.py:242-252), where `load` is `yaml.load` for a dictionary of lists of scalars. -/
def loadYaml (isCodec : Text → Bool) (load : Text → List (Text × List (Scalar K))) (isAlnum : Char → Bool)
    (sympify : Text → Except PyErr (Formula K)) (files : Files) (path : Text) (s : Entries K) : Except PyErr Unit × Entries K :=
  match openRead isCodec files path "uft8".toList with
  | .error e => (.error e, s)
  | .ok content => loadLoop printNumber isAlnum sympify s (load content)

/-- `value` of a measurement without names in its expression (Measurement.py:56-65, 118-121), where `rnd` is the rounding of `evalf(3)`. -/
def Expression.value (rnd : K → K) : Expression K → Except PyErr K
  | .python k => .ok k
  | .sympy f =>
    match f.ground? with
    | some k => .ok (rnd k)
    | none => .error .typeError

end

/-! ## Attributes -/

/-- The attributes of a set of measurements and of its class (Measurement.py:126-252), those of `object` left out. -/
def ownNames : List Text :=
  ["__measurement_cls__", "_logger", "_unit", "_pattern_making_system", "_personal", "_measurements", "_expressions", "personal", "unit",
    "pattern_making_system", "sorted_iter", "add", "subs", "dump", "save_as_yaml", "load_yaml"].map String.toList

/-- What `getattr` gives. -/
inductive Attribute (M : Type) where
  | own
  | measurement (m : M)

/-- `getattr(measurements, name)`: `__getattr__` (Measurement.py:191-192) is called only for a name that is not found; `isObject` tells the
attributes of `object`. -/
def getAttribute {M : Type} (isObject : Text → Bool) (s : Dict Text M) (name : Text) : Except PyErr (Attribute M) :=
  if isObject name || ownNames.contains name then .ok .own
  else
    match s.get? name with
    | some m => .ok (.measurement m)
    | none => .error .keyError

/-- `hasattr(measurements, name)`: only `AttributeError` is false. -/
def hasAttribute {M : Type} (isObject : Text → Bool) (s : Dict Text M) (name : Text) : Except PyErr Bool :=
  match getAttribute isObject s name with
  | .ok _ => .ok true
  | .error .attributeError => .ok false
  | .error e => .error e

end Patro.Measurement
