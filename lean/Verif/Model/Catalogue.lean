import Verif.Model.Py
import Verif.Model.Text
/-!
# Model of `Patro/Measurement/ValentinaStandardMeasurement.py`: the catalogue of the standard measurements

The YAML document is what `yaml.load` gives: topics by letter, each a mapping which may have the key `measurements`. A field of a measurement
is its text; the last one is a number in the file that comes with the library, which is not used as a number by the loading.
-/

namespace Patro.Catalogue

open Patro.Text (Text)

/-- A standard measurement with its code (ValentinaStandardMeasurement.py:31-47, StandardMeasurement.py:33-37). -/
structure Entry where
  code : Text
  name : Text
  fullName : Text
  description : Text
  defaultValue : Text
deriving DecidableEq, Repr

/-- A topic: the value of its key `measurements`, if it has one, which gives the fields of each code. -/
structure Topic where
  measurements : Option (Dict Text (List Text))

/-- `ValentinaMeasurement(code, *measurement_data)` (ValentinaStandardMeasurement.py:35-37, 62): the constructor has four arguments besides the code. -/
def Entry.new (code : Text) : List Text → Except PyErr Entry
  | [name, fullName, description, defaultValue] => .ok ⟨code, name, fullName, description, defaultValue⟩
  | _ => .error .typeError

/-- `StandardMeasurement.add` (StandardMeasurement.py:112-116). -/
def add (names : Dict Text Entry) (m : Entry) : Except PyErr (Dict Text Entry) :=
  if names.contains m.name then .error .nameError else .ok (names.set m.name m)

/-- The loop over the measurements of a topic (ValentinaStandardMeasurement.py:61-63). -/
def loadTopic (names : Dict Text Entry) : List (Text × List Text) → Except PyErr (Dict Text Entry)
  | [] => .ok names
  | (code, fields) :: rest =>
    match Entry.new code fields with
    | .error e => .error e
    | .ok m =>
      match add names m with
      | .error e => .error e
      | .ok names => loadTopic names rest

/-- The loop over the topics (ValentinaStandardMeasurement.py:60-61). -/
def loadTopics (names : Dict Text Entry) : List (Text × Topic) → Except PyErr (Dict Text Entry)
  | [] => .ok names
  | (_, topic) :: rest =>
    match topic.measurements with
    | none => .error .keyError
    | some ms =>
      match loadTopic names ms with
      | .error e => .error e
      | .ok names => loadTopics names rest

/-- `ValentinaStandardMeasurement()` (ValentinaStandardMeasurement.py:55-63), after the file was opened and read. -/
def load (data : Dict Text Topic) : Except PyErr (Dict Text Entry) := loadTopics [] data

end Patro.Catalogue
