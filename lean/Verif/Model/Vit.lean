import Verif.Model.Measurement
import Verif.Model.Xml
/-!
# Model of dates, personal data, Valentina measurements and `.vit` files

`Patro/Common/Datetime.py`, `Patro/Measurement/PersonalData.py`, `Patro/Measurement/StandardMeasurement.py`,
`Patro/Measurement/ValentinaMeasurement.py`, `Patro/Common/Xml/XmlFile.py` and `Patro/FileFormat/Valentina/Measurement.py`.

`ValentinaMeasurement.py` imports the name `Measurements`, which does not exist (the class is called `MeasurementSet`), so at this
commit the module cannot be imported; the functions are modelled as they would run if the import were repaired. `sympify`,
`str.upper` and `str.isalnum` are parameters.
-/

namespace Patro.Vit

open Patro.Text (Text replace)
open Measurement (Formula Meas)

/-! ## `datetime.strptime` -/

/-- A date of the proleptic Gregorian calendar, as `datetime.date` holds it. -/
structure Date where
  year : Nat
  month : Nat
  day : Nat
deriving DecidableEq, Repr

/-- A `datetime.datetime` without time zone. -/
structure DateTime where
  date : Date
  hour : Nat
  minute : Nat
  second : Nat
  microsecond : Nat
deriving DecidableEq, Repr

/-- A leap year (`calendar`, used by `datetime`). -/
def isLeap (y : Nat) : Bool := y % 4 = 0 && (y % 100 ≠ 0 || y % 400 = 0)

/-- The number of days of a month from 1 to 12. -/
def daysInMonth (y m : Nat) : Nat :=
  if m = 2 then if isLeap y then 29 else 28
  else if m = 4 ∨ m = 6 ∨ m = 9 ∨ m = 11 then 30 else 31

/-- `datetime.date(year, month, day)`: `ValueError` when it is not a date. -/
def Date.new (y m d : Nat) : Except PyErr Date :=
  if 1 ≤ y ∧ y ≤ 9999 ∧ 1 ≤ m ∧ m ≤ 12 ∧ 1 ≤ d ∧ d ≤ daysInMonth y m then .ok ⟨y, m, d⟩ else .error .valueError

/-- `datetime.datetime(…)`. -/
def DateTime.new (y m d h mi s us : Nat) : Except PyErr DateTime :=
  match Date.new y m d with
  | .error e => .error e
  | .ok date => if h < 24 ∧ mi < 60 ∧ s < 60 ∧ us < 1000000 then .ok ⟨date, h, mi, s, us⟩ else .error .valueError

/-- A regular expression with backtracking: the matches at the start of a text, in the order in which they are tried, with the text
that is left. -/
abbrev Rx (α : Type) := Text → List (α × Text)

/-- A digit from `lo` to `hi`. Digits outside ASCII are not modelled. -/
def rxDigit (lo hi : Nat) : Rx Nat
  | [] => []
  | c :: t => match Xml.digit? c with
    | some d => if lo ≤ d ∧ d ≤ hi then [(d, t)] else []
    | none => []

/-- A literal character, in upper or in lower case (the expression is compiled with `re.IGNORECASE`). -/
def rxChar (c : Char) : Rx Unit
  | [] => []
  | x :: t => if x = c ∨ x = c.toLower then [((), t)] else []

/-- One expression after the other. -/
def rxThen {α β γ : Type} (f : α → β → γ) (r : Rx α) (r' : Rx β) : Rx γ := fun t =>
  (r t).flatMap fun (a, t') => (r' t').map fun (b, t'') => (f a b, t'')

/-- Alternatives, in order. -/
def rxOr {α : Type} (r r' : Rx α) : Rx α := fun t => r t ++ r' t

/-- Two digits. -/
def rxTwo (lo hi lo' hi' : Nat) : Rx Nat := rxThen (fun a b => 10 * a + b) (rxDigit lo hi) (rxDigit lo' hi')

/-- `%Y`: `\d\d\d\d` (`_strptime.py`, `TimeRE`). -/
def rxYear : Rx Nat := rxThen (fun a b => 100 * a + b) (rxTwo 0 9 0 9) (rxTwo 0 9 0 9)

/-- `%m`: `1[0-2]|0[1-9]|[1-9]`. -/
def rxMonth : Rx Nat := rxOr (rxTwo 1 1 0 2) (rxOr (rxTwo 0 0 1 9) (rxDigit 1 9))

/-- `%d`: `3[0-1]|[1-2]\d|0[1-9]|[1-9]| [1-9]`. -/
def rxDay : Rx Nat :=
  rxOr (rxTwo 3 3 0 1) (rxOr (rxTwo 1 2 0 9) (rxOr (rxTwo 0 0 1 9) (rxOr (rxDigit 1 9)
    (rxThen (fun _ d => d) (rxChar ' ') (rxDigit 1 9)))))

/-- `%H`: `2[0-3]|[0-1]\d|\d`. -/
def rxHour : Rx Nat := rxOr (rxTwo 2 2 0 3) (rxOr (rxTwo 0 1 0 9) (rxDigit 0 9))

/-- `%M`: `[0-5]\d|\d`. -/
def rxMinute : Rx Nat := rxOr (rxTwo 0 5 0 9) (rxDigit 0 9)

/-- `%S`: `6[0-1]|[0-5]\d|\d`. -/
def rxSecond : Rx Nat := rxOr (rxTwo 6 6 0 1) (rxOr (rxTwo 0 5 0 9) (rxDigit 0 9))

/-- `[0-9]{1,n}`, greedy: the digits. -/
def rxDigits : Nat → Rx (List Nat)
  | 0, _ => []
  | n + 1, t => (rxDigit 0 9 t).flatMap fun (d, t') => (rxDigits n t').map (fun (l, t'') => (d :: l, t'')) ++ [([d], t')]

/-- The number of microseconds of the digits of a fraction: padded with zeros to six digits. -/
def fraction (l : List Nat) : Nat := (l ++ List.replicate (6 - l.length) 0).foldl (fun n d => 10 * n + d) 0

/-- `%f`: `[0-9]{1,6}`. -/
def rxFraction : Rx Nat := fun t => (rxDigits 6 t).map fun (l, t') => (fraction l, t')

/-- A sequence of two fields separated by a literal character. -/
def rxSep {α β : Type} (c : Char) (r : Rx α) (r' : Rx β) : Rx (α × β) :=
  rxThen (fun a b => (a, b)) r (rxThen (fun _ b => b) (rxChar c) r')

/-- `%Y-%m-%d`. -/
def rxDate : Rx (Nat × Nat × Nat) := rxSep '-' rxYear (rxSep '-' rxMonth rxDay)

/-- `%Y-%m-%dT%H:%M:%S.%fZ`. -/
def rxDateTime : Rx (Nat × Nat × Nat × Nat × Nat × Nat × Nat) :=
  rxSep '-' rxYear (rxSep '-' rxMonth (rxSep 'T' rxDay (rxSep ':' rxHour (rxSep ':' rxMinute (rxSep '.' rxSecond
    (rxThen (fun n _ => n) rxFraction (rxChar 'Z')))))))

/-- `re.match` followed by the test that nothing is left (`_strptime`): the first match is the only one that counts. -/
def fullMatch {α : Type} (r : Rx α) (t : Text) : Except PyErr α :=
  match r t with
  | (a, []) :: _ => .ok a
  | _ => .error .valueError

/-- `datetime.strptime(text, '%Y-%m-%d').date()`. -/
def parseDate (t : Text) : Except PyErr Date :=
  match fullMatch rxDate t with
  | .ok (y, m, d) => Date.new y m d
  | .error e => .error e

/-- `datetime.strptime(text, '%Y-%m-%dT%H:%M:%S.%fZ')`. -/
def parseDateTime (t : Text) : Except PyErr DateTime :=
  match fullMatch rxDateTime t with
  | .ok (y, m, d, h, mi, s, us) => DateTime.new y m d h mi s us
  | .error e => .error e

/-- A number in `n` digits at least, with leading zeros. -/
def padded (n : Nat) (k : Nat) : Text :=
  let t := Xml.natToText k
  List.replicate (n - t.length) '0' ++ t

/-- `str(date)`. -/
def Date.str (d : Date) : Text := padded 4 d.year ++ '-' :: padded 2 d.month ++ '-' :: padded 2 d.day

/-- `str(datetime)`: the microseconds are written only if there are any. -/
def DateTime.str (d : DateTime) : Text :=
  d.date.str ++ ' ' :: padded 2 d.hour ++ ':' :: padded 2 d.minute ++ ':' :: padded 2 d.second ++
    if d.microsecond = 0 then [] else '.' :: padded 6 d.microsecond

/-! ## Personal data (Patro/Measurement/PersonalData.py) -/

/-- `Gender` (PersonalData.py:30-35). -/
inductive Gender where
  | unknown
  | female
  | male
  | particular
deriving DecidableEq, Repr

/-- The members with their names, in order; the value of a member is its position from 1 (`auto()`). -/
def genders : List (Text × Gender) :=
  [("UNKNOWN".toList, .unknown), ("FEMALE".toList, .female), ("MALE".toList, .male), ("PARTICULAR".toList, .particular)]

/-- A Python value given to a setter. -/
inductive Arg where
  | null
  | text (t : Text)
  | int (i : Int)
  | gender (g : Gender)
  | date (d : Date)
  | datetime (d : DateTime)
deriving DecidableEq

/-- `str(gender)`. -/
def Gender.str (g : Gender) : Text :=
  "Gender.".toList ++ match g with
    | .unknown => "UNKNOWN".toList
    | .female => "FEMALE".toList
    | .male => "MALE".toList
    | .particular => "PARTICULAR".toList

/-- `str(value)`. -/
def Arg.str : Arg → Text
  | .null => "None".toList
  | .text t => t
  | .int i => Xml.intToText i
  | .gender g => g.str
  | .date d => d.str
  | .datetime d => d.str

/-- `ensure_date(x)` (Datetime.py:29-34): a `datetime` is a `date` and is kept as it is. -/
def ensureDate : Arg → Except PyErr (Date ⊕ DateTime)
  | .date d => .ok (.inl d)
  | .datetime d => .ok (.inr d)
  | x => (parseDate x.str).map .inl

/-- `ensure_datetime(x)` (Datetime.py:38-43). -/
def ensureDateTime : Arg → Except PyErr DateTime
  | .datetime d => .ok d
  | x => parseDateTime x.str

/-- The attributes of an instance of `PersonalData` (PersonalData.py:47-53); `customer` is set by the reader of `.vit` files
only. -/
structure Personal where
  firstName : Text
  lastName : Text
  birthDate : Option (Date ⊕ DateTime)
  measurementDate : Option DateTime
  gender : Gender
  email : Text
  comment : Text
  customer : Option (Option Text) := none
deriving DecidableEq

section
variable (upper : Text → Text)

/-- `Gender[value.upper()]` or `Gender(value)` (PersonalData.py:118-124). -/
def ensureGender : Arg → Except PyErr Gender
  | .text t => Dict.getItem genders (upper t)
  | .gender g => .ok g
  | .int i => if i < 1 then .error .valueError else
    match genders[(i - 1).toNat]? with
    | some (_, g) => .ok g
    | none => .error .valueError
  | _ => .error .valueError

/-- The setter of `birth_date` (PersonalData.py:92-97). -/
def birthDateOf : Arg → Except PyErr (Option (Date ⊕ DateTime))
  | .null => .ok none
  | x => (ensureDate x).map some

/-- The setter of `measurement_date` (PersonalData.py:105-110). -/
def measurementDateOf : Arg → Except PyErr (Option DateTime)
  | .null => .ok none
  | x => (ensureDateTime x).map some

/-- `PersonalData(**kwargs)` (PersonalData.py:45-64): names that are not known are ignored. -/
def Personal.new (kwargs : Dict String Arg) : Except PyErr Personal := do
  let firstName := ((kwargs.get? "first_name").getD (.text [])).str
  let lastName := ((kwargs.get? "last_name").getD (.text [])).str
  let birthDate ← birthDateOf ((kwargs.get? "birth_date").getD .null)
  let measurementDate ← measurementDateOf ((kwargs.get? "measurement_date").getD .null)
  let gender ← ensureGender upper ((kwargs.get? "gender").getD (.gender .unknown))
  let email := ((kwargs.get? "email").getD (.text [])).str
  let comment := ((kwargs.get? "comment").getD (.text [])).str
  return { firstName, lastName, birthDate, measurementDate, gender, email, comment }

end

/-- The data of a new measurement set (Measurement.py:145). -/
def Personal.default : Personal := ⟨[], [], none, none, .unknown, [], [], none⟩

/-! ## Standard measurements (Patro/Measurement/StandardMeasurement.py) -/

/-- A standard measurement (StandardMeasurement.py:27-77). The name is public and can be changed later; here it does not change. -/
structure Standard where
  name : Text
  fullName : Text
  description : Text
deriving DecidableEq

/-- `StandardMeasurement.add` (StandardMeasurement.py:112-116). -/
def standardAdd (s : Dict Text Standard) (m : Standard) : Except PyErr (Dict Text Standard) :=
  if s.contains m.name then .error .nameError else .ok (s.set m.name m)

/-! ## Valentina measurements (Patro/Measurement/ValentinaMeasurement.py) -/

variable {K : Type}

/-- A Valentina measurement (ValentinaMeasurement.py:54-69, Measurement.py:46-65). -/
structure VMeas (K : Type) where
  valentinaName : Text
  name : Text
  fullName : Text
  description : Text
  core : Meas K

/-- A set of Valentina measurements. The measurements are objects: `names` gives the object of a key, and two keys may give the
same object. `expressions` is used for the substitution. -/
structure VSet (K : Type) where
  unit : Option Text := none
  system : Option Text := none
  objects : List (VMeas K) := []
  names : Dict Text Nat := []
  expressions : Dict Text (Formula K) := []

/-- `replace_custom_prefix` (ValentinaMeasurement.py:47-50). -/
def replacePrefix (t : Text) : Text := replace ['@'] ['C', '_'] t

section
variable (isAlnum : Char → Bool) (sympify : Text → Except PyErr (Formula K))

/-- `ValentinaMeasurement(measurements, name, value, full_name, description)` (ValentinaMeasurement.py:54-69) for texts; a value
`None` has no method `replace`. -/
def VMeas.new (name : Text) (value : Option Text) (fullName description : Text) : Except PyErr (VMeas K) :=
  match value with
  | none => .error .attributeError
  | some value =>
    match Measurement.validateName isAlnum (replacePrefix name) with
    | .error e => .error e
    | .ok n =>
      match sympify (replacePrefix value) with
      | .error e => .error e
      | .ok f => .ok ⟨name, n, fullName, description, Meas.new (.formula f)⟩

/-- `is_custom()` (ValentinaMeasurement.py:79-80). -/
def VMeas.isCustom (m : VMeas K) : Bool := m.valentinaName.head? = some '@'

/-- `ValentinaMeasurements.add` (ValentinaMeasurement.py:94-98, Measurement.py:198-205). -/
def VSet.add (s : VSet K) (name : Text) (value : Option Text) (fullName description : Text) : Except PyErr (VSet K) :=
  match VMeas.new isAlnum sympify name value fullName description with
  | .error e => .error e
  | .ok m =>
    if s.names.contains m.name then .error .nameError
    else
      let i := s.objects.length
      let names := s.names.set m.name i
      .ok { s with
        objects := s.objects ++ [m]
        names := if m.isCustom then names.set m.valentinaName i else names
        expressions := s.expressions.set m.name m.core.expression }

/-- `measurements[name]` (Measurement.py:188-189): the object. -/
def VSet.get (s : VSet K) (name : Text) : Except PyErr Nat := s.names.getItem name

/-- `iter(measurements)` (Measurement.py:177-178): the objects. -/
def VSet.iter (s : VSet K) : List Nat := s.names.values

/-- `sorted_iter()` (Measurement.py:182-184): the objects. -/
def VSet.sortedIter (s : VSet K) : List Nat := (Measurement.sortNames s.names.keys).filterMap s.names.get?

/-- `subs(measurement)` (Measurement.py:209-210), with the order of substitution of `Measurement.MSet.subs`. -/
def VSet.subs (s : VSet K) (f : Formula K) : Formula K :=
  ((Measurement.sortNames s.expressions.keys).filterMap fun n => (s.expressions.get? n).map fun e => (n, e)).foldl
    (fun e nm => e.subst nm.1 nm.2) f

/-- The expression of the measurement once the others are substituted (Measurement.py:108-115), without the cache. -/
def VSet.evaluated (s : VSet K) (name : Text) : Except PyErr (Formula K) :=
  match s.names.get? name with
  | none => .error .keyError
  | some i =>
    match s.objects[i]? with
    | none => .error .keyError
    | some m => .ok (s.subs m.core.expression)

end

/-! ## `.vit` files (Patro/Common/Xml/XmlFile.py, Patro/FileFormat/Valentina/Measurement.py) -/

/-- An XML element; a comment or a processing instruction has no tag. -/
structure Node where
  tag : Option String
  attrib : Dict String Text
  text : Option Text
  children : List Node

/-- `get_xpath_element(root, path)` (XmlFile.py:82-89) for a path that is the name of a child. -/
def xpathElement (root : Option Node) (path : String) : Except PyErr (Option Node) :=
  match root with
  | none => .error .attributeError
  | some r => .ok (r.children.find? fun c => c.tag = some path)

/-- `get_xpath_element(root, path).text`. -/
def xpathText (root : Option Node) (path : String) : Except PyErr (Option Text) :=
  match xpathElement root path with
  | .error e => .error e
  | .ok none => .error .attributeError
  | .ok (some n) => .ok n.text

/-- `get_text_element(root, path)` (XmlFile.py:93-100). -/
def textElement (root : Option Node) (path : String) : Except PyErr (Option Text) :=
  match xpathElement root path with
  | .error e => .error e
  | .ok none => .ok none
  | .ok (some n) => .ok n.text

/-- `XmlMeasurement.__attributes__` (Valentina/Measurement.py:58-66). -/
def measurementAttrs : List (Xml.Attr Text) :=
  let attr (name : String) (default : Option Text) : Xml.Attr Text :=
    ⟨name, name, default, fun t => .ok (some t), fun t => t, fun v => .ok v⟩
  [attr "name" none, attr "value" none, attr "full_name" (some []), attr "description" (some [])]

/-- A text that may be `None`, once `str` is called. -/
def strOrNone (t : Option Text) : Text := t.getD "None".toList

section
variable (isAlnum : Char → Bool) (sympify : Text → Except PyErr (Formula K))

/-- `measurements.add(**XmlMeasurement(element).to_dict())` (Valentina/Measurement.py:110-111). -/
def addElement (s : VSet K) (e : Node) : Except PyErr (VSet K) := do
  let o ← Xml.initFromXml measurementAttrs e.attrib
  let d ← Xml.toDict measurementAttrs o []
  let field (n : String) : Option Text := (d.get? n).join
  s.add isAlnum sympify (strOrNone (field "name")) (field "value") (strOrNone (field "full_name")) (strOrNone (field "description"))

/-- The loop over the elements of `body-measurements` (Valentina/Measurement.py:108-113). -/
def addElements (s : VSet K) : List Node → Except PyErr (VSet K)
  | [] => .ok s
  | e :: es =>
    if e.tag = some "m" then
      match addElement isAlnum sympify s e with
      | .ok s' => addElements s' es
      | .error err => .error err
    else .error .notImplementedError

/-- A file that was read: the unit and the system, which are attributes of the reader, the personal data and the measurements. -/
structure VitFile (K : Type) where
  unit : Option Text
  system : Option Text
  personal : Personal
  measurements : VSet K

/-- The personal data of a file (Valentina/Measurement.py:97-105). -/
def readPersonal (upper : Text → Text) (tree : Node) : Except PyErr Personal := do
  let personal ← xpathElement (some tree) "personal"
  let customer ← xpathText personal "customer"
  let birth ← xpathText personal "birth-date"
  let birthDate ← birthDateOf (match birth with | some t => .text t | none => .null)
  let gender ← match ← xpathText personal "gender" with
    | none => Except.error PyErr.attributeError
    | some t => Dict.getItem genders (upper t)
  let email ← xpathText personal "email"
  return { Personal.default with customer := some customer, birthDate, gender, email := strOrNone email }

/-- `VitFileInternal.read()` (Valentina/Measurement.py:83-113). -/
def readVit (upper : Text → Text) (tree : Node) : Except PyErr (VitFile K) := do
  let _ ← xpathText (some tree) "version"
  let unit ← xpathText (some tree) "unit"
  let system ← xpathText (some tree) "pm_system"
  let personal ← readPersonal upper tree
  match ← xpathElement (some tree) "body-measurements" with
  | none => Except.error PyErr.typeError
  | some body =>
    let measurements ← addElements isAlnum sympify {} body.children
    return { unit, system, personal, measurements }

end

end Patro.Vit
