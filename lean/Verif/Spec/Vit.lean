import Mathlib.Data.List.Forall2
import Verif.Model.Vit
/-! # Vocabulary for dates, personal data and `.vit` files -/

namespace Patro.Vit

open Patro.Text (Text)
open Measurement (Formula)

/-! ## Dates -/

/-- The last `n` decimal digits of `k`. -/
def decimal : Nat → Nat → Text
  | 0, _ => []
  | n + 1, k => decimal n (k / 10) ++ [Char.ofNat (48 + k % 10)]

/-- The days of the twelve months; the second one has one day more in a leap year. -/
def monthDays : List Nat := [31, 28, 31, 30, 31, 30, 31, 31, 30, 31, 30, 31]

/-- A year is a leap year if it is a multiple of 4 but not of 100, or a multiple of 400. -/
def LeapYear (y : Nat) : Prop := (4 ∣ y ∧ ¬ 100 ∣ y) ∨ 400 ∣ y

/-- A date of the calendar, of a year from 1 to 9999. -/
structure IsDate (d : Date) : Prop where
  year : 1 ≤ d.year ∧ d.year ≤ 9999
  month : 1 ≤ d.month ∧ d.month ≤ 12
  day : 1 ≤ d.day ∧ ∃ n, monthDays[d.month - 1]? = some n ∧ (d.day ≤ n ∨ (d.month = 2 ∧ d.day = 29 ∧ LeapYear d.year))

/-- A date and a time of the day. -/
structure IsDateTime (d : DateTime) : Prop where
  date : IsDate d.date
  time : d.hour < 24 ∧ d.minute < 60 ∧ d.second < 60 ∧ d.microsecond < 1000000

/-- `n` written in two digits, or in one. -/
def OneOrTwo (t : Text) (n : Nat) : Prop := t = decimal 2 n ∨ (n < 10 ∧ t = decimal 1 n)

/-- A day: in two digits, in one, or in one after a space. -/
def DayText (t : Text) (n : Nat) : Prop := OneOrTwo t n ∨ (n < 10 ∧ t = ' ' :: decimal 1 n)

/-- The text `t` is the date `d`: `YYYY-MM-DD`. -/
def DateText (t : Text) (d : Date) : Prop :=
  ∃ m day, OneOrTwo m d.month ∧ DayText day d.day ∧ t = decimal 4 d.year ++ '-' :: m ++ '-' :: day

/-- A fraction of a second in one to six digits. -/
def FractionText (t : Text) (us : Nat) : Prop :=
  ∃ k n, 1 ≤ k ∧ k ≤ 6 ∧ n < 10 ^ k ∧ t = decimal k n ∧ us = n * 10 ^ (6 - k)

/-- The text `t` is the date and time `d`: `YYYY-MM-DDTHH:MM:SS.ffffffZ`, with `t` and `z` allowed. -/
def DateTimeText (t : Text) (d : DateTime) : Prop :=
  ∃ date h mi s f tee zed, DateText date d.date ∧ OneOrTwo h d.hour ∧ OneOrTwo mi d.minute ∧ OneOrTwo s d.second ∧
    FractionText f d.microsecond ∧ (tee = 'T' ∨ tee = 't') ∧ (zed = 'Z' ∨ zed = 'z') ∧
    t = date ++ tee :: h ++ ':' :: mi ++ ':' :: s ++ '.' :: f ++ [zed]

/-! ## Measurements -/

variable {K : Type}

/-- The text with every `@` replaced by `C_`. -/
def coded (t : Text) : Text := t.flatMap fun c => if c = '@' then ['C', '_'] else [c]

/-- The name `n` under which a measurement called `t` is stored: `@` is replaced by `C_` and a space by `_`; the other characters
have to be alphanumeric or underscores. -/
def StoredName (isAlnum : Char → Bool) (t n : Text) : Prop :=
  n = (coded t).map (fun c => if c = ' ' then '_' else c) ∧ ∀ c ∈ n, isAlnum c = true ∨ c = '_'

/-- The name of a custom measurement starts with `@`. -/
def Custom (m : VMeas K) : Prop := ∃ t, m.valentinaName = '@' :: t

/-- The arguments of a call of `add`. -/
structure Call where
  name : Text
  value : Option Text
  fullName : Text
  description : Text

/-- What a call makes. -/
structure Makes (isAlnum : Char → Bool) (sympify : Text → Except PyErr (Formula K)) (c : Call) (m : VMeas K) : Prop where
  valentinaName : m.valentinaName = c.name
  name : StoredName isAlnum c.name m.name
  value : ∃ t, c.value = some t ∧ sympify (coded t) = .ok m.core.expression
  fullName : m.fullName = c.fullName
  description : m.description = c.description

/-- The set after a sequence of calls of `add`; a call that raises leaves the set as it is. -/
def VSet.addAll (isAlnum : Char → Bool) (sympify : Text → Except PyErr (Formula K)) (s : VSet K) : List Call → VSet K
  | [] => s
  | c :: l => match s.add isAlnum sympify c.name c.value c.fullName c.description with
    | .ok s' => VSet.addAll isAlnum sympify s' l
    | .error _ => VSet.addAll isAlnum sympify s l

/-- The keys of a measurement: its name and, for a custom one, the name with `@`. -/
def KeyOf (m : VMeas K) (k : Text) : Prop := k = m.name ∨ (Custom m ∧ k = m.valentinaName)

/-! ## Files -/

/-- The first child with a tag. -/
def FirstChild (r : Node) (tag : String) (n : Node) : Prop :=
  ∃ l1 l2, r.children = l1 ++ n :: l2 ∧ n.tag = some tag ∧ ∀ c ∈ l1, c.tag ≠ some tag

/-- The call an element `m` of a file stands for. -/
def callOf (e : Node) : Call :=
  ⟨(e.attrib.get? "name").getD "None".toList, e.attrib.get? "value", (e.attrib.get? "full_name").getD [],
   (e.attrib.get? "description").getD []⟩

/-- A gender by its name in upper case. -/
def GenderName (t : Text) (g : Gender) : Prop :=
  (t = "UNKNOWN".toList ∧ g = .unknown) ∨ (t = "FEMALE".toList ∧ g = .female) ∨ (t = "MALE".toList ∧ g = .male) ∨
    (t = "PARTICULAR".toList ∧ g = .particular)

/-- What the element `personal` says. -/
structure PersonalOf (upper : Text → Text) (e : Node) (p : Personal) : Prop where
  customer : ∃ n, FirstChild e "customer" n ∧ p.customer = some n.text
  birthDate : ∃ n, FirstChild e "birth-date" n ∧ ((n.text = none ∧ p.birthDate = none) ∨
    ∃ t d, n.text = some t ∧ IsDate d ∧ DateText t d ∧ p.birthDate = some (.inl d))
  gender : ∃ n t, FirstChild e "gender" n ∧ n.text = some t ∧ GenderName (upper t) p.gender
  email : ∃ n, FirstChild e "email" n ∧ p.email = n.text.getD "None".toList
  rest : p.firstName = [] ∧ p.lastName = [] ∧ p.measurementDate = none ∧ p.comment = []

/-- What a file says. -/
structure VitOf (isAlnum : Char → Bool) (sympify : Text → Except PyErr (Formula K)) (upper : Text → Text) (tree : Node)
    (f : VitFile K) : Prop where
  version : ∃ n, FirstChild tree "version" n
  unit : ∃ n, FirstChild tree "unit" n ∧ f.unit = n.text
  system : ∃ n, FirstChild tree "pm_system" n ∧ f.system = n.text
  personal : ∃ n, FirstChild tree "personal" n ∧ PersonalOf upper n f.personal
  measurements : ∃ n, FirstChild tree "body-measurements" n ∧ (∀ e ∈ n.children, e.tag = some "m") ∧
    List.Forall₂ (fun e m => Makes isAlnum sympify (callOf e) m) n.children f.measurements.objects ∧
    (f.measurements.objects.map VMeas.name).Nodup

/-! ## Standard measurements and personal data -/

/-- The standard measurements after a sequence of calls of `add`; a call that raises changes nothing. -/
def standardAll : List Standard → Dict Text Standard → Dict Text Standard
  | [], s => s
  | m :: l, s => match standardAdd s m with
    | .ok s' => standardAll l s'
    | .error _ => standardAll l s

/-- The names of the arguments of `PersonalData`. -/
def personalKeys : List String := ["first_name", "last_name", "birth_date", "measurement_date", "gender", "email", "comment"]

/-- The arguments that say what the object says. -/
def argsOf (p : Personal) : Dict String Arg :=
  [("first_name", .text p.firstName), ("last_name", .text p.lastName),
   ("birth_date", match p.birthDate with | none => .null | some (.inl d) => .date d | some (.inr d) => .datetime d),
   ("measurement_date", match p.measurementDate with | none => .null | some d => .datetime d),
   ("gender", .gender p.gender), ("email", .text p.email), ("comment", .text p.comment)]

/-- The number of a gender. -/
def Gender.number : Gender → Int
  | .unknown => 1
  | .female => 2
  | .male => 3
  | .particular => 4

/-- A date and time in the format of `ensure_datetime`, with six digits for the microseconds. -/
def isoText (d : DateTime) : Text :=
  decimal 4 d.date.year ++ '-' :: decimal 2 d.date.month ++ '-' :: decimal 2 d.date.day ++ 'T' :: decimal 2 d.hour ++
    ':' :: decimal 2 d.minute ++ ':' :: decimal 2 d.second ++ '.' :: decimal 6 d.microsecond ++ ['Z']

end Patro.Vit
