import Verif.Spec.CalculatorCalls
import Verif.Model.SketchGeometry
import Mathlib.Data.Nat.Digits.Defs
/-! # What a formula is, how it is written and the value it denotes -/

namespace Patro.Formulas

open Patro.Text (Text)
open Patro.Calculator (isIdent Word Free keywords)
open Patro.SketchGeometry (Env)

/-- A formula. -/
inductive Formula where
  /-- `12`, or `12.5` -/
  | number (whole : Text) (fraction : Option Text)
  /-- the name of a measurement -/
  | measurement (n : Text)
  /-- `@n`: the custom measurement `n` -/
  | custom (n : Text)
  /-- `Line_A_B` -/
  | line (a b : Text)
  /-- `AngleLine_A_B` -/
  | angleLine (a b : Text)
  /-- `CurrentLength` -/
  | currentLength
  /-- `(f)` -/
  | paren (f : Formula)
  /-- `+f` -/
  | pos (f : Formula)
  /-- `-f` -/
  | neg (f : Formula)
  | add (f g : Formula)
  | sub (f g : Formula)
  | mul (f g : Formula)
  | div (f g : Formula)
  /-- a blank and `f` -/
  | before (f : Formula)
  /-- `f` and a blank -/
  | after (f : Formula)

namespace Formula

/-- `Line_A_B`. -/
def lineText (a b : Text) : Text := "Line_".toList ++ a ++ '_' :: b

/-- `AngleLine_A_B`. -/
def angleLineText (a b : Text) : Text := "AngleLine_".toList ++ a ++ '_' :: b

/-- `CurrentLength`. -/
def currentText : Text := "CurrentLength".toList

/-- The text of a formula. -/
def source : Formula → Text
  | number w none => w
  | number w (some f) => w ++ '.' :: f
  | measurement n => n
  | custom n => '@' :: n
  | line a b => lineText a b
  | angleLine a b => angleLineText a b
  | currentLength => currentText
  | paren f => '(' :: f.source ++ [')']
  | pos f => '+' :: f.source
  | neg f => '-' :: f.source
  | add f g => f.source ++ '+' :: g.source
  | sub f g => f.source ++ '-' :: g.source
  | mul f g => f.source ++ '*' :: g.source
  | div f g => f.source ++ '/' :: g.source
  | before f => ' ' :: f.source
  | after f => f.source ++ [' ']

/-- The words of a formula. -/
def words : Formula → List Word
  | number w none => [.plain w]
  | number w (some f) => [.plain w, .plain f]
  | measurement n => [.plain n]
  | custom n => [.plain n]
  | line a b => [.call "Line".toList [a, b]]
  | angleLine a b => [.call "AngleLine".toList [a, b]]
  | currentLength => [.currentLength]
  | paren f => f.words
  | pos f => f.words
  | neg f => f.words
  | add f g => f.words ++ g.words
  | sub f g => f.words ++ g.words
  | mul f g => f.words ++ g.words
  | div f g => f.words ++ g.words
  | before f => f.words
  | after f => f.words

/-- How strongly the parts of a formula are bound together: 0 for a sum, 1 for a product, 2 for a sign, 3 for the rest. -/
def level : Formula → Nat
  | add .. => 0
  | sub .. => 0
  | mul .. => 1
  | div .. => 1
  | pos _ => 2
  | neg _ => 2
  | before f => f.level
  | after f => f.level
  | _ => 3

/-- A text of decimal digits. -/
def AreDigits (t : Text) : Prop := ∀ c ∈ t, c ∈ "0123456789".toList

/-- The words of Python which are no names. -/
def pythonWords : List Text :=
  ["False", "None", "True", "and", "as", "assert", "async", "await", "break", "class", "continue", "def", "del", "elif", "else", "except",
   "finally", "for", "from", "global", "if", "import", "in", "is", "lambda", "nonlocal", "not", "or", "pass", "raise", "return", "try", "while",
   "with", "yield"].map String.toList

/-- The name of a measurement: letters, digits and `_`, without a digit at the beginning; it is no word of Python, not `__calculator__`, and no
text announcing a function is in it. -/
def IsName (n : Text) : Prop :=
  n ≠ [] ∧ (∀ c ∈ n, isIdent c = true) ∧ (∀ c, n.head? = some c → c ∉ "0123456789".toList) ∧ n ∉ pythonWords ∧ n ≠ "__calculator__".toList ∧ Free n

/-- The names of two points: letters and digits, and no text announcing a function. -/
def ArePoints (a b : Text) : Prop :=
  (∀ c ∈ a ++ b, isIdent c = true ∧ c ≠ '_') ∧ Free (a ++ '_' :: b)

/-- The parts of the formula are well written, and sums and products are in parentheses where they must be; `isCustom` says which names the
custom measurements can have. -/
def WellFormedWith (isCustom : Text → Prop) : Formula → Prop
  | number w none => w ≠ [] ∧ AreDigits w ∧ (w.head? = some '0' → w = ['0'])
  | number w (some f) => w ≠ [] ∧ AreDigits w ∧ AreDigits f
  | measurement n => IsName n
  | custom n => isCustom n
  | line a b => ArePoints a b
  | angleLine a b => ArePoints a b
  | currentLength => True
  | paren f => f.WellFormedWith isCustom
  | pos f => f.WellFormedWith isCustom ∧ 2 ≤ f.level
  | neg f => f.WellFormedWith isCustom ∧ 2 ≤ f.level
  | add f g => f.WellFormedWith isCustom ∧ g.WellFormedWith isCustom ∧ 1 ≤ g.level
  | sub f g => f.WellFormedWith isCustom ∧ g.WellFormedWith isCustom ∧ 1 ≤ g.level
  | mul f g => f.WellFormedWith isCustom ∧ g.WellFormedWith isCustom ∧ 1 ≤ f.level ∧ 2 ≤ g.level
  | div f g => f.WellFormedWith isCustom ∧ g.WellFormedWith isCustom ∧ 1 ≤ f.level ∧ 2 ≤ g.level
  | before f => f.WellFormedWith isCustom
  | after f => f.WellFormedWith isCustom

/-- The formula is well written; the name of a custom measurement is made of letters, digits and `_`, and no text announcing a function is in it. -/
def WellFormed (f : Formula) : Prop := f.WellFormedWith fun n => (∀ c ∈ n, isIdent c = true) ∧ Free n

/-- No use of a function begins like another one. -/
def NoClash (f : Formula) : Prop :=
  ∀ v ∈ f.words, ∀ w ∈ f.words, ∀ c, c <:+ v.source → (∃ k ∈ keywords, k <+: c) → c <+: w.source → w.isFunction → c = w.source

/-- `CurrentLength` is used at most once. -/
def OneCurrent (f : Formula) : Prop := ∀ a b c : List Word, f.words ≠ a ++ Word.currentLength :: b ++ Word.currentLength :: c

/-- The formula and its parts. -/
def parts : Formula → List Formula
  | paren f => paren f :: f.parts
  | pos f => pos f :: f.parts
  | neg f => neg f :: f.parts
  | add f g => add f g :: (f.parts ++ g.parts)
  | sub f g => sub f g :: (f.parts ++ g.parts)
  | mul f g => mul f g :: (f.parts ++ g.parts)
  | div f g => div f g :: (f.parts ++ g.parts)
  | before f => before f :: f.parts
  | after f => after f :: f.parts
  | f => [f]

/-- All the custom measurements of the formula are the same one. -/
def OneCustom (f : Formula) : Prop := ∀ m n, custom m ∈ f.parts → custom n ∈ f.parts → m = n

/-- A formula that the code can read: there is no blank at its beginning. -/
structure Readable (f : Formula) : Prop where
  wellFormed : f.WellFormed
  noClash : f.NoClash
  oneCurrent : f.OneCurrent
  oneCustom : f.OneCustom
  noBlank : f.source.head? ≠ some ' '

/-- The number written with decimal digits. -/
def digitsValue (t : Text) : Nat := Nat.ofDigits 10 (t.reverse.map fun c => "0123456789".toList.idxOf c)

/-- The value of a formula, where `measure` gives the values of the measurements, the custom ones with their `@`, and `env` the places of the
points and the segment being drawn. A division by zero has no value. -/
def Means (measure : Text → Option ℝ) (env : Env) : Formula → ℝ → Prop
  | number w none, v => v = digitsValue w
  | number w (some f), v => v = digitsValue w + digitsValue f / 10 ^ f.length
  | measurement n, v => measure n = some v
  | custom n, v => measure ('@' :: n) = some v
  | line a b, v => ∃ p q, env.points (String.ofList a) = some (some p) ∧ env.points (String.ofList b) = some (some q) ∧
      v = Real.sqrt ((q.x - p.x) ^ 2 + (q.y - p.y) ^ 2)
  | angleLine a b, v => ∃ p q, env.points (String.ofList a) = some (some p) ∧ env.points (String.ofList b) = some (some q) ∧ p ≠ q ∧
      -180 < v ∧ v ≤ 180 ∧ ∃ l > 0, q = ⟨p.x + l * Real.cos (v * (Real.pi / 180)), p.y + l * Real.sin (v * (Real.pi / 180))⟩
  | currentLength, v => ∃ s, env.current = some s ∧ v = Real.sqrt (s.x ^ 2 + s.y ^ 2)
  | paren f, v => f.Means measure env v
  | pos f, v => f.Means measure env v
  | neg f, v => ∃ x, f.Means measure env x ∧ v = -x
  | add f g, v => ∃ x y, f.Means measure env x ∧ g.Means measure env y ∧ v = x + y
  | sub f g, v => ∃ x y, f.Means measure env x ∧ g.Means measure env y ∧ v = x - y
  | mul f g, v => ∃ x y, f.Means measure env x ∧ g.Means measure env y ∧ v = x * y
  | div f g, v => ∃ x y, f.Means measure env x ∧ g.Means measure env y ∧ y ≠ 0 ∧ v = x / y
  | before f, v => f.Means measure env v
  | after f, v => f.Means measure env v

/-- The angle of a line is only asked for two points at different places. -/
def Apart (env : Env) : Formula → Prop
  | angleLine a b => ∀ p, env.points (String.ofList a) = some (some p) → env.points (String.ofList b) ≠ some (some p)
  | paren f => f.Apart env
  | pos f => f.Apart env
  | neg f => f.Apart env
  | add f g => f.Apart env ∧ g.Apart env
  | sub f g => f.Apart env ∧ g.Apart env
  | mul f g => f.Apart env ∧ g.Apart env
  | div f g => f.Apart env ∧ g.Apart env
  | before f => f.Apart env
  | after f => f.Apart env
  | _ => True

/-- The formula uses the points `a` and `b`. -/
def UsesPoints (f : Formula) (a b : Text) : Prop := line a b ∈ f.parts ∨ angleLine a b ∈ f.parts

/-- The reason of an exception. -/
def Reason (measure : Text → Option ℝ) (env : Env) (f : Formula) : PyErr → Prop
  | .zeroDivisionError => ∃ x y, div x y ∈ f.parts ∧ y.Means measure env 0
  | .keyError => (∃ a b, f.UsesPoints a b ∧ (env.points (String.ofList a) = none ∨ env.points (String.ofList b) = none)) ∨
      ∃ n, custom n ∈ f.parts ∧ measure ('@' :: n) = none
  | .typeError => ∃ a b, f.UsesPoints a b ∧ env.points (String.ofList b) = some none
  | .attributeError => (∃ a b, f.UsesPoints a b ∧ env.points (String.ofList a) = some none) ∨ (currentLength ∈ f.parts ∧ env.current = none)
  | _ => False

end Formula

/-- The names that Python is given for the custom measurements: the measurement is looked for in a dictionary, and its name can be read. -/
structure Names (pyName : Text → Except PyErr Text) : Prop where
  lookup : ∀ x, pyName x = .error .keyError ∨ ∃ p, pyName x = .ok p
  isName : ∀ n p, (∀ c ∈ n, isIdent c = true) → Free n → pyName ('@' :: n) = .ok p → Formula.IsName p

/-- The values of the measurements: a name with `@` is the one of a custom measurement. -/
def measured (pyName : Text → Except PyErr Text) (cache : Text → Option ℝ) (x : Text) : Option ℝ :=
  if x.head? = some '@' then
    match pyName x with
    | .ok p => cache p
    | .error _ => none
  else cache x

end Patro.Formulas
