import Verif.Model.Color
/-!
# What colours are expected to be
-/

namespace Patro.Colour

open Xml (Text)

/-- The sixteen digits, in lower case and in upper case. -/
def lowerDigits : Text := "0123456789abcdef".toList
@[inherit_doc lowerDigits] def upperDigits : Text := "0123456789ABCDEF".toList

/-- The character is a digit, in lower or upper case, of this value. -/
def IsHex (c : Char) (d : Fin 16) : Prop := lowerDigits[d]? = some c ∨ upperDigits[d]? = some c

/-- The text of a colour from its six digits. -/
def hexText (d : Fin 6 → Fin 16) : Text := '#' :: (List.ofFn d).map fun x : Fin 16 => lowerDigits.getD x '0'

/-- The text is `#` and six digits of these values. -/
def IsColorText (t : Text) (d : Fin 6 → Fin 16) : Prop :=
  ∃ c : Fin 6 → Char, t = '#' :: List.ofFn c ∧ ∀ i, IsHex (c i) (d i)

/-- A text of one or two characters stands for a number: one or two digits, or one digit after a sign, or beside a space. -/
inductive StandsFor : Text → ℤ → Prop
  | two {a b x y} : IsHex a x → IsHex b y → StandsFor [a, b] (16 * (x : ℤ) + y)
  | one {a x} : IsHex a x → StandsFor [a] x
  | before {s a x} : Xml.isSpace s = true → IsHex a x → StandsFor [s, a] x
  | after {s a x} : Xml.isSpace s = true → IsHex a x → StandsFor [a, s] x
  | plus {a x} : IsHex a x → StandsFor ['+', a] x
  | minus {a x} : IsHex a x → StandsFor ['-', a] (-x)

/-- The integer components of a colour are given by the six digits. -/
def HasDigits (c : Color) (d : Fin 6 → Fin 16) : Prop :=
  c.redInt = 16 * (d 0 : ℤ) + d 1 ∧ c.greenInt = 16 * (d 2 : ℤ) + d 3 ∧ c.blueInt = 16 * (d 4 : ℤ) + d 5

/-- The components are between 0 and 1. -/
def InRange (c : Color) : Prop :=
  (0 ≤ c.red ∧ c.red ≤ 1) ∧ (0 ≤ c.green ∧ c.green ≤ 1) ∧ 0 ≤ c.blue ∧ c.blue ≤ 1

/-- A valid component: an integer from 0 to 255, or a float from 0 to 1, that stands for `q`. -/
def IsComponent (a : Arg) (q : ℚ) : Prop :=
  (∃ i : ℤ, a = .num (.int i) ∧ 0 ≤ i ∧ i ≤ 255 ∧ q = i / 255) ∨ (a = .num (.flt q) ∧ 0 ≤ q ∧ q ≤ 1)

/-- The name with underscores instead of spaces. -/
def underscored (name : Text) : Text := name.map fun c => if c = ' ' then '_' else c

/-- The text of the first definition of a name. -/
def firstDefinition (items : List (Text × Text)) (name : Text) : Option Text :=
  (items.find? fun item => underscored item.1 = name).map (·.2)

end Patro.Colour
