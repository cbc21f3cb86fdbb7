import Mathlib.Data.Rat.Floor
import Mathlib.Algebra.Order.Floor.Ring
import Verif.Model.Text
import Verif.Model.Xml
/-!
# Model of `Patro/GraphicStyle/Color`

Components are rational numbers and rounding is not modelled. Texts are made of ASCII characters (`int` also accepts the
decimal digits of other scripts, and `str.strip` other spaces).
-/

namespace Patro.Colour

open Xml (Text)

/-- An instance of `Color` (Patro/GraphicStyle/Color/ColorDataBase.py:59-98): the three components and the name. -/
@[ext] structure Color where
  red : ℚ := 0
  green : ℚ := 0
  blue : ℚ := 0
  name : Option Text := none
deriving DecidableEq, Repr

/-- A Python number given to the constructor: an integer, or a float. A `bool` is an integer. -/
inductive Num where
  | int (i : Int)
  | flt (q : ℚ)
deriving DecidableEq, Repr

/-- The value of a number. -/
def Num.val : Num → ℚ
  | .int i => i
  | .flt q => q

/-- `int(x)` of a float: the fractional part is dropped. -/
def trunc (q : ℚ) : Int := if 0 ≤ q then ⌊q⌋ else ⌈q⌉

/-- `_to_int(x)` (ColorDataBase.py:117-119). -/
def toInt (x : ℚ) : Int := trunc (x * 255)

/-- `_to_float(x)` (ColorDataBase.py:121-123). -/
def toFloat (x : Int) : ℚ := x / 255

/-- `_check_value(value)` (ColorDataBase.py:127-135) for a number. -/
def checkNum : Num → Except PyErr ℚ
  | .int i => if 0 ≤ i ∧ i ≤ 255 then .ok (toFloat i) else .error .valueError
  | .flt q => if 0 ≤ q ∧ q ≤ 1 then .ok q else .error .valueError

/-- A digit of a number written in base 16 by `format`. -/
def hexDigit (n : Nat) : Char := if n < 10 then Char.ofNat (48 + n) else Char.ofNat (87 + n)

/-- The digits of a number in base 16. -/
def hexDigits (n : Nat) : Text := if n < 16 then [hexDigit n] else hexDigits (n / 16) ++ [hexDigit (n % 16)]

/-- `'{:02x}'.format(i)`. -/
def format02x (i : Int) : Text :=
  if i < 0 then '-' :: hexDigits i.natAbs
  else if i < 16 then '0' :: hexDigits i.natAbs
  else hexDigits i.natAbs

/-- The value of a character as a digit in base 16. -/
def hexValue (c : Char) : Option Nat :=
  if '0' ≤ c ∧ c ≤ '9' then some (c.toNat - 48)
  else if 'a' ≤ c ∧ c ≤ 'f' then some (c.toNat - 87)
  else if 'A' ≤ c ∧ c ≤ 'F' then some (c.toNat - 55)
  else none

/-- The value of a sequence of digits in base 16. -/
def parseHexDigits : Nat → Text → Option Nat
  | acc, [] => some acc
  | acc, c :: t =>
    match hexValue c with
    | some d => parseHexDigits (16 * acc + d) t
    | none => none

/-- The value of a non-empty sequence of digits. -/
def parseHexNat (t : Text) : Except PyErr Int :=
  if t = [] then .error .valueError
  else match parseHexDigits 0 t with
    | some n => .ok n
    | none => .error .valueError

/-- `int(x, 16)` for a text of at most two characters: surrounding spaces and one sign are accepted. A prefix `0x` or an
underscore need more characters to be accepted. -/
def intBase16 (x : Text) : Except PyErr Int :=
  match Xml.strip x with
  | '-' :: t => do return - (← parseHexNat t)
  | '+' :: t => parseHexNat t
  | t => parseHexNat t

namespace Color

/-- `red`, `green`, `blue` (ColorDataBase.py:143-169): the components as integers. -/
def redInt (c : Color) : Int := toInt c.red
@[inherit_doc redInt] def greenInt (c : Color) : Int := toInt c.green
@[inherit_doc redInt] def blueInt (c : Color) : Int := toInt c.blue

/-- `str(color)` (ColorDataBase.py:107-108). -/
def str (c : Color) : Text := '#' :: (format02x c.redInt ++ format02x c.greenInt ++ format02x c.blueInt)

/-- `color == other` for two colours (ColorDataBase.py:195-196). -/
def eq (c d : Color) : Bool := decide (c.str = d.str)

end Color

/-- A positional argument of the constructor: a number, a text, a colour, or another object whose text does not start with
`#`, such as `None`. -/
inductive Arg where
  | num (n : Num)
  | text (t : Text)
  | color (c : Color)
  | other
deriving DecidableEq, Repr

/-- `str(arg)`, for the texts that start with `#`. -/
def Arg.hashText : Arg → Option Text
  | .num _ => none
  | .text t => if t.head? = some '#' then some t else none
  | .color c => some c.str
  | .other => none

/-- `_check_value(value)` (ColorDataBase.py:127-135). -/
def checkValue : Arg → Except PyErr ℚ
  | .num n => checkNum n
  | _ => .error .valueError

/-- The components read from the text after `#` (ColorDataBase.py:74-77). -/
def readComponents (rgb : Text) : Except PyErr (ℚ × ℚ × ℚ) := do
  let red ← intBase16 (rgb.take 2)
  let green ← intBase16 ((rgb.drop 2).take 2)
  let blue ← intBase16 (rgb.drop (rgb.length - 2))
  return (toFloat red, toFloat green, toFloat blue)

/-- The components given by the positional arguments (ColorDataBase.py:63-81). The test of line 66 compares the class `str`
with `Color`: it is never true, and a colour is read back from its text. -/
def positional : List Arg → Except PyErr (ℚ × ℚ × ℚ)
  | [a] =>
    match a.hashText with
    | some t => readComponents (t.drop 1)
    | none => .error .valueError
  | [a, b, c] => do
    let red ← checkValue a
    let green ← checkValue b
    let blue ← checkValue c
    return (red, green, blue)
  | _ => .ok (0, 0, 0)

/-! ## `colorsys`, of the standard library -/

/-- `q % 1.0`. -/
def mod1 (q : ℚ) : ℚ := q - ⌊q⌋

/-- The hue computed by `rgb_to_hsv` and `rgb_to_hls`, for a maximum that is not the minimum. -/
def hueOf (r g b maxc minc : ℚ) : ℚ :=
  let rc := (maxc - r) / (maxc - minc)
  let gc := (maxc - g) / (maxc - minc)
  let bc := (maxc - b) / (maxc - minc)
  let h := if r = maxc then bc - gc else if g = maxc then 2 + rc - bc else 4 + gc - rc
  mod1 (h / 6)

/-- `colorsys.rgb_to_hsv(r, g, b)`: hue, saturation, value. -/
def rgbToHsv (r g b : ℚ) : ℚ × ℚ × ℚ :=
  let maxc := max (max r g) b
  let minc := min (min r g) b
  if minc = maxc then (0, 0, maxc) else (hueOf r g b maxc minc, (maxc - minc) / maxc, maxc)

/-- `colorsys.rgb_to_hls(r, g, b)`: hue, lightness, saturation. -/
def rgbToHls (r g b : ℚ) : ℚ × ℚ × ℚ :=
  let maxc := max (max r g) b
  let minc := min (min r g) b
  let l := (minc + maxc) / 2
  if minc = maxc then (0, l, 0)
  else if l ≤ 1 / 2 then (hueOf r g b maxc minc, l, (maxc - minc) / (maxc + minc))
  else (hueOf r g b maxc minc, l, (maxc - minc) / (2 - maxc - minc))

/-- `colorsys.hsv_to_rgb(h, s, v)`. The component that is `v` itself keeps its type; the others are floats. -/
def hsvToRgb (h s v : Num) : Num × Num × Num :=
  if s.val = 0 then (v, v, v)
  else
    let i := trunc (h.val * 6)
    let f := h.val * 6 - i
    let p := Num.flt (v.val * (1 - s.val))
    let q := Num.flt (v.val * (1 - s.val * f))
    let t := Num.flt (v.val * (1 - s.val * (1 - f)))
    let i := i % 6
    if i = 0 then (v, t, p)
    else if i = 1 then (q, v, p)
    else if i = 2 then (p, v, t)
    else if i = 3 then (p, q, v)
    else if i = 4 then (t, p, v)
    else (v, p, q)

/-- `colorsys._v(m1, m2, hue)`. -/
def hlsV (m1 : ℚ) (m2 : Num) (hue : ℚ) : Num :=
  let hue := mod1 hue
  if hue < 1 / 6 then .flt (m1 + (m2.val - m1) * hue * 6)
  else if hue < 1 / 2 then m2
  else if hue < 2 / 3 then .flt (m1 + (m2.val - m1) * (2 / 3 - hue) * 6)
  else .flt m1

/-- `l + s - l*s`: an integer when `l` and `s` are. -/
def hlsM2 : Num → Num → Num
  | .int l, .int s => .int (l + s - l * s)
  | l, s => .flt (l.val + s.val - l.val * s.val)

/-- `colorsys.hls_to_rgb(h, l, s)`. -/
def hlsToRgb (h l s : Num) : Num × Num × Num :=
  if s.val = 0 then (l, l, l)
  else
    let m2 := if l.val ≤ 1 / 2 then .flt (l.val * (1 + s.val)) else hlsM2 l s
    let m1 := 2 * l.val - m2.val
    (hlsV m1 m2 (h.val + 1 / 3), hlsV m1 m2 h.val, hlsV m1 m2 (h.val - 1 / 3))

/-! ## The constructor -/

/-- The keyword arguments of the constructor. -/
structure Kwargs where
  hue : Option Num := none
  light : Option Num := none
  value : Option Num := none
  saturation : Option Num := none
  name : Option Text := none

/-- `kwargs[x]`. -/
def required (x : Option Num) : Except PyErr Num :=
  match x with
  | some n => .ok n
  | none => .error .keyError

/-- The three components of the result of `colorsys` are checked (ColorDataBase.py:92). -/
def checkTriple (t : Num × Num × Num) : Except PyErr (ℚ × ℚ × ℚ) := do
  let red ← checkNum t.1
  let green ← checkNum t.2.1
  let blue ← checkNum t.2.2
  return (red, green, blue)

/-- The components given by the keyword arguments, if `hue` is one of them (ColorDataBase.py:83-92). -/
def keyword (k : Kwargs) : Except PyErr (Option (ℚ × ℚ × ℚ)) :=
  match k.hue, k.light, k.value with
  | none, _, _ => .ok none
  | some h, some l, _ => do
    let s ← required k.saturation
    return some (← checkTriple (hlsToRgb h l s))
  | some h, none, some v => do
    let s ← required k.saturation
    return some (← checkTriple (hsvToRgb h s v))
  | some _, none, none => .error .valueError

/-- `Color(*args, **kwargs)` (ColorDataBase.py:59-98). -/
def new (args : List Arg) (k : Kwargs := {}) : Except PyErr Color := do
  let rgb ← positional args
  let kw ← keyword k
  let (r, g, b) := kw.getD rgb
  return ⟨r, g, b, k.name⟩

namespace Color

/-- `clone()` (ColorDataBase.py:102-103). -/
def clone (c : Color) : Except PyErr Color :=
  new [.num (.flt c.red), .num (.flt c.green), .num (.flt c.blue)] { name := c.name }

/-- The setters of `red`, `green` and `blue` (ColorDataBase.py:147-173). -/
def setRed (c : Color) (v : Arg) : Except PyErr Color := do return { c with red := ← checkValue v }
@[inherit_doc setRed] def setGreen (c : Color) (v : Arg) : Except PyErr Color := do return { c with green := ← checkValue v }
@[inherit_doc setRed] def setBlue (c : Color) (v : Arg) : Except PyErr Color := do return { c with blue := ← checkValue v }

/-- `hls` and `hsv` (ColorDataBase.py:179-185). -/
def hls (c : Color) : ℚ × ℚ × ℚ := rgbToHls c.red c.green c.blue
@[inherit_doc hls] def hsv (c : Color) : ℚ × ℚ × ℚ := rgbToHsv c.red c.green c.blue

end Color

/-! ## The database -/

/-- `ColorDataBase` (ColorDataBase.py:204-270): the colours by name. -/
abbrev DataBase := Dict Text Color

namespace DataBase

/-- `add(name, color)` (ColorDataBase.py:251-255). -/
def add (db : DataBase) (name : Text) (color : Color) : DataBase := db.set name color

/-- `ensure_color(color)` (ColorDataBase.py:259-270). -/
def ensureColor (db : DataBase) : Option Arg → Except PyErr (Option Color)
  | none => .ok none
  | some (.color c) => .ok (some c)
  | some (.text t) =>
    if t.head? = some '#' then do return some (← new [.text t])
    else do return some (← db.getItem t)
  | some _ => .error .valueError

/-- One turn of the loop of `__init__()` (Patro/GraphicStyle/Color/__init__.py:47-56). -/
def loadOne (db : DataBase) (item : Text × Text) : Except PyErr DataBase := do
  let name := Patro.Text.replace [' '] ['_'] item.1
  let color ← new [.text item.2] { name := some name }
  match db.get? name with
  | some old => if color.str ≠ old.str then return db else return db.add name color
  | none => return db.add name color

/-- `__init__()` (Color/__init__.py:38-56) for given sets of colours: the items of all the sets, in order. -/
def load (db : DataBase) (sets : List (List (Text × Text))) : Except PyErr DataBase :=
  sets.flatten.foldlM loadOne db

end DataBase

end Patro.Colour
