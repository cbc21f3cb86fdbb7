import Verif.Model.Py
/-!
# Model of `Patro/Common/Xml/Objectivity.py`

A text is a list of characters.  `V` is the type of the Python values other than `None`; an attribute value is
`Option V`.  An XML element is its attribute dictionary and its text; writing an element to bytes and parsing it
again is done by lxml and not modelled.
-/

namespace Patro.Xml

open Patro

/-- A text. -/
abbrev Text := List Char

/-- An attribute declaration: `Attribute.__init__` (Objectivity.py:53-62) with its two codecs `from_xml`
(91-94) and `to_xml` (98-100).  `fromPy` is `from_xml` applied to a Python value, which is what
`_init_from_kwargs` does. -/
structure Attr (V : Type _) where
  py : String
  xml : String
  default : Option V
  fromXml : Text → Except PyErr (Option V)
  toXml : V → Text
  fromPy : Option V → Except PyErr (Option V)

/-- The attributes stored in an instance, by Python name (`_py` in the instance dictionary). -/
abbrev Obj (V : Type _) := Dict String (Option V)

variable {V : Type _}

/-- One turn of the loop of `XmlObjectAdaptator._init_from_xml` (Objectivity.py:273-280). -/
def readAttr (xml : Dict String Text) (o : Obj V) (a : Attr V) : Except PyErr (Obj V) :=
  match xml.get? a.xml with
  | some t => do
    let v ← a.fromXml t
    return o.set a.py v
  | none => return o.set a.py a.default

/-- `XmlObjectAdaptator._init_from_xml` (Objectivity.py:271-280) on a fresh instance. -/
def initFromXml (attrs : List (Attr V)) (xml : Dict String Text) : Except PyErr (Obj V) :=
  attrs.foldlM (readAttr xml) []

/-- `XmlObjectAdaptator._init_from_kwargs` (Objectivity.py:284-294) on a fresh instance. -/
def initFromKwargs (attrs : List (Attr V)) (kwargs : Dict String (Option V)) : Except PyErr (Obj V) :=
  attrs.foldlM (init := []) fun o a =>
    match kwargs.get? a.py with
    | some t => do
      let v ← a.fromPy t
      return o.set a.py v
    | none => return o.set a.py a.default

/-- `XmlObjectAdaptator.__init__` (Objectivity.py:257-262): positional argument first, then keyword arguments,
and nothing at all when both are missing. -/
def new (attrs : List (Attr V)) (args : Option (Dict String Text)) (kwargs : Dict String (Option V)) :
    Except PyErr (Obj V) :=
  match args with
  | some xml => initFromXml attrs xml
  | none => if kwargs.isEmpty then .ok [] else initFromKwargs attrs kwargs

/-- One turn of the loop of `XmlObjectAdaptator.to_xml` (Objectivity.py:325-328). `getattr` of an attribute that
was never set raises `AttributeError`. -/
def writeAttr (o : Obj V) (xml : Dict String Text) (a : Attr V) : Except PyErr (Dict String Text) :=
  match o.get? a.py with
  | none => .error .attributeError
  | some none => .ok xml
  | some (some v) => .ok (xml.set a.xml (a.toXml v))

/-- `XmlObjectAdaptator.to_xml` (Objectivity.py:318-331): the attributes of the element. -/
def toXml (attrs : List (Attr V)) (o : Obj V) (kwargs : Dict String Text) : Except PyErr (Dict String Text) := do
  let xml ← attrs.foldlM (writeAttr o) []
  return xml.update kwargs

/-- `XmlObjectAdaptator.to_dict` (Objectivity.py:309-314). -/
def toDict (attrs : List (Attr V)) (o : Obj V) (exclude : List String) : Except PyErr (Dict String (Option V)) :=
  attrs.foldlM (init := []) fun d a =>
    if a.py ∈ exclude then .ok d
    else match o.get? a.py with
      | none => .error .attributeError
      | some v => .ok (d.set a.py v)

/-! ## Text elements -/

/-- A text element: its attributes and `element.text`, `none` when it has no text. -/
structure Element where
  attrib : Dict String Text
  text : Option Text

/-- A `TextXmlObjectAdaptator` instance. -/
structure TextObj (V : Type _) where
  attrs : Obj V
  text : Text

/-- `TextXmlObjectAdaptator.__init__(element, **kwargs)` (Objectivity.py:352-362). `super().__init__` calls the
overridden `_init_from_xml`, which sets the text to `str(xml_element.text)`; then the constructor sets the text
again to `kwargs.get('text', '')`. `textArg` is the keyword argument `text`. -/
def TextObj.ofXml (attrs : List (Attr V)) (e : Element) (textArg : Option Text) :
    Except PyErr (TextObj V) := do
  let o ← initFromXml attrs e.attrib
  -- self.text = str(xml_element.text)
  let self : TextObj V := { attrs := o, text := e.text.getD "None".toList }
  -- self.text = kwargs.get('text', '')
  return { self with text := textArg.getD [] }

/-- `TextXmlObjectAdaptator(**kwargs)`. -/
def TextObj.ofKwargs (attrs : List (Attr V)) (kwargs : Dict String (Option V)) (textArg : Option Text) :
    Except PyErr (TextObj V) := do
  let o ← if kwargs.isEmpty && textArg.isNone then .ok [] else initFromKwargs attrs kwargs
  return { attrs := o, text := textArg.getD [] }

/-- `TextXmlObjectAdaptator.to_xml` (Objectivity.py:366-371). -/
def TextObj.toXml (attrs : List (Attr V)) (o : TextObj V) (kwargs : Dict String Text) : Except PyErr Element := do
  let x ← Xml.toXml attrs o.attrs kwargs
  return { attrib := x, text := some o.text }

/-! ## Codecs -/

/-- `BoolAttribute.from_xml` (Objectivity.py:133-140). -/
def boolFromXml (value : Text) : Except PyErr Bool :=
  if value = "true".toList ∨ value = "1".toList then .ok true
  else if value = "false".toList ∨ value = "0".toList then .ok false
  else .error .valueError

/-- `BoolAttribute.to_xml` (Objectivity.py:144-146). -/
def boolToXml (b : Bool) : Text := if b then "true".toList else "false".toList

/-- The decimal digits of a natural number, as written by `str`. -/
def natToText (n : Nat) : Text :=
  if n < 10 then [Char.ofNat (48 + n)] else natToText (n / 10) ++ [Char.ofNat (48 + n % 10)]

/-- `str(i)` for a Python integer (`Attribute.to_xml`, Objectivity.py:98-100). -/
def intToText (i : Int) : Text :=
  match i with
  | .ofNat n => natToText n
  | .negSucc n => '-' :: natToText (n + 1)

/-- ASCII white space skipped by `int` (other Unicode spaces are not modelled). -/
def isSpace (c : Char) : Bool := c = ' ' || c = '\t' || c = '\n' || c = '\r' || c = '\x0b' || c = '\x0c'

/-- Value of an ASCII decimal digit (other Unicode digits are not modelled). -/
def digit? (c : Char) : Option Nat :=
  if '0'.toNat ≤ c.toNat ∧ c.toNat ≤ '9'.toNat then some (c.toNat - '0'.toNat) else none

/-- Digits with single underscores between digits; `acc` is the value so far, `prev` tells that the previous
character was a digit. -/
def parseDigits : Nat → Bool → Text → Except PyErr Nat
  | acc, prev, [] => if prev then .ok acc else .error .valueError
  | acc, prev, c :: t =>
    match digit? c with
    | some d => parseDigits (10 * acc + d) true t
    | none => if c = '_' ∧ prev then parseDigits acc false t else .error .valueError

/-- `text.strip()`. -/
def strip (t : Text) : Text := ((t.dropWhile isSpace).reverse.dropWhile isSpace).reverse

/-- `int(text)` in base 10 (`IntAttribute.from_xml`, Objectivity.py:155-156). -/
def intFromText (t : Text) : Except PyErr Int :=
  match strip t with
  | '-' :: r => do let n ← parseDigits 0 false r; return -(n : Int)
  | '+' :: r => do let n ← parseDigits 0 false r; return (n : Int)
  | r => do let n ← parseDigits 0 false r; return (n : Int)

/-- `text.split(c)` for a one character separator. -/
def split (c : Char) : Text → List Text
  | [] => [[]]
  | x :: t =>
    if x = c then [] :: split c t
    else match split c t with
      | [] => [[x]]
      | w :: ws => (x :: w) :: ws

/-- `sep.join(items)` for a one character separator. -/
def join (c : Char) : List Text → Text
  | [] => []
  | [w] => w
  | w :: ws => w ++ c :: join c ws

section FloatList

variable {F : Type _} (parse : Text → Except PyErr F) (print : F → Text)

/-- `FloatListAttribute.from_xml` (Objectivity.py:174-188) on a text. `parse` is `float`. -/
def floatListFromXml (value : Text) : Except PyErr (Option (List F)) :=
  if value = "none".toList then .ok none
  else if ' ' ∈ value then do
    let l ← (split ' ' value).mapM parse
    return some l
  else if ',' ∈ value then do
    let l ← (split ',' value).mapM parse
    return some l
  else do
    let x ← parse value
    return some [x]

/-- `FloatListAttribute.to_xml` (Objectivity.py:192-194). `print` is `str`. -/
def floatListToXml (value : List F) : Text := join ' ' (value.map print)

end FloatList

/-! ## Attribute collection -/

/-- A class of the hierarchy: its own `__attributes__`, its base classes, and `__mro__[1:-1]` of the class.
The method resolution order itself (C3) is computed by Python and is data here. Plain mixin classes, which do not
use the metaclass, are supposed to have no bases. -/
inductive Cls (A : Type _) where
  | mk (own : List A) (bases : List (Cls A)) (mro : List (Cls A)) : Cls A

mutual
/-- `cls.__attributes__` after `XmlObjectAdaptatorMetaClass.__init__` (Objectivity.py:216-228). -/
def Cls.attributes {A : Type _} : Cls A → List A
  | .mk own bases _ => registerFromSuperClass bases ++ own

/-- `XmlObjectAdaptatorMetaClass.register_from_super_class` (Objectivity.py:232-244). Classes without
`__attributes__` contribute an empty list. -/
def registerFromSuperClass {A : Type _} : List (Cls A) → List A
  | [] => []
  | .mk own bases mro :: rest =>
    registerFromSuperClass mro ++ (Cls.mk own bases mro).attributes ++ registerFromSuperClass rest
end

end Patro.Xml
