import Verif.Model.Valentina
import Verif.Spec.Color
/-!
# Vocabulary for Valentina files

Which attribute of an element says what about an operation.
-/

namespace Patro.Valentina

open Xml (Text)
open Tex (StrokeStyle)

variable {F : Type}

/-- What a property of an operation is: another operation, a formula, a name, a colour, a colour kept as a text, a stroke
style. -/
inductive Meaning where
  | reference
  | formula
  | name
  | colour
  | colourText
  | style
deriving DecidableEq, Repr

/-- A property of an operation and the XML attribute that gives it. -/
structure Row where
  py : String
  xml : String
  meaning : Meaning
deriving DecidableEq, Repr

/-- The colour and the style of the construction line of a point, or of a line. -/
def strokeRows : List Row := [⟨"line_color", "lineColor", .colour⟩, ⟨"line_style", "typeLine", .style⟩]

/-- The two points of a direction. -/
def pairRows : List Row := [⟨"first_point", "firstPoint", .reference⟩, ⟨"second_point", "secondPoint", .reference⟩]

/-- The format, for the calculations that are implemented; besides these, every element has an `id` and a point has the
offset `mx`, `my` of its label. -/
def table : Class → List Row
  | .alongLine => [⟨"name", "name", .name⟩] ++ strokeRows ++ pairRows ++ [⟨"length", "length", .formula⟩]
  | .endLine => [⟨"name", "name", .name⟩] ++ strokeRows ++
      [⟨"base_point", "basePoint", .reference⟩, ⟨"length", "length", .formula⟩, ⟨"angle", "angle", .formula⟩]
  | .lineIntersect => [⟨"name", "name", .name⟩, ⟨"point1_line1", "p1Line1", .reference⟩, ⟨"point2_line1", "p2Line1", .reference⟩,
      ⟨"point1_line2", "p1Line2", .reference⟩, ⟨"point2_line2", "p2Line2", .reference⟩]
  | .normal => [⟨"name", "name", .name⟩] ++ strokeRows ++ pairRows ++ [⟨"length", "length", .formula⟩, ⟨"angle", "angle", .formula⟩]
  | .pointOfContact => [⟨"name", "name", .name⟩] ++ pairRows ++ [⟨"center", "center", .reference⟩, ⟨"radius", "radius", .formula⟩]
  | .pointOfIntersection => [⟨"name", "name", .name⟩] ++ pairRows
  | .single => [⟨"name", "name", .name⟩, ⟨"x", "x", .formula⟩, ⟨"y", "y", .formula⟩]
  | .line => strokeRows ++ pairRows
  | .spline => [⟨"first_point", "point1", .reference⟩, ⟨"second_point", "point4", .reference⟩, ⟨"length1", "length1", .formula⟩,
      ⟨"length2", "length2", .formula⟩, ⟨"angle1", "angle1", .formula⟩, ⟨"angle2", "angle2", .formula⟩,
      ⟨"line_color", "color", .colourText⟩]

/-- The values of the attribute `typeLine`. -/
def StyleName (t : Text) (s : StrokeStyle) : Prop :=
  (t = "none".toList ∧ s = .noPen) ∨ (t = "hair".toList ∧ s = .solidLine) ∨ (t = "dashLine".toList ∧ s = .dashLine) ∨
  (t = "dotLine".toList ∧ s = .dotLine) ∨ (t = "dashDotLine".toList ∧ s = .dashDotLine) ∨
  (t = "dashDotDotLine".toList ∧ s = .dashDotDotLine)

/-- The colour a text stands for: `#rrggbb`, or a name of the database. -/
def ColourName (db : Colour.DataBase) (t : Text) (c : Colour.Color) : Prop :=
  (t.head? = some '#' ∧ Colour.new [.text t] = .ok c) ∨ (t.head? ≠ some '#' ∧ db.get? t = some c)

/-- The element is a calculation of this class, by its tag and its type. -/
def IsClass (e : Element) (c : Class) : Prop :=
  (c = .line ∧ e.tag = some "line") ∨
  (c = .spline ∧ e.tag = some "spline" ∧ e.attrib.get? "type" = some "simpleInteractive".toList) ∨
  (c.isPoint = true ∧ e.tag = some "point" ∧ e.attrib.get? "type" = some c.typeName)

/-- A calculation that is known to the format but not implemented: an element that is skipped. -/
def NotImplemented (e : Element) : Prop :=
  e.tag = some "arc" ∨ e.tag = some "ellipse" ∨ e.tag = some "operation" ∨
  (e.tag = some "spline" ∧ ∃ t, e.attrib.get? "type" = some t ∧
    t ∈ ["cubicBezier", "cubicBezierPath", "pathInteractive"].map String.toList) ∨
  (e.tag = some "point" ∧ ∃ t, e.attrib.get? "type" = some t ∧
    t ∈ ["bisector", "curveIntersectAxis", "cutArc", "cutSpline", "cutSplinePath", "height", "lineIntersectAxis",
      "pointFromArcAndTangent", "pointFromCircleAndTangent", "pointOfIntersectionArcs", "pointOfIntersectionCircles",
      "pointOfIntersectionCurves", "shoulder", "triangle", "trueDarts"].map String.toList)

/-- The property called `name` has this value. -/
def Operation.Has (o : Operation F) (name : String) (v : Option (Val F)) : Prop := o.fields.get? name = some v

/-- A point without name. -/
def Unnamed (o : Operation F) : Prop := o.cls.isPoint = true ∧ o.Has "name" none

/-- The operation, among the earlier ones, that the text of an attribute refers to: the one with this id. A missing attribute
refers to the last point without name. -/
def Refers (earlier : List (Operation F)) (t : Option Text) (i : Int) : Prop :=
  match t with
  | some t => Xml.intFromText t = .ok i ∧ ∃ o ∈ earlier, o.id = i
  | none => ∃ l1 o l2, earlier = l1 ++ o :: l2 ∧ o.id = i ∧ Unnamed o ∧ ∀ p ∈ l2, ¬ Unnamed p

/-- What the text of an attribute, if the element has the attribute, says about a property. -/
def Says (env : Env F) (earlier : List (Operation F)) : Meaning → Option Text → Option (Val F) → Prop
  | .reference, t, v => ∃ i, Refers earlier t i ∧ v = some (.op i)
  | .formula, t, v => v = some (.expr (t.getD "None".toList))
  | .name, t, v => v = t.map .text
  | .colourText, t, v => v = t.map .text
  | .colour, some t, v => ∃ c, ColourName env.db t c ∧ v = some (.color c)
  | .colour, none, v => v = none
  | .style, some t, v => ∃ s, StyleName t s ∧ v = some (.stroke s)
  | .style, none, v => v = none

/-- A coordinate of the offset of a label. -/
def Coordinate (env : Env F) : Option Text → F → Prop
  | some t, x => env.parse t = .ok x
  | none, x => x = env.nan

/-- The id of an operation, when the last id given in the process is `counter`: the one of the element, which must be greater, or
the next one. -/
def NewId (counter : Int) : Option Text → Int → Prop
  | some t, i => Xml.intFromText t = .ok i ∧ counter < i
  | none, i => i = counter + 1

/-- The operation is what the element describes, after the operations `earlier`. -/
structure Describes (env : Env F) (counter : Int) (earlier : List (Operation F)) (e : Element) (o : Operation F) : Prop where
  isClass : IsClass e o.cls
  id : NewId counter (e.attrib.get? "id") o.id
  rows : ∀ r ∈ table o.cls, ∃ v, Says env earlier r.meaning (e.attrib.get? r.xml) v ∧ o.Has r.py v
  offset : if o.cls.isPoint then ∃ x y, o.offset = some (x, y) ∧ Coordinate env (e.attrib.get? "mx") x ∧
    Coordinate env (e.attrib.get? "my") y else o.offset = none
  solid : o.cls = .spline → o.Has "line_style" (some (.stroke .solidLine))

/-- The points an operation is made from are points; the centre of a circle is not looked at. -/
def FromPoints (earlier : List (Operation F)) (o : Operation F) : Prop :=
  ∀ r ∈ table o.cls, r.meaning = .reference → r.py ≠ "center" →
    ∃ i, o.Has r.py (some (.op i)) ∧ ∃ p ∈ earlier, p.id = i ∧ p.cls.isPoint = true

/-- `Reading env counter earlier es ops`: the elements `es`, read after the operations `earlier`, describe the operations `ops`. -/
inductive Reading (env : Env F) : Int → List (Operation F) → List Element → List (Operation F) → Prop where
  | nil {counter earlier} : Reading env counter earlier [] []
  | skip {counter earlier e es ops} : NotImplemented e → Reading env counter earlier es ops →
      Reading env counter earlier (e :: es) ops
  | read {counter earlier e es o ops} : Describes env counter earlier e o → FromPoints earlier o →
      Reading env o.id (earlier ++ [o]) es ops → Reading env counter earlier (e :: es) (o :: ops)

/-- The last id, after the operations `ops`. -/
def lastId (counter : Int) (ops : List (Operation F)) : Int := ops.foldl (fun _ o => o.id) counter

/-- Two operations with the same class, id, offset and properties. -/
structure Agree (o o' : Operation F) : Prop where
  cls : o'.cls = o.cls
  id : o'.id = o.id
  offset : o'.offset = o.offset
  rows : ∀ r ∈ table o.cls, o'.fields.get? r.py = o.fields.get? r.py
  solid : o.cls = .spline → o'.fields.get? "line_style" = o.fields.get? "line_style"

/-- The exceptions that stop the reading. -/
def Stops (err : PyErr) : Prop := err = .keyError ∨ err = .valueError ∨ err = .nameError ∨ err = .attributeError

/-! ## Sketches -/

/-- The sketches a program can build with the API: calls of the methods that add an operation, whether they raise or not, while
the ids given to other sketches increase. -/
inductive Built (env : Env F) : Sketch F → Prop where
  | new (counter : Int) : Built env { counter := counter }
  | call {s : Sketch F} (cls : Class) (kwargs : Dict String (Option (Val F))) (offset : Option (F × F)) :
      Built env s → Built env (s.call env cls kwargs offset).1
  | other {s : Sketch F} (counter : Int) : Built env s → s.counter ≤ counter → Built env { s with counter := counter }

/-- The values that can be written: a stroke style, and a colour or none. -/
structure Writable (o : Operation F) : Prop where
  style : ∀ r ∈ table o.cls, r.meaning = .style → ∃ s, o.Has r.py (some (.stroke s))
  colour : ∀ r ∈ table o.cls, r.meaning = .colour → o.Has r.py none ∨ ∃ c, o.Has r.py (some (.color c))

/-- The values that the format can hold: besides, a name that is a text, a colour that has a text, and for a spline a colour and a
solid line. -/
structure Portable (ops : List (Operation F)) (o : Operation F) : Prop where
  writable : Writable o
  name : o.cls.isPoint = true → ∃ t, o.Has "name" (some (.text t))
  colour : ∀ r ∈ table o.cls, ∀ c, r.meaning = .colour → o.Has r.py (some (.color c)) → Colour.InRange c
  spline : o.cls = .spline → (∃ c, o.Has "line_color" (some (.color c))) ∧ o.Has "line_style" (some (.stroke .solidLine))
  points : FromPoints ops o

/-- The same value after a round trip: colours are compared as Python does, by their text; the colour of a spline comes back as
that text. -/
def SameValue : Meaning → Option (Val F) → Option (Val F) → Prop
  | .colour, some (.color c), w => ∃ c', w = some (.color c') ∧ c'.eq c = true
  | .colourText, some (.color c), w => w = some (.text c.str)
  | _, v, w => w = v

/-- The same operation after a round trip. -/
structure Same (o o' : Operation F) : Prop where
  cls : o'.cls = o.cls
  id : o'.id = o.id
  offset : o'.offset = o.offset
  rows : ∀ r ∈ table o.cls, ∃ v w, o.Has r.py v ∧ o'.Has r.py w ∧ SameValue r.meaning v w
  solid : o.cls = .spline → o'.fields.get? "line_style" = o.fields.get? "line_style"

/-- The same scope after a round trip. -/
structure SameScope (s s' : Scope F) : Prop where
  name : s'.name = s.name
  ops : List.Forall₂ Same s.ops s'.ops

/-- Every offset of the list is read back from its text. -/
def OffsetsReadBack (env : Env F) (ops : List (Operation F)) : Prop :=
  ∀ o ∈ ops, ∀ x y, o.offset = some (x, y) → env.parse (env.print x) = .ok x ∧ env.parse (env.print y) = .ok y

/-- What an element says about an operation it was made from, property by property. -/
def WrittenAs (env : Env F) : Meaning → Option (Val F) → Option Text → Prop
  | .reference, v, t => ∃ i, v = some (.op i) ∧ t = some (Xml.intToText i)
  | .formula, v, t => ∃ f, v = some (.expr f) ∧ t = some f
  | .name, v, t => t = some (pyStr env v)
  | .colourText, v, t => t = some (pyStr env v)
  | .colour, v, t => (v = none ∧ t = none) ∨ (∃ c, v = some (.color c) ∧ t = some c.str)
  | .style, v, t => ∃ s n, v = some (.stroke s) ∧ StyleName n s ∧ t = some n

/-- The element is what the operation is written as. -/
structure Written (env : Env F) (o : Operation F) (e : Element) : Prop where
  isClass : IsClass e o.cls
  id : e.attrib.get? "id" = some (Xml.intToText o.id)
  rows : ∀ r ∈ table o.cls, ∃ v, o.Has r.py v ∧ WrittenAs env r.meaning v (e.attrib.get? r.xml)
  offset : o.cls.isPoint = true → ∃ x y, o.offset = some (x, y) ∧ e.attrib.get? "mx" = some (env.print x) ∧
    e.attrib.get? "my" = some (env.print y)

end Patro.Valentina
