import Verif.Model.Py
import Verif.Model.Xml
import Verif.Model.Counter
import Verif.Model.Color
import Verif.Model.Tex
/-!
# Model of `Patro/FileFormat/Valentina/VitFormat.py` and `Patro/FileFormat/Valentina/Pattern.py`

The elements of a file are given: parsing and printing XML is done by lxml. At the pinned commit importing `Pattern.py` raises
`ImportError`, because `Patro/Measurement/ValentinaMeasurement.py` imports a class that does not exist; the functions are
modelled as they are, for the import being repaired. An operation of a sketch is designated by its id, which is unique
(`Verif.Model.Counter`). The evaluation of a sketch (`Verif.Model.Pattern`) and the file of measurements appear by the
exception they raise, if any.
-/

namespace Patro.Valentina

open Xml (Text)
open Tex (StrokeStyle)

/-- The Python values that occur: numbers, texts, colours, stroke styles, operations (by id) and expressions (by text).
`None` is `none : Option (Val F)`. -/
inductive Val (F : Type) where
  | int (i : Int)
  | flt (f : F)
  | text (t : Text)
  | color (c : Colour.Color)
  | stroke (s : StrokeStyle)
  | bool (b : Bool)
  | op (id : Int)
  | expr (t : Text)
deriving DecidableEq

/-- What the code uses from outside: `float(text)`, `str` of a float, the float that `Vector2D(None, None)` holds, the colour
database `Colors` and its colour `Colors.black`. -/
structure Env (F : Type) where
  parse : Text → Except PyErr F
  print : F → Text
  nan : F
  db : Colour.DataBase
  black : Colour.Color

/-- `str(style)` of a member of the enumeration `StrokeStyle` (Patro/GraphicStyle/__init__.py:46-53). -/
def strokeStr : StrokeStyle → Text
  | .noPen => "StrokeStyle.NoPen".toList
  | .solidLine => "StrokeStyle.SolidLine".toList
  | .dashLine => "StrokeStyle.DashLine".toList
  | .dotLine => "StrokeStyle.DotLine".toList
  | .dashDotLine => "StrokeStyle.DashDotLine".toList
  | .dashDotDotLine => "StrokeStyle.DashDotDotLine".toList

variable {F : Type} (env : Env F)

/-- `str(value)`. The text of an operation is never used and left empty. -/
def pyStr : Option (Val F) → Text
  | none => "None".toList
  | some (.int i) => Xml.intToText i
  | some (.flt f) => env.print f
  | some (.text t) => t
  | some (.color c) => c.str
  | some (.stroke s) => strokeStr s
  | some (.bool b) => if b then "True".toList else "False".toList
  | some (.op _) => []
  | some (.expr t) => t

/-! ## Attributes (VitFormat.py:70-125, Objectivity.py:130-200) -/

/-- The names in `StrokeStyleAttribute.__STROKE_STYLE__` (VitFormat.py:108-115). -/
def strokeNames : List (Text × StrokeStyle) :=
  [("dashDotDotLine".toList, .dashDotDotLine), ("dashDotLine".toList, .dashDotLine), ("dashLine".toList, .dashLine),
   ("dotLine".toList, .dotLine), ("hair".toList, .solidLine), ("none".toList, .noPen)]

/-- `__STROKE_STYLE__[value]` (VitFormat.py:117-125): after the `update` the dictionary has the names and the styles as keys. -/
def strokeLookup : Option (Val F) → Except PyErr (Option (Val F))
  | some (.text t) => (Dict.getItem strokeNames t).map fun s => some (.stroke s)
  | some (.stroke s) => (Dict.getItem (strokeNames.map fun p => (p.2, p.1)) s).map fun t => some (.text t)
  | _ => .error .keyError

/-- The classes of attributes. -/
inductive Kind where
  | int
  | float
  | text
  | bool
  | color
  | stroke
deriving DecidableEq, Repr

/-- The declaration of an attribute: the Python name, the XML name, the class. All of them have the default value `None`. -/
structure Decl where
  py : String
  xml : String
  kind : Kind
deriving DecidableEq, Repr

/-- `IntAttribute.from_xml` of a Python value (Objectivity.py:155-156): `int(value)`. An operation has `__int__`
(Common/Object.py:88-89). A float or a boolean does not occur and is refused here. -/
def intFromPy : Option (Val F) → Except PyErr (Option (Val F))
  | some (.int i) => .ok (some (.int i))
  | some (.op i) => .ok (some (.int i))
  | some (.text t) => (Xml.intFromText t).map fun i => some (.int i)
  | _ => .error .typeError

/-- `FloatAttribute.from_xml` of a Python value (Objectivity.py:165-166): `float(value)`. Values other than floats and texts do
not occur and are refused here. -/
def floatFromPy : Option (Val F) → Except PyErr (Option (Val F))
  | some (.flt f) => .ok (some (.flt f))
  | some (.text t) => (env.parse t).map fun f => some (.flt f)
  | _ => .error .typeError

/-- `Colors.ensure_color(value)` for a Python value (ColorDataBase.py:259-270). -/
def colorFromPy : Option (Val F) → Except PyErr (Option (Val F))
  | none => .ok none
  | some (.color c) => .ok (some (.color c))
  | some (.text t) => (env.db.ensureColor (some (.text t))).map fun c => c.map .color
  | _ => .error .valueError

/-- `from_xml(value)` of the class of an attribute, for a Python value (Objectivity.py:130-200, VitFormat.py:98-125). The text of an
XML attribute is such a value. -/
def decode : Kind → Option (Val F) → Except PyErr (Option (Val F))
  | .int, v => intFromPy v
  | .float, v => floatFromPy env v
  | .text, v => .ok (some (.text (pyStr env v)))
  | .bool, some (.text t) => (Xml.boolFromXml t).map fun b => some (.bool b)
  | .bool, _ => .error .valueError
  | .color, v => colorFromPy env v
  | .stroke, v => strokeLookup v

/-- `to_xml(value)` (Objectivity.py:98-100, 145-146): `str(value)`, and `true` or `false` for a boolean attribute. -/
def encode : Kind → Val F → Text
  | .bool, .bool b => Xml.boolToXml b
  | _, v => pyStr env (some v)

/-- The attribute of a declaration. -/
def Decl.attr (d : Decl) : Xml.Attr (Val F) :=
  { py := d.py, xml := d.xml, default := none
    fromXml := fun t => decode env d.kind (some (.text t))
    toXml := encode env d.kind
    fromPy := decode env d.kind }

/-! ## Calculations (VitFormat.py:274-660) -/

/-- The classes of calculations that are implemented. -/
inductive Class where
  | alongLine
  | endLine
  | lineIntersect
  | normal
  | pointOfContact
  | pointOfIntersection
  | single
  | line
  | spline
deriving DecidableEq, Repr

/-- The classes of points. -/
def Class.isPoint : Class → Bool
  | .line => false
  | .spline => false
  | _ => true

/-- `__tag__` (VitFormat.py:387, 610, 628). -/
def Class.tag : Class → String
  | .line => "line"
  | .spline => "spline"
  | _ => "point"

/-- `__type__` (VitFormat.py:418-637). -/
def Class.typeName : Class → Text
  | .alongLine => "alongLine".toList
  | .endLine => "endLine".toList
  | .lineIntersect => "lineIntersect".toList
  | .normal => "normal".toList
  | .pointOfContact => "pointOfContact".toList
  | .pointOfIntersection => "pointOfIntersection".toList
  | .single => "single".toList
  | .line => []
  | .spline => "simpleInteractive".toList

/-- The attributes collected for a point: `CalculationMixin`, `MxMyMixin`, `PointMixin` (VitFormat.py:274-287, 385-390). -/
def pointDecls : List Decl :=
  [⟨"id", "id", .int⟩, ⟨"mx", "mx", .float⟩, ⟨"my", "my", .float⟩, ⟨"name", "name", .text⟩]

/-- `LinePropertiesMixin` (VitFormat.py:320-325). -/
def lineDecls : List Decl := [⟨"line_color", "lineColor", .color⟩, ⟨"line_style", "typeLine", .stroke⟩]

/-- `FirstSecondPointMixin` (VitFormat.py:333-337). -/
def firstSecondDecls : List Decl := [⟨"first_point", "firstPoint", .int⟩, ⟨"second_point", "secondPoint", .int⟩]

/-- `__attributes__` of the classes of calculations (VitFormat.py:274-660), in the order in which the metaclass collects them
(Objectivity.py:216-244). The metaclass collects some declarations several times; the later copies change nothing and are
dropped. -/
def decls : Class → List Decl
  | .alongLine => pointDecls ++ lineDecls ++ firstSecondDecls ++ [⟨"length", "length", .text⟩]
  | .endLine => pointDecls ++ lineDecls ++ [⟨"base_point", "basePoint", .int⟩, ⟨"length", "length", .text⟩, ⟨"angle", "angle", .text⟩]
  | .lineIntersect => pointDecls ++ [⟨"point1_line1", "p1Line1", .int⟩, ⟨"point2_line1", "p2Line1", .int⟩,
      ⟨"point1_line2", "p1Line2", .int⟩, ⟨"point2_line2", "p2Line2", .int⟩]
  | .normal => pointDecls ++ lineDecls ++ firstSecondDecls ++ [⟨"length", "length", .text⟩, ⟨"angle", "angle", .text⟩]
  | .pointOfContact => pointDecls ++ firstSecondDecls ++ [⟨"center", "center", .int⟩, ⟨"radius", "radius", .text⟩]
  | .pointOfIntersection => pointDecls ++ firstSecondDecls
  | .single => pointDecls ++ [⟨"x", "x", .text⟩, ⟨"y", "y", .text⟩]
  | .line => [⟨"id", "id", .int⟩] ++ lineDecls ++ firstSecondDecls
  | .spline => [⟨"id", "id", .int⟩, ⟨"first_point", "point1", .int⟩, ⟨"second_point", "point4", .int⟩, ⟨"length1", "length1", .text⟩,
      ⟨"length2", "length2", .text⟩, ⟨"angle1", "angle1", .text⟩, ⟨"angle2", "angle2", .text⟩, ⟨"line_color", "color", .text⟩]

/-- `__attributes__` of a class. -/
def attrs (c : Class) : List (Xml.Attr (Val F)) := (decls c).map (Decl.attr env)

/-! ## Operations of a sketch (Patro/Pattern/SketchOperation.py) -/

/-- What the constructor of an operation does with an argument: keep it, resolve it to an operation, or make an `Expression` of
it. -/
inductive Role where
  | plain
  | ref
  | expr
deriving DecidableEq, Repr

/-- A parameter of the constructor of an operation. `default = none` for a parameter without default value. -/
structure Param (F : Type) where
  name : String
  role : Role
  default : Option (Option (Val F))

/-- A parameter without default value. -/
def req (name : String) (role : Role) : Param F := ⟨name, role, none⟩

/-- `line_style=None, line_color=None` (SketchOperation.py:454, 489, 575). -/
def lineNone : List (Param F) := [⟨"line_style", .plain, some none⟩, ⟨"line_color", .plain, some none⟩]

/-- `line_style=StrokeStyle.SolidLine, line_color=Colors.black` (SketchOperation.py:700, 735). -/
def lineBlack : List (Param F) :=
  [⟨"line_style", .plain, some (some (.stroke .solidLine))⟩, ⟨"line_color", .plain, some (some (.color env.black))⟩]

/-- The parameters of the constructors (SketchOperation.py:365-746), without `sketch`, `label_offset` and `id`. -/
def params : Class → List (Param F)
  | .alongLine => [req "name" .plain, req "first_point" .ref, req "second_point" .ref, req "length" .expr] ++ lineNone
  | .endLine => [req "name" .plain, req "base_point" .ref, req "angle" .expr, req "length" .expr] ++ lineNone
  | .lineIntersect => [req "name" .plain, req "point1_line1" .ref, req "point2_line1" .ref, req "point1_line2" .ref, req "point2_line2" .ref]
  | .normal => [req "name" .plain, req "first_point" .ref, req "second_point" .ref, req "angle" .expr, req "length" .expr] ++ lineNone
  | .pointOfContact => [req "name" .plain, req "first_point" .ref, req "second_point" .ref, req "center" .ref, req "radius" .expr]
  | .pointOfIntersection => [req "name" .plain, req "first_point" .ref, req "second_point" .ref]
  | .single => [req "name" .plain, req "x" .expr, req "y" .expr]
  | .line => [req "first_point" .ref, req "second_point" .ref] ++ lineBlack env
  | .spline => [req "first_point" .ref, req "second_point" .ref, req "angle1" .expr, req "length1" .expr, req "angle2" .expr,
      req "length2" .expr] ++ lineBlack env

/-- An operation: its class, its id, its properties by name (a reference is an operation, a formula an expression), and the
label offset of a point (SketchOperation.py:365-387). -/
structure Operation (F : Type) where
  cls : Class
  id : Int
  fields : Dict String (Option (Val F))
  offset : Option (F × F)
deriving DecidableEq

/-- `getattr(operation, name)`. -/
def Operation.get (o : Operation F) (name : String) : Except PyErr (Option (Val F)) :=
  if name = "id" then .ok (some (.int o.id))
  else match o.fields.get? name with
    | some v => .ok v
    | none => .error .attributeError

/-- A key of the operation dictionary: an id, a name, or `None`. -/
inductive Key where
  | int (i : Int)
  | str (t : Text)
  | null
deriving DecidableEq, Repr

/-- The key a value is. A colour is not hashable; other values than integers, texts and `None` do not occur and are refused
here. -/
def keyOf : Option (Val F) → Except PyErr Key
  | none => .ok .null
  | some (.int i) => .ok (.int i)
  | some (.text t) => .ok (.str t)
  | _ => .error .typeError

/-- A sketch (Patro/Pattern/Sketch.py:52-59) with the counter of ids, which is shared by all the sketches of the process
(Common/Object.py:67). -/
structure Sketch (F : Type) where
  counter : Int
  ops : List (Operation F) := []
  dict : Dict Key Int := []
deriving DecidableEq

/-- `_get_operation(operation)` (SketchOperation.py:107-118): the id of the operation that is referred to. An operation of another
sketch has no node in the graph of this one, and `_connect_ancestor` (181-186) raises `KeyError`. -/
def Sketch.resolve (s : Sketch F) : Option (Val F) → Except PyErr Int
  | some (.op i) => if s.ops.any (fun o => o.id = i) then .ok i else .error .keyError
  | v => do s.dict.getItem (← keyOf v)

/-- The property that the constructor makes of an argument (SketchOperation.py:216-361). -/
def Sketch.field (s : Sketch F) (kwargs : Dict String (Option (Val F))) (p : Param F) :
    Except PyErr (String × Option (Val F)) :=
  match (kwargs.get? p.name).or p.default with
  | none => .error .typeError
  | some v =>
    match p.role with
    | .plain => .ok (p.name, v)
    | .expr => .ok (p.name, some (.expr (pyStr env v)))
    | .ref =>
      match s.resolve v with
      | .ok i => .ok (p.name, some (.op i))
      | .error e => .error e

/-- The binding of keyword arguments to the parameters of a constructor: an unknown name, or a parameter without value and
without default, raises `TypeError`. A point takes `label_offset`, a line or a spline does not. -/
def binds (cls : Class) (kwargs : Dict String (Option (Val F))) (offset : Option (F × F)) : Bool :=
  kwargs.keys.all (fun k => k = "id" || (params env cls).any fun p => p.name = k) &&
  (params env cls).all (fun p => (kwargs.get? p.name).isSome || p.default.isSome) &&
  offset.isSome == cls.isPoint

/-- The argument `id`: an integer or `None`. A value of another type does not occur and is refused here. -/
def idArg : Option (Option (Val F)) → Except PyErr (Option Int)
  | none => .ok none
  | some none => .ok none
  | some (some (.int i)) => .ok (some i)
  | _ => .error .typeError

/-- `_add_operation(operation)` (Sketch.py:87-94). The name of a point becomes a key, whatever it is; `key` is that name. -/
def Sketch.add (s : Sketch F) (o : Operation F) (key : Option Key) : Sketch F :=
  let dict := s.dict.set (.int o.id) o.id
  { s with
    ops := s.ops ++ [o]
    dict := match key with
      | some k => dict.set k o.id
      | none => dict }

/-- The key of the name of an operation, if it has a name. -/
def nameKey (o : Operation F) : Except PyErr (Option Key) :=
  if o.cls.isPoint then do
    let name ← o.get "name"
    let k ← keyOf name
    return some k
  else return none

/-- `sketch.SinglePoint(**kwargs)` and the like (Pattern/__init__.py:43-54): the constructor of the operation
(SketchOperation.py:76-89 and those of the subclasses), then `_add_operation`, which adds the operation before its name turns
out not to be a key. The id is taken before the references are resolved. -/
def Sketch.call (s : Sketch F) (cls : Class) (kwargs : Dict String (Option (Val F))) (offset : Option (F × F)) :
    Sketch F × Except PyErr (Operation F) :=
  if binds env cls kwargs offset then
    match idArg (kwargs.get? "id") with
    | .error e => (s, .error e)
    | .ok id =>
      match Counter.newOperationId s.counter id with
      | (c, .error e) => ({ s with counter := c }, .error e)
      | (c, .ok i) =>
        let s1 := { s with counter := c }
        match (params env cls).mapM (s1.field env kwargs) with
        | .error e => (s1, .error e)
        | .ok fields =>
          let o : Operation F := ⟨cls, i, fields, offset⟩
          match nameKey o with
          | .error e => (s1.add o none, .error e)
          | .ok k => (s1.add o k, .ok o)
  else (s, .error .typeError)

/-! ## From an element to an operation -/

/-- An XML element without text: the tag, `none` for a comment or a processing instruction, and the attributes. -/
structure Element where
  tag : Option String
  attrib : Dict String Text
deriving DecidableEq

/-- `Point.__TYPES__` (VitFormat.py:579-602): the value `none` is `None`. -/
def pointTypes : List (Text × Option Class) :=
  [("alongLine".toList, some .alongLine), ("bisector".toList, none), ("curveIntersectAxis".toList, none), ("cutArc".toList, none),
   ("cutSpline".toList, none), ("cutSplinePath".toList, none), ("endLine".toList, some .endLine), ("height".toList, none),
   ("lineIntersect".toList, some .lineIntersect), ("lineIntersectAxis".toList, none), ("normal".toList, some .normal),
   ("pointFromArcAndTangent".toList, none), ("pointFromCircleAndTangent".toList, none),
   ("pointOfContact".toList, some .pointOfContact), ("pointOfIntersection".toList, some .pointOfIntersection),
   ("pointOfIntersectionArcs".toList, none), ("pointOfIntersectionCircles".toList, none),
   ("pointOfIntersectionCurves".toList, none), ("shoulder".toList, none), ("single".toList, some .single),
   ("triangle".toList, none), ("trueDarts".toList, none)]

/-- `Spline.__TYPES__` (VitFormat.py:686-691). -/
def splineTypes : List (Text × Option Class) :=
  [("cubicBezier".toList, none), ("cubicBezierPath".toList, none), ("pathInteractive".toList, none),
   ("simpleInteractive".toList, some .spline)]

/-- `tag_cls.__TYPES__[element.attrib['type']]` (Pattern.py:149). -/
def typed (types : List (Text × Option Class)) (e : Element) : Except PyErr (Option Class) := do
  let t ← e.attrib.getItem "type"
  Dict.getItem types t

/-- The class that `CalculationDispatcher.from_xml` finds (Pattern.py:104-111, 145-151); `none` is `None`. -/
def tagClass (e : Element) : Except PyErr (Option Class) :=
  match e.tag with
  | some "arc" => .ok none
  | some "ellipse" => .ok none
  | some "line" => .ok (some .line)
  | some "operation" => .ok none
  | some "point" => typed pointTypes e
  | some "spline" => typed splineTypes e
  | _ => .error .keyError

/-- `CalculationDispatcher.from_xml` up to the class (Pattern.py:145-155). -/
def dispatch (e : Element) : Except PyErr Class :=
  match tagClass e with
  | .ok (some c) => .ok c
  | .ok none => .error .notImplementedError
  | .error err => .error err

/-- A coordinate of `Vector2D(self.mx, self.my)`. -/
def coordinate : Option (Option (Val F)) → Except PyErr F
  | some none => .ok env.nan
  | some (some (.flt f)) => .ok f
  | _ => .error .typeError

/-- The keyword arguments and the label offset that `to_operation` makes of an XML object: `PointMixin.to_operation`
(VitFormat.py:394-398), `Line.to_operation` and `SimpleInteractiveSpline.to_operation` (619-620, 657-658). -/
def operationArgs (cls : Class) (o : Xml.Obj (Val F)) :
    Except PyErr (Dict String (Option (Val F)) × Option (F × F)) :=
  if cls.isPoint then do
    let kwargs ← Xml.toDict (attrs env cls) o ["mx", "my"]
    let x ← coordinate env (o.get? "mx")
    let y ← coordinate env (o.get? "my")
    return (kwargs, some (x, y))
  else do
    let kwargs ← Xml.toDict (attrs env cls) o []
    return (kwargs, none)

/-- The references whose name appears in `repr(operation)` (SketchOperation.py:434-780). -/
def shown : Class → List String
  | .alongLine => ["first_point", "second_point"]
  | .endLine => ["base_point"]
  | .lineIntersect => ["point1_line1", "point2_line1", "point1_line2", "point2_line2"]
  | .normal => ["first_point", "second_point"]
  | .pointOfContact => ["first_point", "second_point"]
  | .pointOfIntersection => ["first_point", "second_point"]
  | .single => []
  | .line => ["first_point", "second_point"]
  | .spline => ["first_point", "second_point"]

/-- The reference called `name` is an operation that has a name. -/
def Sketch.named (s : Sketch F) (o : Operation F) (name : String) : Bool :=
  match o.fields.get? name with
  | some (some (.op i)) => s.ops.any fun p => p.id = i && p.cls.isPoint
  | _ => false

/-- `repr(operation)`: `AttributeError` when the name of a line or of a spline is asked. -/
def Sketch.repr (s : Sketch F) (o : Operation F) : Except PyErr Unit :=
  if (shown o.cls).all (s.named o) then .ok () else .error .attributeError

/-- The body of `try` in the loop of `read_piece` (Pattern.py:310-315). -/
def Sketch.tryRead (s : Sketch F) (e : Element) : Sketch F × Except PyErr Unit :=
  match dispatch e with
  | .error err => (s, .error err)
  | .ok cls =>
    match Xml.initFromXml (attrs env cls) e.attrib with
    | .error err => (s, .error err)
    | .ok x =>
      match operationArgs env cls x with
      | .error err => (s, .error err)
      | .ok (kwargs, offset) =>
        match s.call env cls kwargs offset with
        | (s', .error err) => (s', .error err)
        | (s', .ok o) => (s', s'.repr o)

/-- One turn of the loop of `read_piece` (Pattern.py:309-315): `NotImplementedError` is reported and the element skipped. -/
def Sketch.readOne (s : Sketch F) (e : Element) : Sketch F × Except PyErr Unit :=
  match s.tryRead env e with
  | (s', .error .notImplementedError) => (s', .ok ())
  | r => r

/-- The loop of `read_piece` over the elements of `calculation` (Pattern.py:309-315). -/
def Sketch.read (s : Sketch F) : List Element → Sketch F × Except PyErr Unit
  | [] => (s, .ok ())
  | e :: es =>
    match s.readOne env e with
    | (s', .error err) => (s', .error err)
    | (s', .ok ()) => Sketch.read s' es

/-! ## From an operation to an element -/

/-- `cls.get_dict(operation, exclude)` (Objectivity.py:298-305). -/
def getDict (o : Operation F) (exclude : List String) : Except PyErr (Dict String (Option (Val F))) :=
  ((decls o.cls).filter fun d => d.py ∉ exclude).mapM fun d => do
    let v ← o.get d.py
    return (d.py, v)

/-- The keyword arguments of `from_operation` (VitFormat.py:402-409, 620-623, 656-659). -/
def xmlArgs (o : Operation F) : Except PyErr (Dict String (Option (Val F))) :=
  if o.cls.isPoint then do
    let kwargs ← getDict o ["mx", "my"]
    match o.offset with
    | some (x, y) => return (kwargs.set "mx" (some (.flt x))).set "my" (some (.flt y))
    | none => .error .attributeError
  else getDict o []

/-- `to_xml()` of a calculation: `CalculationTypeMixin.to_xml` (VitFormat.py:315-316) adds the type, a line has none. -/
def toElement (cls : Class) (x : Xml.Obj (Val F)) : Except PyErr Element := do
  let attrib ← Xml.toXml (attrs env cls) x (if cls = .line then [] else [("type", cls.typeName)])
  return ⟨some cls.tag, attrib⟩

/-- `_calculation_dispatcher.from_operation(operation).to_xml()` (Pattern.py:159-160, 418-422). -/
def writeOne (o : Operation F) : Except PyErr Element := do
  let kwargs ← xmlArgs o
  let x ← Xml.new (attrs env o.cls) none kwargs
  toElement env o.cls x

/-- The loop of `_build_xml_tree` over the operations of a sketch (Pattern.py:418-422). -/
def write (ops : List (Operation F)) : Except PyErr (List Element) := ops.mapM (writeOne env)

/-! ## Modeling items and details (VitFormat.py:752-880, Pattern.py:59-76, 318-347) -/

/-- `ModelingItemMixin` (VitFormat.py:752-759). -/
def modelingDecls : List Decl :=
  [⟨"id", "id", .int⟩, ⟨"object_id", "idObject", .int⟩, ⟨"type", "type", .text⟩, ⟨"in_use", "inUse", .bool⟩]

/-- `ModelingDispatcher.__TAGS__` and the attributes of the classes (Pattern.py:164-171, VitFormat.py:763-775). -/
def modelingAttrs : Option String → Except PyErr (List Decl)
  | some "point" => .ok (modelingDecls ++ [⟨"mx", "mx", .float⟩, ⟨"my", "my", .float⟩])
  | some "spline" => .ok modelingDecls
  | _ => .error .keyError

/-- A value that is an integer or `None`. -/
def idOf (x : Xml.Obj (Val F)) (name : String) : Option Int :=
  match x.get? name with
  | some (some (.int i)) => some i
  | _ => none

/-- `Modeling` (Pattern.py:59-76): the items by id; of an item only `object_id` is used. -/
abbrev Modeling := Dict (Option Int) (Option Int)

/-- One turn of the loop over the elements of `modeling` (Pattern.py:320-322). -/
def readModelingOne (m : Modeling) (e : Element) : Except PyErr Modeling := do
  let ds ← modelingAttrs e.tag
  let x ← Xml.initFromXml (ds.map (Decl.attr env)) e.attrib
  return m.set (idOf x "id") (idOf x "object_id")

/-- The loop over the elements of `modeling` (Pattern.py:319-322). -/
def readModeling (es : List Element) : Except PyErr Modeling := es.foldlM (readModelingOne env) []

/-- `Detail.__attributes__` (VitFormat.py:784-793). -/
def detailDecls : List Decl :=
  [⟨"mx", "mx", .float⟩, ⟨"my", "my", .float⟩, ⟨"id", "id", .int⟩, ⟨"version", "version", .int⟩,
   ⟨"forbidFlipping", "forbidFlipping", .bool⟩, ⟨"width", "width", .int⟩, ⟨"united", "united", .bool⟩, ⟨"name", "name", .text⟩,
   ⟨"inLayout", "inLayout", .bool⟩, ⟨"seamAllowance", "seamAllowance", .bool⟩]

/-- `DetailNode.__attributes__` (VitFormat.py:876-880). -/
def nodeDecls : List Decl :=
  [⟨"object_id", "idObject", .int⟩, ⟨"type", "type", .text⟩, ⟨"reverse", "reverse", .bool⟩]

/-- `DetailDispatcher.__TAGS__` and the attributes of the classes (Pattern.py:175-183, VitFormat.py:816-867). -/
def detailAttrs : Option String → Except PyErr (List Decl)
  | some "grainline" => .ok [⟨"mx", "mx", .float⟩, ⟨"my", "my", .float⟩, ⟨"visible", "visible", .bool⟩, ⟨"rotation", "rotation", .int⟩,
      ⟨"arrows", "arrows", .int⟩, ⟨"length", "length", .int⟩]
  | some "patternInfo" => .ok [⟨"height", "height", .int⟩, ⟨"width", "width", .int⟩, ⟨"mx", "mx", .float⟩, ⟨"my", "my", .float⟩,
      ⟨"fontSize", "fontSize", .int⟩, ⟨"visible", "visible", .bool⟩, ⟨"rotation", "rotation", .int⟩]
  | some "data" => .ok [⟨"height", "height", .int⟩, ⟨"width", "width", .int⟩, ⟨"mx", "mx", .float⟩, ⟨"my", "my", .float⟩,
      ⟨"fontSize", "fontSize", .int⟩, ⟨"visible", "visible", .bool⟩, ⟨"rotation", "rotation", .int⟩, ⟨"letter", "letter", .text⟩]
  | _ => .error .keyError

/-- A child of a detail: the element and its own children (the nodes). -/
structure Child where
  element : Element
  children : List Element

/-- A detail of the file. -/
structure DetailElement where
  attrib : Dict String Text
  children : List Child

/-- The object ids of the nodes below one child of a detail (Pattern.py:335-343). -/
def readChild (c : Child) : Except PyErr (List (Option Int)) :=
  if c.element.tag = some "nodes" then
    c.children.mapM fun e => do
      let x ← Xml.initFromXml (nodeDecls.map (Decl.attr env)) e.attrib
      return idOf x "object_id"
  else do
    let ds ← detailAttrs c.element.tag
    let _ ← Xml.initFromXml (ds.map (Decl.attr env)) c.element.attrib
    return []

/-- The key that an `object_id` is. -/
def intKey : Option Int → Key
  | some i => .int i
  | none => .null

/-- One turn of the loop over `iter_on_nodes` (VitFormat.py:810-812, Pattern.py:345-347): the operation that is printed. -/
def readNode (s : Sketch F) (m : Modeling) (n : Option Int) : Except PyErr Int := do
  let o ← m.getItem n
  s.dict.getItem (intKey o)

/-- `read_detail(scope, modeling, detail_element)` (Pattern.py:331-347): the operations printed, in order. Nothing is stored. -/
def readDetail (s : Sketch F) (m : Modeling) (d : DetailElement) : Except PyErr (List Int) := do
  let _ ← Xml.initFromXml (detailDecls.map (Decl.attr env)) d.attrib
  let nodes ← d.children.mapM (readChild env)
  nodes.flatten.mapM (readNode s m)

/-! ## Files (Pattern.py:193-372, 376-432) -/

/-- An element `draw`: its attribute `name`, and the children of its elements `calculation`, `modeling` and `details`, if it
has them. -/
structure Draw where
  name : Option Text
  calculation : Option (List Element)
  modeling : Option (List Element)
  details : Option (List DetailElement)

/-- A document: the texts of the elements `unit` and `measurements`, if it has them, and the elements `draw`. -/
structure Document where
  unit : Option (Option Text)
  measurements : Option (Option Text)
  draws : List Draw

/-- A scope of a pattern: its name and the operations of its sketch. -/
structure Scope (F : Type) where
  name : Option Text
  ops : List (Operation F)
deriving DecidableEq

/-- A pattern: its unit and its scopes (Patro/Pattern/Pattern.py:44-51). -/
structure Pat (F : Type) where
  unit : Option Text
  scopes : List (Scope F)
deriving DecidableEq

/-- `for element in self.get_xpath_element(…)`: a missing element gives `None`, which is not iterable. -/
def children {α : Type} : Option (List α) → Except PyErr (List α)
  | some l => .ok l
  | none => .error .typeError

/-- The part of `read_piece` after the calculations (Pattern.py:318-326). -/
def readRest (s : Sketch F) (d : Draw) : Except PyErr (List (List Int)) := do
  let items ← children d.modeling
  let m ← readModeling env items
  let details ← children d.details
  details.mapM (readDetail env s m)

/-- `read_piece(piece)` (Pattern.py:302-326) with the counter of ids; `eval` is the outcome of `sketch.eval()`. -/
def readPiece (eval : List (Operation F) → Except PyErr Unit) (counter : Int) (d : Draw) : Int × Except PyErr (Scope F) :=
  match d.name with
  | none => (counter, .error .keyError)
  | some name =>
    match d.calculation with
    | none => (counter, .error .typeError)
    | some es =>
      match Sketch.read env { counter := counter } es with
      | (s, .error e) => (s.counter, .error e)
      | (s, .ok ()) =>
        match eval s.ops with
        | .error e => (s.counter, .error e)
        | .ok () =>
          match readRest env s d with
          | .error e => (s.counter, .error e)
          | .ok _ => (s.counter, .ok ⟨some name, s.ops⟩)

/-- The loop of `read` over the elements `draw` (Pattern.py:262-263). -/
def readPieces (eval : List (Operation F) → Except PyErr Unit) (counter : Int) : List Draw → Int × Except PyErr (List (Scope F))
  | [] => (counter, .ok [])
  | d :: ds =>
    match readPiece env eval counter d with
    | (c, .error e) => (c, .error e)
    | (c, .ok s) =>
      match readPieces eval c ds with
      | (c', .error e) => (c', .error e)
      | (c', .ok l) => (c', .ok (s :: l))

/-- `read_attributes` and `read_measurements` (Pattern.py:267-298). A missing element has no text: `get_text_element` gives
`None`, and `None.text` raises. `vit` is the outcome of looking for the file of measurements and reading it. -/
def readHead (vit : Text → Except PyErr Unit) (d : Document) : Except PyErr Text :=
  match d.unit with
  | some (some unit) =>
    match d.measurements with
    | none => .error .attributeError
    | some none => .ok unit
    | some (some path) =>
      match vit path with
      | .ok () => .ok unit
      | .error e => .error e
  | _ => .error .nameError

/-- `ValFileReader(path)` (Pattern.py:201-263, 351-372) in a process where the counter of ids is `counter`. -/
def readFile (vit : Text → Except PyErr Unit) (eval : List (Operation F) → Except PyErr Unit) (counter : Int) (d : Document) :
    Int × Except PyErr (Pat F) :=
  match readHead vit d with
  | .error e => (counter, .error e)
  | .ok unit =>
    match readPieces env eval counter d.draws with
    | (c, .error e) => (c, .error e)
    | (c, .ok scopes) => (c, .ok ⟨some unit, scopes⟩)

/-- The element `draw` of a scope (Pattern.py:410-422): `attrib['name'] = None` raises `TypeError`. -/
def writeScope (s : Scope F) : Except PyErr Draw :=
  match s.name with
  | none => .error .typeError
  | some name => do
    let es ← write env s.ops
    return ⟨some name, some es, some [], some []⟩

/-- The text of an element that is written and parsed: an empty text is no text. -/
def elementText : Option Text → Option Text
  | some [] => none
  | t => t

/-- `_build_xml_tree` (Pattern.py:395-424); `vit` is the path of the file of measurements, if there is one.
The document is the one that is parsed when the file is read. -/
def writeFile (vit : Option Text) (p : Pat F) : Except PyErr Document := do
  let draws ← p.scopes.mapM (writeScope env)
  return ⟨some (elementText p.unit), some (elementText vit), draws⟩

end Patro.Valentina
