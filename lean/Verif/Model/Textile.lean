import Mathlib.Data.Rat.Defs
import Verif.Model.Xml
import Verif.Model.Tex
/-!
# Model of `Patro/TextileTechnology`: databases, fabrics, seams and sewing machines

The files are read by the yaml package: the model starts from the values it gives. Numbers are exact.
-/

namespace Patro.Textile

open Xml (Text)

/-- A value read from a yaml file. -/
inductive Yaml where
  | null
  | text (t : Text)
  | int (i : Int)
  | flt (q : ℚ)
  | list (l : List Yaml)
  | map (m : List (Text × Yaml))
deriving Repr

namespace Yaml

/-- `value[key]` for a key that is a text: only dictionaries have text keys. -/
def item : Yaml → Text → Except PyErr Yaml
  | map m, key => Dict.getItem m key
  | _, _ => .error .typeError

/-- `value.items()`. -/
def items : Yaml → Except PyErr (List (Text × Yaml))
  | map m => .ok m
  | _ => .error .attributeError

/-- `value.get(key, None)`. -/
def get : Yaml → Text → Except PyErr (Option Yaml)
  | map m, key => .ok (Dict.get? m key)
  | _, _ => .error .attributeError

end Yaml

/-! ## Databases -/

/-- `Database` (Patro/TextileTechnology/Database.py:30-62): the items by name. -/
abbrev Database (α : Type) := Dict Text α

/-- `add(obj)` (Database.py:53-55), for an object of this name. -/
def Database.add {α : Type} (db : Database α) (name : Text) (obj : α) : Database α :=
  if db.contains name then db else db.set name obj

/-- `FiberType` (Patro/TextileTechnology/Fiber.py:31-36). -/
inductive FiberType where
  | animal
  | natural
  | plant
  | synthetic
deriving DecidableEq, Repr

/-- `Fiber` (Fiber.py:40-69). The source type is the text of a `FiberType` or of `None`, kept here as a `FiberType` or
`none`; the source is the text of a value of the file. -/
structure Fiber where
  name : Text
  fiberType : FiberType
  sourceType : Option FiberType
  source : Option Yaml

/-- One turn of the loops of `FiberDatabase.load` for natural fibers (Fiber.py:84-87). The database is returned even if the
item raises, since it is changed in place. -/
def addNatural (source : FiberType) (db : Database Fiber) (entry : Text × Yaml) : Except PyErr (Database Fiber) := do
  let s ← entry.2.item "source".toList
  return Database.add db entry.1 ⟨entry.1, .natural, some source, some s⟩

/-- One turn of the last loop of `FiberDatabase.load` (Fiber.py:90-91). -/
def addSynthetic (db : Database Fiber) (entry : Text × Yaml) : Database Fiber :=
  Database.add db entry.1 ⟨entry.1, .synthetic, none, none⟩

/-- `FiberDatabase.load()` (Fiber.py:79-91) on the value of the file. -/
def loadFibers (db : Database Fiber) (data : Yaml) : Except PyErr (Database Fiber) := do
  let natural ← data.item "Natural Fibers".toList
  let plants ← (← natural.item "Plant Fibers".toList).items
  let db ← plants.foldlM (addNatural .plant) db
  let animals ← (← natural.item "Animal Fibers".toList).items
  let db ← animals.foldlM (addNatural .animal) db
  let synthetic ← (← data.item "Synthetic Fibers".toList).items
  return synthetic.foldl addSynthetic db

/-- `StitchType` (Patro/TextileTechnology/StitchType.py:31-75). -/
structure StitchType where
  number : Int
  name : Text
  needles : Int
  threads : Int
  loops : Int

/-- The body of the inner loop of `StitchDatabase.load` (StitchType.py:95-102): the values are read and dropped. -/
def readStitch (entry : Text × Yaml) : Except PyErr Unit :=
  match entry.2 with
  | .null => .ok ()
  | data => do
    let _ ← data.item "name".toList
    let _ ← data.get "number_of_needles".toList
    let _ ← data.get "number_of_threads".toList
    let _ ← data.get "number_of_loops".toList
    let _ ← data.get "composition".toList
    let _ ← data.get "astm".toList
    return ()

/-- The body of the outer loop of `StitchDatabase.load` (StitchType.py:91-94). -/
def readStitchClass (entry : Text × Yaml) : Except PyErr Unit := do
  let _ ← entry.2.item "name".toList
  let _ ← entry.2.item "description".toList
  let stitches ← (← entry.2.item "stitches".toList).items
  stitches.forM readStitch

/-- `StitchDatabase.load()` (StitchType.py:85-102) on the value of the file: nothing is added to the database. -/
def loadStitches (db : Database StitchType) (data : Yaml) : Except PyErr (Database StitchType) := do
  let _ ← data.item "introduction".toList
  let classes ← (← data.item "classes".toList).items
  classes.forM readStitchClass
  return db

/-! ## Fabrics, seams and machines -/

/-- A value given as a keyword argument: a number, a sequence, a text or `None`. -/
inductive Value where
  | num (q : ℚ)
  | seq (l : List ℚ)
  | text (t : Text)
  | none
deriving DecidableEq, Repr

/-- `float(value)`, where `parse` is `float` on a text (an infinite number and `nan` are not modelled). -/
def Value.float (parse : Text → Except PyErr ℚ) : Value → Except PyErr ℚ
  | .num q => .ok q
  | .seq _ => .error .typeError
  | .text t => parse t
  | .none => .error .typeError

/-- `FloatPair(*value)` (Patro/TextileTechnology/Fabric.py:72-73): a sequence of two numbers, or a text of two characters. -/
def Value.floatPair (parse : Text → Except PyErr ℚ) : Value → Except PyErr (ℚ × ℚ)
  | .seq [x, y] => .ok (x, y)
  | .text [x, y] => do return (← parse [x], ← parse [y])
  | _ => .error .typeError

/-- `FloatPair(value)` (Fabric.py:72-73) without the star: one argument is missing. -/
def floatPairOne (_ : Value) : Except PyErr (ℚ × ℚ) := .error .typeError

/-- `Fabric` (Fabric.py:77-104). -/
structure Fabric where
  bending : ℚ × ℚ
  stretch : ℚ × ℚ
  shear : ℚ
  friction : ℚ
  weight : ℚ
  shrinkage : ℚ × ℚ
  pressure : ℚ

/-- `Fabric(**kwargs)` (Fabric.py:96-104). -/
def Fabric.new (parse : Text → Except PyErr ℚ) (kwargs : Dict String Value) : Except PyErr Fabric := do
  let bending ← (← kwargs.getItem "bending").floatPair parse
  let stretch ← (← kwargs.getItem "stretch").floatPair parse
  let shear ← (← kwargs.getItem "shear").float parse
  let friction ← (← kwargs.getItem "friction").float parse
  let weight ← (← kwargs.getItem "weight").float parse
  let shrinkage ← floatPairOne ((kwargs.get? "shrinkage").getD (.seq [0, 0]))
  let pressure ← (← kwargs.getItem "pressure").float parse
  return ⟨bending, stretch, shear, friction, weight, shrinkage, pressure⟩

/-- `AstmSeam` (Patro/TextileTechnology/Seam.py:43-55). -/
structure AstmSeam where
  seamClass : Text
  seamType : Text
  rows : Int

/-- The attributes of a seam, in a format. -/
def AstmSeam.attr (s : AstmSeam) (name : Text) : Except PyErr Text :=
  if name = "._class".toList then .ok s.seamClass
  else if name = "._type".toList then .ok s.seamType
  else if name = "._number_of_rows".toList then .ok (Xml.intToText s.rows)
  else .error .attributeError

/-- `name` (Seam.py:53-55): the seam is given by position. -/
def AstmSeam.name (s : AstmSeam) : Except PyErr Text :=
  Tex.format (Tex.positionalField 1 fun _ => s.attr) "{self._class}{self._type}-{self._number_of_rows}".toList

/-- `int(value)`. -/
def Value.int : Value → Except PyErr Int
  | .num q => .ok (if 0 ≤ q then q.floor else q.ceil)
  | .seq _ => .error .typeError
  | .text t => Xml.intFromText t
  | .none => .error .typeError

/-- `list(value)`: only the number of elements is kept. -/
def Value.list : Value → Except PyErr Nat
  | .num _ => .error .typeError
  | .seq l => .ok l.length
  | .text t => .ok t.length
  | .none => .error .typeError

/-- `SewingMachine` (Patro/TextileTechnology/SewingMachine.py:45-72): the attributes that are converted. -/
structure SewingMachine where
  stitchTypes : Nat
  needles : Int
  loopers : Int
  maxSpeed : ℚ
  gauge : ℚ
  overedging : ℚ

/-- `kwargs.get(key, None)`. -/
def getArg (kwargs : Dict String Value) (key : String) : Value := (kwargs.get? key).getD .none

/-- `SewingMachine(**kwargs)` (SewingMachine.py:51-72), with the keys as they are spelt there. -/
def SewingMachine.new (parse : Text → Except PyErr ℚ) (kwargs : Dict String Value) : Except PyErr SewingMachine := do
  let stitchTypes ← (getArg kwargs "sitche_types").list
  let needles ← (getArg kwargs "number_of_needles").int
  let loopers ← (getArg kwargs "number_of_loopers").int
  let maxSpeed ← (getArg kwargs "max_sewing_speed").float parse
  let gauge ← (getArg kwargs "needle_gauge").float parse
  let overedging ← (getArg kwargs "overedging_width").float parse
  return ⟨stitchTypes, needles, loopers, maxSpeed, gauge, overedging⟩

/-! ## Needles -/

/-- `Needle` (Patro/TextileTechnology/Needle.py:76-107), for any kind of system and type. -/
structure Needle (S T : Type) where
  system : S
  type : T
  nmSize : Int
  multiplicity : Int

/-- `Needle(system, needle_type, nm_size, multiplicity=1)` (Needle.py:82-87). -/
def Needle.new {S T : Type} (system : S) (type : T) (nmSize : Value) (multiplicity : Value := .num 1) : Except PyErr (Needle S T) := do
  let nmSize ← nmSize.int
  let multiplicity ← multiplicity.int
  return ⟨system, type, nmSize, multiplicity⟩

/-- The attributes set by the constructor of the class `Needle` of the module of the machines
(Patro/TextileTechnology/SewingMachine.py:120-125), which are kept as they are given. -/
def MachineNeedle.new (system type nmSize : Value) (multiplicity : Value := .num 1) : Dict String Value :=
  [("_system", system), ("_type", type), ("_nm_size", nmSize), ("_multiplicity", multiplicity)]

/-- `self._name`. -/
def getAttribute (o : Dict String Value) (name : String) : Except PyErr Value :=
  match o.get? name with
  | some v => .ok v
  | none => .error .attributeError

/-- `system` (SewingMachine.py:131-133). -/
def MachineNeedle.system (o : Dict String Value) : Except PyErr Value := getAttribute o "_system"

/-- `type` (SewingMachine.py:135-137). -/
def MachineNeedle.type (o : Dict String Value) : Except PyErr Value := getAttribute o "_type"

/-- `size` (SewingMachine.py:139-141). -/
def MachineNeedle.size (o : Dict String Value) : Except PyErr Value := getAttribute o "_size"

/-- `multiplicity` (SewingMachine.py:143-145). -/
def MachineNeedle.multiplicity (o : Dict String Value) : Except PyErr Value := getAttribute o "_multiplicity"

end Patro.Textile
