import Verif.Spec.Valentina
import Verif.Spec.ValEval
/-! # What is required of a Valentina file in order to be read -/

namespace Patro.Valentina

open Xml (Text)
open ValPlaces (toOps drawing Needs implemented)
open SketchGeometry (Expr St evalSketch)

variable {F : Type} (env : Env F)

/-- The attributes `ints`, `floats` and `bools` of an element, those which it has, are integers, floats and booleans. -/
def Fits (attrib : Dict String Text) (ints floats bools : List String) : Prop :=
  (∀ a ∈ ints, ∀ t, attrib.get? a = some t → ∃ i, Xml.intFromText t = .ok i) ∧
  (∀ a ∈ floats, ∀ t, attrib.get? a = some t → ∃ x, env.parse t = .ok x) ∧
  ∀ a ∈ bools, ∀ t, attrib.get? a = some t → t ∈ ["true", "1", "false", "0"].map String.toList

/-- The id that the attribute of an element gives: an integer, or nothing if the attribute is missing. -/
def GivesId (e : Element) (name : String) : Option Int → Prop
  | some i => ∃ t, e.attrib.get? name = some t ∧ Xml.intFromText t = .ok i
  | none => e.attrib.get? name = none

/-- An item of the modeling is a point or a spline. -/
def ModelingFits (m : Element) : Prop :=
  (m.tag = some "point" ∧ Fits env m.attrib ["id", "idObject"] ["mx", "my"] ["inUse"]) ∨
    (m.tag = some "spline" ∧ Fits env m.attrib ["id", "idObject"] [] ["inUse"])

/-- A node of a detail refers to an operation, through the last item of the modeling which has the id that the node gives. A missing id is
an id as well, and an item without `idObject` refers to the last point without name. -/
def NodeFits (ms : List Element) (ops : List (Operation F)) (n : Element) : Prop :=
  Fits env n.attrib ["idObject"] [] ["reverse"] ∧
    ∃ k l1 m l2, GivesId n "idObject" k ∧ ms = l1 ++ m :: l2 ∧ GivesId m "id" k ∧ (∀ m' ∈ l2, ¬ GivesId m' "id" k) ∧
      ∃ i, Refers ops (m.attrib.get? "idObject") i

/-- A child of a detail is a list of nodes, a grain line, a label or a data. -/
def ChildFits (ms : List Element) (ops : List (Operation F)) (c : Child) : Prop :=
  (c.element.tag = some "nodes" ∧ ∀ n ∈ c.children, NodeFits env ms ops n) ∨
  (c.element.tag = some "grainline" ∧ Fits env c.element.attrib ["rotation", "arrows", "length"] ["mx", "my"] ["visible"]) ∨
  ((c.element.tag = some "patternInfo" ∨ c.element.tag = some "data") ∧
    Fits env c.element.attrib ["height", "width", "fontSize", "rotation"] ["mx", "my"] ["visible"])

/-- What is required of the modeling and of the details of a piece which has the operations `ops`. -/
def DetailsFit (d : Draw) (ops : List (Operation F)) : Prop :=
  ∃ ms ds, d.modeling = some ms ∧ d.details = some ds ∧ (∀ m ∈ ms, ModelingFits env m) ∧
    ∀ dt ∈ ds, Fits env dt.attrib ["id", "version", "width"] ["mx", "my"] ["forbidFlipping", "united", "inLayout", "seamAllowance"] ∧
      ∀ c ∈ dt.children, ChildFits env ms ops c

/-- What is required of the pieces, when the ids so far go up to `counter`: a piece has a name and calculations, which describe operations; these
are evaluated; and the modeling and the details fit. -/
def PiecesFit (eval : List (Operation F) → Except PyErr Unit) (counter : Int) : List Draw → Prop
  | [] => True
  | d :: ds => ∃ name es ops, d.name = some name ∧ d.calculation = some es ∧ Reading env counter [] es ops ∧ eval ops = .ok () ∧
      DetailsFit env d ops ∧ PiecesFit eval (lastId counter ops) ds

/-- What is required of the head of the document: a unit, and an element `measurements` which is empty or gives a file of measurements
which is read. -/
def HeadFits (vit : Text → Except PyErr Unit) (doc : Document) : Prop :=
  (∃ unit, doc.unit = some (some unit)) ∧ ∃ m, doc.measurements = some m ∧ ∀ path, m = some path → vit path = .ok ()

/-- The same as `PiecesFit`, where the operations are evaluated: each calculation has what it needs in the drawing of those before it. -/
def PiecesCompute (compile : Text → Expr) (counter : Int) : List Draw → Prop
  | [] => True
  | d :: ds => ∃ name es ops l, d.name = some name ∧ d.calculation = some es ∧ Reading env counter [] es ops ∧ toOps compile ops = some l ∧
      (∀ before e after c, implemented es = before ++ e :: after → IsClass e c →
        ∃ st, evalSketch St.empty (l.take before.length) = .ok st ∧ Needs compile (drawing ops st) before e c) ∧
      DetailsFit env d ops ∧ PiecesCompute compile (lastId counter ops) ds

end Patro.Valentina
