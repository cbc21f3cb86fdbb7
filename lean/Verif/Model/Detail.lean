import Verif.Model.SketchGeometry
import Verif.Model.Scene
import Verif.Model.Style
/-!
# Model of the drawing of a sketch: `Sketch.bounding_box` and `Sketch.detail_scene` of `Patro/Pattern/Sketch.py`

The operations and their evaluation are those of `Model/SketchGeometry.lean`, the scene that of `Model/Scene.lean`, the styles those of
`Model/Style.lean`. Names of points are texts. The customisation of the class of the scene is not modelled.
-/

namespace Patro.Detail

open SketchGeometry (Op St)
open Style (Value PathStyle SketchStyle)
open Xml (Text)

/-- An operation with the attributes which only serve to draw it: `label_offset` of a point (SketchOperation.py:385-387), `line_style` and
`line_color` (SketchOperation.py:216-240). The attributes a class does not have are not used. -/
structure Drawn where
  op : Op
  labelOffset : Vec ℝ
  lineStyle : Value
  lineColor : Value

/-- `isinstance(operation, Point)` and its name. -/
def nameOf (ops : List Drawn) (j : Nat) : Except PyErr String :=
  match ops[j]?.bind (·.op.name) with
  | some n => .ok n
  | none => .error .attributeError

/-- `operation.vector` for the operation of number `j`: only a point has one, which can be `None` (SketchOperation.py:389-391). -/
def vectorOf (ops : List Drawn) (st : St) (j : Nat) : Except PyErr (Option (Vec ℝ)) :=
  match ops[j]?.bind (·.op.name) with
  | some _ => .ok (st.vec j)
  | none => .error .attributeError

/-- `Vector2D(vector)`, called by the constructors of the primitives on their points: `None` is rejected (Vector.py:90-103). -/
def asPoint : Option (Vec ℝ) → Except PyErr (Vec ℝ)
  | some v => .ok v
  | none => .error .valueError

noncomputable section

open Classical

/-- `bounding_box` of a segment or of a Bézier curve (Primitive.py:249-259): there is one as there are points. -/
def boxOf (points : List (Vec ℝ)) : Except PyErr (Box ℝ) :=
  match Box.fromPoints points with
  | some b => .ok b
  | none => .error .typeError

/-- `operation.geometry().bounding_box` of the operation of number `i` (SketchOperation.py:400-401, 720-721, 794-799, Vector.py:248-251). -/
def operationBox (ops : List Drawn) (st : St) (i : Nat) (d : Drawn) : Except PyErr (Box ℝ) :=
  match d.op with
  | .line f s => do
    let a ← vectorOf ops st f
    let b ← vectorOf ops st s
    let a ← asPoint a
    let b ← asPoint b
    boxOf [a, b]
  | .spline f s .. =>
    match st.ctrl i with
    | none => .error .nameError
    | some (c1, c2) => do
      let a ← vectorOf ops st f
      let b ← vectorOf ops st s
      let a ← asPoint a
      let b ← asPoint b
      boxOf [a, c1, c2, b]
  | _ =>
    match st.vec i with
    | some v => .ok (Box.ofPoint v)
    | none => .error .attributeError

/-- The loop of `Sketch.bounding_box` (Sketch.py:144-149), from the operation of number `i`. -/
def boxLoop (ops : List Drawn) (st : St) : Nat → List Drawn → Option (Box ℝ) → Except PyErr (Option (Box ℝ))
  | _, [], box => .ok box
  | i, d :: rest, box => do
    let interval ← operationBox ops st i d
    boxLoop ops st (i + 1) rest (some (match box with | none => interval | some box => box.union interval))

/-- `Sketch.bounding_box` (Sketch.py:136-151). -/
def boundingBox (ops : List Drawn) (st : St) : Except PyErr (Option (Box ℝ)) := boxLoop ops st 0 ops none

/-- The class and the parameters of the items made (GraphicItem.py:76-110, 112-140, 205-225, 316-351). -/
inductive Shape where
  | circle (radius : Value) (style : PathStyle)
  | segment (style : PathStyle)
  | text (text : String) (fontSize : Value)
  | cubic (style : PathStyle)

/-- The scene. -/
abbrev Sc := Scene.Scene ℝ Shape Unit

/-- A call of `scene.circle`, `scene.segment`… with the operation of number `u` as user data (Scene.py:185-200): the identity of the item
is its rank. -/
def add (s : Sc) (shape : Shape) (positions : List (Scene.Position ℝ)) (u : Nat) : Sc := s.addItem s.items.length shape positions (some u)

section

variable (colors : Colour.DataBase) (floatText : Text → Except PyErr ℚ)

/-- `_operation_to_path_style(operation, line_width=…)` (Sketch.py:155-163). -/
def pathStyle (d : Drawn) (lineWidth : Value) : Except PyErr PathStyle :=
  PathStyle.new colors floatText [("stroke_style", d.lineStyle), ("stroke_color", d.lineColor), ("line_width", lineWidth)]

/-- The construction line of a point (Sketch.py:204-226): from the first or the base point, by name, for the classes with line properties. -/
def constructionLine (style : SketchStyle) (ops : List Drawn) (i : Nat) (d : Drawn) (name : String) (s : Sc) : Except PyErr Sc :=
  match d.op with
  | .along _ f .. | .endLine _ f .. | .normal _ f .. => do
    let ps ← pathStyle colors floatText d style.constructionLineWidth
    let first ← nameOf ops f
    return add s (.segment ps) [.name first, .name name] i
  | _ => .ok s

/-- The drawing of a point (Sketch.py:185-226). The test `if offset` is always true: a vector has a length, which is 2, and no
`__bool__`. -/
def drawPoint (style : SketchStyle) (ops : List Drawn) (st : St) (i : Nat) (d : Drawn) (name : String) (s : Sc) : Except PyErr Sc :=
  match st.vec i with
  | none => .error .typeError
  | some v => do
    let s := s.addCoordinate name v
    let ps ← style.pointStyle colors floatText
    let s := add s (.circle style.pointSize ps) [.name name] i
    let position := v + (⟨d.labelOffset.x, -d.labelOffset.y⟩ : Vec ℝ)
    let ls ← style.labelLineStyle colors floatText
    let s := add s (.segment ls) [.vector v, .vector position] i
    let s := add s (.text name style.fontSize) [.vector position] i
    constructionLine colors floatText style ops i d name s

/-- One turn of the loop of `detail_scene` (Sketch.py:183-244). -/
def draw (style : SketchStyle) (ops : List Drawn) (st : St) (i : Nat) (d : Drawn) (s : Sc) : Except PyErr Sc :=
  match d.op with
  | .line f g => do
    let ps ← pathStyle colors floatText d style.lineWidth
    let first ← nameOf ops f
    let second ← nameOf ops g
    return add s (.segment ps) [.name first, .name second] i
  | .spline f g .. => do
    let ps ← pathStyle colors floatText d style.lineWidth
    let first ← nameOf ops f
    let second ← nameOf ops g
    match st.ctrl i with
    | none => .error .nameError
    | some (c1, c2) => return add s (.cubic ps) [.name first, .vector c1, .vector c2, .name second] i
  | _ =>
    match d.op.name with
    | some name => drawPoint colors floatText style ops st i d name s
    | none => .ok s

/-- The loop of `detail_scene` (Sketch.py:183-244), from the operation of number `i`. -/
def drawLoop (style : SketchStyle) (ops : List Drawn) (st : St) : Nat → List Drawn → Sc → Except PyErr Sc
  | _, [], s => .ok s
  | i, d :: rest, s => do
    let s ← draw colors floatText style ops st i d s
    drawLoop style ops st (i + 1) rest s

/-- `detail_scene(style=…)` (Sketch.py:167-246): the scene and its `bounding_box`. Without style it is `DetailSketchStyle()`. The control
points of a spline are read after the box was computed, which fails without them; the same holds for the vector of a point. -/
def detailScene (style : Option SketchStyle) (ops : List Drawn) (st : St) : Except PyErr (Sc × Option (Box ℝ)) := do
  let box ← boundingBox ops st
  let style ← (match style with | some s => .ok s | none => SketchStyle.new colors [])
  let s ← drawLoop colors floatText style ops st 0 ops { transformation := id }
  return (s, box)

end

end

end Patro.Detail
