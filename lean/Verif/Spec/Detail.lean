import Verif.Model.Detail
import Verif.Spec.SceneGeometry
/-! # Specification of the drawing of a sketch -/

namespace Patro.Detail

open SketchGeometry (Op St)
open Style (Value PathStyle SketchStyle)
open Tex (StrokeStyle)

/-- The operations refer to points made before them, as the constructors ensure when they are given points. -/
def Refs (ops : List Drawn) : Prop :=
  ∀ (i : Nat) (d : Drawn), ops[i]? = some d → ∀ j ∈ d.op.refs, j < i ∧ ∃ e n, ops[j]? = some e ∧ e.op.name = some n

/-- Every point has a position, every curve has its control points. -/
def Evaluated (ops : List Drawn) (st : St) : Prop :=
  ∀ (i : Nat) (d : Drawn), ops[i]? = some d →
    (d.op.name.isSome → (st.vec i).isSome) ∧ ∀ f s a1 l1 a2 l2, d.op = .spline f s a1 l1 a2 l2 → (st.ctrl i).isSome

/-- `p` is the position of a point of the sketch or a control point of one of its curves. -/
def Significant (ops : List Drawn) (st : St) (p : Vec ℝ) : Prop :=
  ∃ (i : Nat) (d : Drawn), ops[i]? = some d ∧
    ((d.op.name.isSome ∧ st.vec i = some p) ∨
      ∃ f s a1 l1 a2 l2 c1 c2, d.op = .spline f s a1 l1 a2 l2 ∧ st.ctrl i = some (c1, c2) ∧ (p = c1 ∨ p = c2))

/-- The point from which a construction line is drawn. -/
def constructionFrom : Op → Option Nat
  | .along _ first _ _ => some first
  | .endLine _ base _ _ => some base
  | .normal _ first _ _ _ => some first
  | _ => none

/-- The operation is drawn with its own line style. -/
def usesLine : Op → Bool
  | .along .. | .endLine .. | .normal .. | .line .. | .spline .. => true
  | _ => false

/-- The pen of an operation: a stroke style and a colour, if any. -/
def penOf (d : Drawn) : Option (StrokeStyle × Option Colour.Color) :=
  match d.lineStyle, d.lineColor with
  | .stroke s, .color c => some (s, some c)
  | .stroke s, .none => some (s, none)
  | _, _ => none

/-- The operations drawn with a line style have one. -/
def Styled (ops : List Drawn) : Prop := ∀ d ∈ ops, usesLine d.op = true → (penOf d).isSome

/-- A line of the given style, width and colour; everything else is as usual. -/
def lineOf (pen : StrokeStyle × Option Colour.Color) (width : Value) : PathStyle :=
  { strokeStyle := pen.1, lineWidth := width, strokeColor := pen.2, strokeAlpha := 1, fillColor := none, fillAlpha := 1,
    capStyle := .squareCap, joinStyle := .bevelJoin }

/-- What is drawn: a shape at some points of the plane, for an operation. -/
structure Mark where
  shape : Shape
  points : List (Vec ℝ)
  operation : Nat

/-- Where a label is: the offset has its second coordinate downwards. -/
def labelPosition (v : Vec ℝ) (d : Drawn) : Vec ℝ := ⟨v.x + d.labelOffset.x, v.y - d.labelOffset.y⟩

/-- The marks of a point of name `name` and position `v`: a disc, the line to its label and the label, then the construction line, if any. -/
def pointMarks (black : Colour.Color) (style : SketchStyle) (st : St) (i : Nat) (d : Drawn) (name : String) (v : Vec ℝ) : List Mark :=
  [⟨.circle style.pointSize { lineOf (.solidLine, some black) (.num 1) with fillColor := style.pointColor }, [v], i⟩,
   ⟨.segment (lineOf (.solidLine, some black) style.labelLineWidth), [v, labelPosition v d], i⟩,
   ⟨.text name style.fontSize, [labelPosition v d], i⟩] ++
  match constructionFrom d.op, penOf d with
  | some f, some pen => [⟨.segment (lineOf pen style.constructionLineWidth), [(st.vec f).getD 0, v], i⟩]
  | _, _ => []

/-- The marks of an operation. -/
def marks (black : Colour.Color) (style : SketchStyle) (st : St) (i : Nat) (d : Drawn) : List Mark :=
  match d.op, penOf d with
  | .line f s, some pen => [⟨.segment (lineOf pen style.lineWidth), [(st.vec f).getD 0, (st.vec s).getD 0], i⟩]
  | .spline f s .., some pen =>
    [⟨.cubic (lineOf pen style.lineWidth),
      [(st.vec f).getD 0, ((st.ctrl i).getD (0, 0)).1, ((st.ctrl i).getD (0, 0)).2, (st.vec s).getD 0], i⟩]
  | op, _ =>
    match op.name with
    | some name => pointMarks black style st i d name ((st.vec i).getD 0)
    | none => []

/-- The marks of the operations, in order, the first one having the number `i`. -/
def allMarks (black : Colour.Color) (style : SketchStyle) (st : St) : Nat → List Drawn → List Mark
  | _, [] => []
  | i, d :: rest => marks black style st i d ++ allMarks black style st (i + 1) rest

/-- The names of the points. -/
def names (ops : List Drawn) : List String := ops.filterMap (·.op.name)

end Patro.Detail
