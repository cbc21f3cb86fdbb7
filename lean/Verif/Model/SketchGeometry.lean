import Verif.Model.Conic
/-!
# Model of the evaluation of the points of a sketch (`Patro/Pattern/SketchOperation.py`, `Patro/Pattern/Sketch.py`)

The operations of a sketch are numbered in the order of their creation and refer to each other by number (the resolution of
ids and names is in `Model/Pattern.lean`). An expression is a function of what the calculator shows it: the points by
name and the current segment; its value is cached as in `Model/Calculator.lean`.
-/

namespace Patro.SketchGeometry

open Conic

/-- Why an evaluation stops: a Python exception, or nan coordinates. For nan coordinates the code goes on with nan; the model
stops there. -/
inductive Err where
  | py (e : PyErr)
  | nan

/-- What an expression can read: `_points[name].vector` (Calculator.py:132-139, `none`: unknown name, `some none`: a point whose
vector is `None`) and `_current_segment` (Calculator.py:118-123). -/
structure Env where
  points : String → Option (Option (Vec ℝ))
  current : Option (Vec ℝ)

/-- An expression: `Expression.eval` (Calculator.py:332-347). A value which is not a number is an error. -/
abbrev Expr := Env → Except Err ℝ

/-- The operations, by class (SketchOperation.py:405-800). -/
inductive Op where
  | single (name : String) (x y : Expr)
  | along (name : String) (first second : Nat) (length : Expr)
  | endLine (name : String) (base : Nat) (angle length : Expr)
  | lineIntersect (name : String) (p1l1 p2l1 p1l2 p2l2 : Nat)
  | normal (name : String) (first second : Nat) (angle length : Expr)
  | contact (name : String) (first second center : Nat) (radius : Expr)
  | intersection (name : String) (first second : Nat)
  | line (first second : Nat)
  | spline (first second : Nat) (angle1 length1 angle2 length2 : Expr)

/-- The name of a point. -/
def Op.name : Op → Option String
  | .single n .. | .along n .. | .endLine n .. | .lineIntersect n .. | .normal n .. | .contact n .. | .intersection n .. => some n
  | .line .. | .spline .. => none

/-- The operations an operation refers to. -/
def Op.refs : Op → List Nat
  | .single .. => []
  | .along _ f s _ => [f, s]
  | .endLine _ b .. => [b]
  | .lineIntersect _ a b c d => [a, b, c, d]
  | .normal _ f s .. => [f, s]
  | .contact _ f s c _ => [f, s, c]
  | .intersection _ f s => [f, s]
  | .line f s => [f, s]
  | .spline f s .. => [f, s]

/-- The state of the sketch: the vectors of the points (`_vector`, `None` at first), the control points of the splines, the points
known to the calculator by name, and the cached values of the expressions (operation, position). -/
structure St where
  vec : Nat → Option (Vec ℝ)
  ctrl : Nat → Option (Vec ℝ × Vec ℝ)
  points : String → Option Nat
  value : Nat → Nat → Option ℝ

/-- A new sketch. -/
def St.empty : St := ⟨fun _ => none, fun _ => none, fun _ => none, fun _ _ => none⟩

/-- What an expression can read in a state. -/
def St.env (st : St) (current : Option (Vec ℝ)) : Env := ⟨fun n => (st.points n).map st.vec, current⟩

/-- `Expression.value` (Calculator.py:360-365). -/
def St.getValue (st : St) (i slot : Nat) (e : Expr) (current : Option (Vec ℝ)) : Except Err (ℝ × St) :=
  match st.value i slot with
  | some v => .ok (v, st)
  | none => do
    let v ← e (st.env current)
    return (v, { st with value := fun j k => if j = i ∧ k = slot then some v else st.value j k })

/-- `point.vector` where a vector is needed: `None` raises (`TypeError` or `AttributeError`, not distinguished). -/
def St.getVec (st : St) (j : Nat) : Except Err (Vec ℝ) :=
  match st.vec j with
  | some v => .ok v
  | none => .error (.py .typeError)

/-- `self._vector = …`. -/
def St.setVec (st : St) (i : Nat) (v : Option (Vec ℝ)) : St := { st with vec := fun j => if j = i then v else st.vec j }

/-- `Calculator.add_point` (Calculator.py:127-128). -/
def St.addPoint (st : St) (name : String) (i : Nat) : St :=
  { st with points := fun n => if n = name then some i else st.points n }

noncomputable section

open Classical

/-- A Python exception. -/
def lift {α : Type} : Except PyErr α → Except Err α
  | .ok a => .ok a
  | .error e => .error (.py e)

/-- `to_normalised()` (Vector.py:572-574). -/
def normalised (v : Vec ℝ) : Except Err (Vec ℝ) :=
  match v.toNormalised with
  | some u => .ok u
  | none => .error .nan

/-- `eval_internal` of the operations (SketchOperation.py:439-441, 470-476, 505-508, 557-562, 591-602, 636-660, 686-688, 723-724,
784-789). The point of contact with a tangent line raises: `intersect_segment` returns a vector, of length 2, and `points[0]` is a
number (the class of the exception depends on numpy). -/
def evalInternal (st : St) (i : Nat) : Op → Except Err St
  | .single _ x y => do
    let (x, st) ← st.getValue i 0 x none
    let (y, st) ← st.getValue i 1 y none
    return st.setVec i (some ⟨x, y⟩)
  | .along _ first second length => do
    let a ← st.getVec first
    let b ← st.getVec second
    let vector := b - a
    let u ← normalised vector
    let (length, st) ← st.getValue i 0 length (some vector)
    return st.setVec i (some (a + u.smul length))
  | .endLine _ base angle length => do
    let a ← st.getVec base
    let (angle, st) ← st.getValue i 0 angle none
    let (length, st) ← st.getValue i 1 length none
    return st.setVec i (some (a + (Vec.fromAngle angle).smul length))
  | .lineIntersect _ p1l1 p2l1 p1l2 p2l2 => do
    let a ← st.getVec p1l1
    let b ← st.getVec p2l1
    let c ← st.getVec p1l2
    let d ← st.getVec p2l2
    return st.setVec i ((Line.fromTwoPoints a b).intersection (Line.fromTwoPoints c d))
  | .normal _ first second angle length => do
    let a ← st.getVec first
    let b ← st.getVec second
    let vector := b - a
    let u ← normalised vector
    let direction := u.normal
    let (angle, st) ← st.getValue i 0 angle (some vector)
    let direction := if angle ≠ 0 then direction.rotate angle else direction
    let (length, st) ← st.getValue i 1 length (some vector)
    return st.setVec i (some (a + direction.smul length))
  | .contact _ first second center radius => do
    let a ← st.getVec first
    let b ← st.getVec second
    let c ← st.getVec center
    let (radius, st) ← st.getValue i 0 radius none
    match ← lift (Circle.intersectSegment ⟨c, radius, none⟩ ⟨a, b⟩) with
    | .none => return st.setVec i none
    | .one _ => .error (.py .attributeError)
    | .two p0 p1 =>
      let inside ← lift ((⟨a, b⟩ : Segment ℝ).containPoint p0)
      let _ ← lift ((⟨a, b⟩ : Segment ℝ).containPoint p1)
      return st.setVec i (some (if inside then p0 else p1))
  | .intersection _ first second => do
    let a ← st.getVec first
    let b ← st.getVec second
    return st.setVec i (some ⟨a.x, b.y⟩)
  | .line .. => .ok st
  | .spline first second angle1 length1 angle2 length2 => do
    let (angle1, st) ← st.getValue i 0 angle1 none
    let (length1, st) ← st.getValue i 1 length1 none
    let (angle2, st) ← st.getValue i 2 angle2 none
    let (length2, st) ← st.getValue i 3 length2 none
    let a ← st.getVec first
    let b ← st.getVec second
    let c := (a + (Vec.fromAngle angle1).smul length1, b + (Vec.fromAngle angle2).smul length2)
    return { st with ctrl := fun j => if j = i then some c else st.ctrl j }

/-- One turn of the loop of `Sketch.eval` (Sketch.py:110-118); the links of the graph are in `Model/Pattern.lean`. -/
def evalOp (st : St) (i : Nat) (o : Op) : Except Err St :=
  match o.name with
  | some n => evalInternal (st.addPoint n i) i o
  | none => evalInternal st i o

/-- The loop of `Sketch.eval` (Sketch.py:108-119), from the operation of number `i`. -/
def evalFrom (st : St) (i : Nat) : List Op → Except Err St
  | [] => .ok st
  | o :: os => do
    let st ← evalOp st i o
    evalFrom st (i + 1) os

/-- `Sketch.eval` (Sketch.py:108-119). -/
def evalSketch (st : St) (ops : List Op) : Except Err St := evalFrom st 0 ops

/-- `SimpleInteractiveSpline.geometry` (SketchOperation.py:794-799): the four points of the curve. -/
def splineGeometry (st : St) (i first second : Nat) : Except PyErr (Option (Vec ℝ) × Vec ℝ × Vec ℝ × Option (Vec ℝ)) :=
  match st.ctrl i with
  | none => .error .nameError
  | some (c1, c2) => .ok (st.vec first, c1, c2, st.vec second)

end

end Patro.SketchGeometry
