import Verif.Model.SvgPath
import Verif.Spec.Path
/-! # Specification for the path data of SVG -/

namespace Patro.SvgPath

/-- The number of arguments of the commands of SVG 1.1. -/
def arity (c : Char) : Option Nat :=
  match c with
  | 'M' | 'm' | 'L' | 'l' | 'T' | 't' => some 2
  | 'H' | 'h' | 'V' | 'v' => some 1
  | 'C' | 'c' => some 6
  | 'S' | 's' | 'Q' | 'q' => some 4
  | 'A' | 'a' => some 7
  | 'Z' | 'z' => some 0
  | _ => none

/-- The number of arguments the code takes: the one of SVG, but for `t`. -/
def codeArity (c : Char) : Option Nat := if c = 'T' ∨ c = 't' then some 3 else arity c

/-- A letter and the groups of arguments which follow it. -/
structure Block (F : Type _) where
  letter : Char
  groups : List (List F)

/-- A letter with at least one group, each one with the number of arguments of the letter; a close command stands alone. -/
def Block.WellFormed {F : Type _} (b : Block F) : Prop :=
  ∃ n, arity b.letter = some n ∧ b.groups ≠ [] ∧ (∀ g ∈ b.groups, g.length = n) ∧ (n = 0 → b.groups.length = 1)

/-- What is written for a block. -/
def Block.toks {F : Type _} (b : Block F) : List (Tok F) := .letter b.letter :: b.groups.flatten.map .num

/-- The commands which a block stands for: the groups after the first one of a move-to are line-to, in the same case. -/
def Block.commands {F : Type _} (b : Block F) : List (Char × List F) :=
  match b.groups with
  | [] => []
  | g :: gs => (b.letter, g) :: gs.map fun g => (if b.letter = 'm' then 'l' else if b.letter = 'M' then 'L' else b.letter, g)

/-- The same as the parser returns it. -/
def Command.ofNums {F : Type _} (c : Char × List F) : Command F := (c.1, c.2.map .num)

/-- Sequences made of complete commands, for the code: a letter, as many items as its number of arguments, and further groups which start
by a number. An item may be a letter where an argument is expected. -/
inductive Complete {F : Type _} : List (Tok F) → Prop
  | nil : Complete []
  | block (pre : List (Tok F)) (c : Char) (n : Nat) (first : List (Tok F)) (groups : List (List (Tok F))) :
    Complete pre → codeArity c = some n → first.length = n →
    (∀ g ∈ groups, g.length = n ∧ ∃ x t, g = Tok.num x :: t) →
    Complete (pre ++ (.letter c :: first ++ groups.flatten))

/-- There is a number just after a close command. -/
def NumberAfterClose {F : Type _} (parts : List (Tok F)) : Prop :=
  ∃ pre c x rest, Complete pre ∧ (c = 'z' ∨ c = 'Z') ∧ parts = pre ++ Tok.letter c :: Tok.num x :: rest

/-! ## The curve described by path data, as defined by SVG 1.1 -/

/-- A piece of a curve: the control points of a line or Bézier curve, or an arc. -/
inductive Piece (K : Type _) where
  | curve (points : List (Vec K))
  | arc (start stop : Vec K) (radiusX radiusY angle : K) (largeArc sweep : Bool)

/-- The current point, the start of the current subpath, and the last control point of the previous command when it is a cubic curve,
when it is a quadratic curve. -/
structure Pen (K : Type _) where
  cur : Vec K
  start : Vec K
  cubic : Option (Vec K)
  quad : Option (Vec K)

variable {K : Type _} [Field K] [LinearOrder K]

/-- The pen after a command which is not a curve. -/
def Pen.goto (pen : Pen K) (p : Vec K) : Pen K := ⟨p, pen.start, none, none⟩

/-- The point with the given coordinates, absolute for an upper case letter, relative to the current point otherwise. -/
def Pen.at (pen : Pen K) (absolute : Bool) (x y : K) : Vec K := if absolute then ⟨x, y⟩ else pen.cur + ⟨x, y⟩

/-- The reflection of a control point about the current point, which is the current point itself when there is none. -/
def Pen.reflect (pen : Pen K) (control : Option (Vec K)) : Vec K :=
  match control with
  | some c => pen.cur + pen.cur - c
  | none => pen.cur

/-- What one command draws, and the pen afterwards. -/
def Pen.draw (pen : Pen K) (c : Char) (args : List K) : Option (List (Piece K) × Pen K) :=
  let abs : Bool := c.isUpper
  match c.toLower, args with
  | 'm', [x, y] => let p := pen.at abs x y; some ([], ⟨p, p, none, none⟩)
  | 'l', [x, y] => let p := pen.at abs x y; some ([.curve [pen.cur, p]], pen.goto p)
  | 'h', [x] => let p : Vec K := ⟨if abs then x else pen.cur.x + x, pen.cur.y⟩; some ([.curve [pen.cur, p]], pen.goto p)
  | 'v', [y] => let p : Vec K := ⟨pen.cur.x, if abs then y else pen.cur.y + y⟩; some ([.curve [pen.cur, p]], pen.goto p)
  | 'c', [x1, y1, x2, y2, x, y] =>
    let p1 := pen.at abs x1 y1; let p2 := pen.at abs x2 y2; let p := pen.at abs x y
    some ([.curve [pen.cur, p1, p2, p]], ⟨p, pen.start, some p2, none⟩)
  | 's', [x2, y2, x, y] =>
    let p1 := pen.reflect pen.cubic; let p2 := pen.at abs x2 y2; let p := pen.at abs x y
    some ([.curve [pen.cur, p1, p2, p]], ⟨p, pen.start, some p2, none⟩)
  | 'q', [x1, y1, x, y] =>
    let p1 := pen.at abs x1 y1; let p := pen.at abs x y
    some ([.curve [pen.cur, p1, p]], ⟨p, pen.start, none, some p1⟩)
  | 't', [x, y] =>
    let p1 := pen.reflect pen.quad; let p := pen.at abs x y
    some ([.curve [pen.cur, p1, p]], ⟨p, pen.start, none, some p1⟩)
  | 'a', [rx, ry, angle, largeArc, sweep, x, y] =>
    let p := pen.at abs x y
    some ([.arc pen.cur p rx ry angle (largeArc ≠ 0) (sweep ≠ 0)], pen.goto p)
  | 'z', [] => some ([.curve [pen.cur, pen.start]], pen.goto pen.start)
  | _, _ => none

/-- What a sequence of commands draws. -/
def Pen.drawAll (pen : Pen K) : List (Char × List K) → Option (List (Piece K))
  | [] => some []
  | c :: cs => do
    let (pieces, pen) ← pen.draw c.1 c.2
    let rest ← pen.drawAll cs
    return pieces ++ rest

/-- The curve described by path data, which starts by a move-to; a relative one is taken as an absolute one. -/
def svgCurve : List (Char × List K) → Option (List (Piece K))
  | (c, [x, y]) :: cs => if c = 'm' ∨ c = 'M' then Pen.drawAll ⟨⟨x, y⟩, ⟨x, y⟩, none, none⟩ cs else none
  | _ => none

/-- The piece of a part which starts at a given point, and where it stops. -/
def partPiece (start : Vec K) (part : Path.Part K) : Option (Piece K × Vec K) := do
  let points ← Path.draw start part
  let stop := points.getLastD start
  match part with
  | .arc _ rx ry angle largeArc sweep _ => return (.arc start stop rx ry angle largeArc sweep, stop)
  | _ => return (.curve (start :: points), stop)

/-- The curve of a path: each part starts where the previous one stops. -/
def partsCurve (start : Vec K) : List (Path.Part K) → Option (List (Piece K))
  | [] => some []
  | part :: parts => do
    let (piece, stop) ← partPiece start part
    let rest ← partsCurve stop parts
    return piece :: rest

@[inherit_doc partsCurve] def pathCurve (path : Path.Path K) : Option (List (Piece K)) := partsCurve path.p0 path.parts

end Patro.SvgPath
