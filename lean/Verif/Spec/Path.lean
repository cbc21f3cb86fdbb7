import Verif.Model.Path
/-! # Specification for paths -/

namespace Patro.Path

variable {K : Type _} [Field K] [LinearOrder K]

/-- What a part draws from a given start point: the points after the start, the last of which is where the part stops. `none` for the
stringed curves, which have no points. -/
def draw (start : Vec K) : Part K → Option (List (Vec K))
  | .line point absolute .. => some [if absolute then point else start + point]
  | .absH x .. => some [⟨x, start.y⟩]
  | .absV y .. => some [⟨start.x, y⟩]
  | .dir u length .. => some [start + u.smul length]
  | .quad p1 p2 absolute => some (if absolute then [p1, p2] else [start + p1, start + p2])
  | .cubic p1 p2 p3 absolute => some (if absolute then [p1, p2, p3] else [start + p1, start + p2, start + p3])
  | .stringedCubic _ => none
  | .arc point _ _ _ _ _ absolute => some [if absolute then point else start + point]

/-- The points of the successive parts, each one starting where the previous one stops. -/
def trace (start : Vec K) : List (Part K) → Option (List (List (Vec K)))
  | [] => some []
  | part :: parts => do
    let points ← draw start part
    let rest ← trace (points.getLastD start) parts
    return (start :: points) :: rest

/-- Where the last part stops. -/
def final (start : Vec K) : List (Part K) → Option (Vec K)
  | [] => some start
  | part :: parts => do
    let points ← draw start part
    final (points.getLastD start) parts

/-- A transformation which never turns a length into a negative number, as those of the library. -/
def Transf.Sound (t : Transf K) : Prop := ∀ r r', t.number r = .ok r' → 0 ≤ r → 0 ≤ r'

/-- The part with its points absolute and mapped by `f`, and its radius by `g`, when it starts from `start`. -/
def mapPart (f : Vec K → Vec K) (g : K → Except PyErr K) (start : Vec K) : Part K → Part K
  | .line point absolute radius closing startBulge =>
    .line (f (if absolute then point else start + point)) true (radius.bind fun r => (g r).toOption) closing startBulge
  | .absH x radius startBulge => .line (f ⟨x, start.y⟩) true (radius.bind fun r => (g r).toOption) false startBulge
  | .absV y radius startBulge => .line (f ⟨start.x, y⟩) true (radius.bind fun r => (g r).toOption) false startBulge
  | .dir u length radius startBulge => .line (f (start + u.smul length)) true (radius.bind fun r => (g r).toOption) false startBulge
  | .quad p1 p2 absolute =>
    if absolute then .quad (f p1) (f p2) true else .quad (f (start + p1)) (f (start + p2)) true
  | .cubic p1 p2 p3 absolute =>
    if absolute then .cubic (f p1) (f p2) (f p3) true else .cubic (f (start + p1)) (f (start + p2)) (f (start + p3)) true
  | .stringedCubic absolute => .stringedCubic absolute
  | .arc point rx ry angle largeArc sweep absolute =>
    .arc (f (if absolute then point else start + point)) rx ry angle largeArc sweep true

/-- The successive parts, each one from where the previous one stops. -/
def mapParts (f : Vec K → Vec K) (g : K → Except PyErr K) (start : Vec K) : List (Part K) → List (Part K)
  | [] => []
  | part :: parts => mapPart f g start part :: mapParts f g (((draw start part).getD []).getLastD start) parts

/-- A stringed cubic curve, which has no points. -/
def Part.isStringed : Part K → Bool
  | .stringedCubic _ => true
  | _ => false

/-- The paths a program can build and transform, whatever the methods raise. The start point is not moved once the path is closed. -/
inductive Reach : Path K → Prop
  | new (start) : Reach (Path.new start)
  | move (path point) : Reach path → path.closed = false → Reach (path.moveTo point)
  | line (path point radius absolute) : Reach path → Reach (path.lineTo point radius absolute).2
  | horizontal (path length radius absolute) : Reach path → Reach (path.horizontalTo length radius absolute).2
  | vertical (path length radius absolute) : Reach path → Reach (path.verticalTo length radius absolute).2
  | absoluteHorizontal (path x radius) : Reach path → Reach (path.absoluteHorizontalTo x radius).2
  | absoluteVertical (path y radius) : Reach path → Reach (path.absoluteVerticalTo y radius).2
  | direction (path u length radius) : Reach path → Reach (path.directionTo u length radius).2
  | quadratic (path p1 p2 absolute) : Reach path → Reach (path.quadraticTo p1 p2 absolute).2
  | cubic (path p1 p2 p3 absolute) : Reach path → Reach (path.cubicTo p1 p2 p3 absolute).2
  | stringedQuadratic (path p absolute) : Reach path → Reach (path.stringedQuadraticTo p absolute).2
  | stringedCubic (path p1 p2 absolute) : Reach path → Reach (path.stringedCubicTo p1 p2 absolute).2
  | arc (path p rx ry a l s absolute) : Reach path → Reach (path.arcTo p rx ry a l s absolute).2
  | close (path radius closeRadius) : Reach path → Reach (path.close radius closeRadius).2
  | transform (path t) : Reach path → t.Sound → (path.applyTransformation t).1 = .ok () → Reach (path.applyTransformation t).2

end Patro.Path
