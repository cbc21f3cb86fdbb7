import Verif.Model.Py
import Verif.Model.Vector
import Verif.Model.Transformation
/-!
# Model of `Patro/GeometryEngine/Path.py`: parts, start and stop points, building and transforming a path

A path is its start point, the list of its parts and a flag. The attribute `_index` of a part is its position in the list. The caches of
the rounded corners are in `Model/PathBulge.lean`. Recursion in the properties `start_point` and `stop_point` is bounded by a fuel; it is
proved to be enough, so that the recursion stops, but the limit of CPython on the depth of the stack is not modelled. Coordinates are
elements of an ordered field.
-/

namespace Patro.Path

variable {K : Type _} [Field K] [LinearOrder K]

/-- The classes of parts and their attributes. `radius` and `startBulge` are the ones of `LinearSegment` (Path.py:235-248). -/
inductive Part (K : Type _) where
  /-- `PathSegment` (Path.py:409-416). -/
  | line (point : Vec K) (absolute : Bool) (radius : Option K) (closing startBulge : Bool)
  /-- `AbsoluteHorizontalSegment` (Path.py:496-504). -/
  | absH (x : K) (radius : Option K) (startBulge : Bool)
  /-- `AbsoluteVerticalSegment` (Path.py:534-542). -/
  | absV (y : K) (radius : Option K) (startBulge : Bool)
  /-- `DirectionalSegment` (Path.py:572-580): `u` is the vector of the cosine and the sine of the angle of the class (Path.py:634-662). -/
  | dir (u : Vec K) (length : K) (radius : Option K) (startBulge : Bool)
  /-- `QuadraticBezierSegment` (Path.py:666-678). -/
  | quad (point1 point2 : Vec K) (absolute : Bool)
  /-- `CubicBezierSegment` (Path.py:711-722). -/
  | cubic (point1 point2 point3 : Vec K) (absolute : Bool)
  /-- `StringedCubicBezierSegment` (Path.py:783-792): its points are not kept. -/
  | stringedCubic (absolute : Bool)
  /-- `ArcSegment` (Path.py:810-825). -/
  | arc (point : Vec K) (radiusX radiusY angle : K) (largeArc sweep absolute : Bool)
deriving DecidableEq

/-- The state of a `Path2D` (Path.py:885-890). -/
structure Path (K : Type _) where
  p0 : Vec K
  parts : List (Part K)
  closed : Bool
deriving DecidableEq

/-- `isinstance(part, LinearSegment)`. -/
def Part.isLinear : Part K → Bool
  | .line .. | .absH .. | .absV .. | .dir .. => true
  | _ => false

/-- `radius`, for the linear parts (Path.py:304-306). -/
def Part.radius : Part K → Option K
  | .line _ _ r _ _ | .absH _ r _ | .absV _ r _ | .dir _ _ r _ => r
  | _ => none

/-- `_start_bulge`, for the linear parts (Path.py:242). -/
def Part.startBulge : Part K → Bool
  | .line _ _ _ _ b | .absH _ _ b | .absV _ _ b | .dir _ _ _ b => b
  | _ => false

/-- `stop_point` of the classes, given their `start_point` (Path.py:115-126, 156-158, 528-530, 566-568, 604-612, 694-696, 739-741). It is
not defined for the stringed curves (Path.py:115-117). -/
def Part.stopFrom (part : Part K) (start : Except PyErr (Vec K)) : Except PyErr (Vec K) :=
  match part with
  | .line point absolute .. => if absolute then .ok point else start.map (point + ·)
  | .absH x .. => start.map fun s => ⟨x, s.y⟩
  | .absV y .. => start.map fun s => ⟨s.x, y⟩
  | .dir u length .. => start.map (· + u.smul length)
  | .quad _ point2 absolute => if absolute then .ok point2 else start.map (point2 + ·)
  | .cubic _ _ point3 absolute => if absolute then .ok point3 else start.map (point3 + ·)
  | .stringedCubic _ => .error .notImplementedError
  | .arc point _ _ _ _ _ absolute => if absolute then .ok point else start.map (point + ·)

/-- The index of `prev_part` (Path.py:94-96, 269-275, 913-928). -/
def Path.prevIndex (path : Path K) (i : Nat) : Option Nat :=
  match path.parts[i]? with
  | some part => if part.startBulge then some (path.parts.length - 1) else if 1 ≤ i then some (i - 1) else none
  | none => none

/-- `stop_point` of the part of index `i`. -/
def Path.stopPointFuel (path : Path K) : Nat → Nat → Except PyErr (Vec K)
  | 0, _ => .error .recursionError
  | fuel + 1, i =>
    match path.parts[i]? with
    | none => .error .indexError
    | some part => part.stopFrom (match path.prevIndex i with
      | none => .ok path.p0
      | some j => path.stopPointFuel fuel j)

/-- `stop_point` of the part of index `i`. The recursion visits each part at most once, and the last one twice. -/
def Path.stopPoint (path : Path K) (i : Nat) : Except PyErr (Vec K) := path.stopPointFuel (path.parts.length + 1) i

/-- `start_point` of the part of index `i` (Path.py:104-111). -/
def Path.startPoint (path : Path K) (i : Nat) : Except PyErr (Vec K) :=
  match path.prevIndex i with
  | none => .ok path.p0
  | some j => path.stopPoint j

/-- `to_absolute_point(point)` of the part of index `i` (Path.py:121-126). -/
def Path.toAbsolutePoint (path : Path K) (i : Nat) (absolute : Bool) (point : Vec K) : Except PyErr (Vec K) :=
  if absolute then .ok point else (path.startPoint i).map (point + ·)

/-- The points of a part: `start_point`, the control points, `stop_point` (Path.py:698-700, 743-745, 854-856 for the curves, 172-188 and
203-209 for their points). For a linear part, the two points before rounding. -/
def Path.points (path : Path K) (i : Nat) : Except PyErr (List (Vec K)) :=
  match path.parts[i]? with
  | none => .error .indexError
  | some part => do
    let start ← path.startPoint i
    match part with
    | .quad p1 p2 absolute =>
      let p1 ← path.toAbsolutePoint i absolute p1
      let p2 ← path.toAbsolutePoint i absolute p2
      return [start, p1, p2]
    | .cubic p1 p2 p3 absolute =>
      let p1 ← path.toAbsolutePoint i absolute p1
      let p2 ← path.toAbsolutePoint i absolute p2
      let p3 ← path.toAbsolutePoint i absolute p3
      return [start, p1, p2, p3]
    | _ =>
      let stop ← path.stopPoint i
      return [start, stop]

/-! ## Building a path -/

/-- The outcome of a method: what it returns or raises, and the path afterwards. A part is given by its index, `None` by `none`. -/
abbrev Outcome (K : Type _) := Except PyErr (Option Nat) × Path K

/-- `_add_part` (Path.py:948-952) with the constructor of the part (Path.py:235-248): a radius needs a linear part before. -/
def Path.addPart (path : Path K) (part : Part K) : Outcome K :=
  if path.closed then (.ok none, path)
  else if part.radius.isSome ∧ ¬ (path.parts.getLast?.map Part.isLinear = some true) then (.error .valueError, path)
  else (.ok (some path.parts.length), { path with parts := path.parts ++ [part] })

/-- `radius` setter (Path.py:308-314): a null radius is kept, since the test assigns another variable. -/
def setRadius (radius : Option K) : Option K := radius.map (|·|)

/-- `Path2D(start_point)` (Path.py:885-890). -/
def Path.new (start : Vec K) : Path K := ⟨start, [], false⟩

/-- `move_to(point)` (Path.py:999-1000). -/
def Path.moveTo (path : Path K) (point : Vec K) : Path K := { path with p0 := point }

/-- `line_to(point, radius, absolute)` (Path.py:1056-1057). -/
def Path.lineTo (path : Path K) (point : Vec K) (radius : Option K := none) (absolute : Bool := false) : Outcome K :=
  path.addPart (.line point absolute (setRadius radius) false false)

/-- `horizontal_to(length, radius, absolute)` (Path.py:1004-1009). -/
def Path.horizontalTo (path : Path K) (length : K) (radius : Option K := none) (absolute : Bool := false) : Outcome K :=
  if absolute then path.addPart (.line ⟨length, 0⟩ true (setRadius radius) false false)
  else path.addPart (.dir ⟨1, 0⟩ length (setRadius radius) false)

/-- `vertical_to(length, radius, absolute)` (Path.py:1013-1018). -/
def Path.verticalTo (path : Path K) (length : K) (radius : Option K := none) (absolute : Bool := false) : Outcome K :=
  if absolute then path.addPart (.line ⟨0, length⟩ true (setRadius radius) false false)
  else path.addPart (.dir ⟨0, 1⟩ length (setRadius radius) false)

/-- `absolute_horizontal_to(x, radius)` (Path.py:1022-1023). -/
def Path.absoluteHorizontalTo (path : Path K) (x : K) (radius : Option K := none) : Outcome K := path.addPart (.absH x (setRadius radius) false)

/-- `absolute_vertical_to(y, radius)` (Path.py:1025-1026). -/
def Path.absoluteVerticalTo (path : Path K) (y : K) (radius : Option K := none) : Outcome K := path.addPart (.absV y (setRadius radius) false)

/-- `north_to` and the other directions (Path.py:1030-1052); `u` is the vector of the cosine and the sine of the angle of the class. -/
def Path.directionTo (path : Path K) (u : Vec K) (length : K) (radius : Option K := none) : Outcome K :=
  path.addPart (.dir u length (setRadius radius) false)

/-- `quadratic_to(point1, point2, absolute)` (Path.py:1075-1076). -/
def Path.quadraticTo (path : Path K) (point1 point2 : Vec K) (absolute : Bool := false) : Outcome K :=
  path.addPart (.quad point1 point2 absolute)

/-- `cubic_to(point1, point2, point3, absolute)` (Path.py:1080-1081). -/
def Path.cubicTo (path : Path K) (point1 point2 point3 : Vec K) (absolute : Bool := false) : Outcome K :=
  path.addPart (.cubic point1 point2 point3 absolute)

/-- `stringed_quadratic_to(point, absolute)` (Path.py:1085-1086): the name of the class is misspelt. -/
def Path.stringedQuadraticTo (path : Path K) (_point : Vec K) (_absolute : Bool := false) : Outcome K := (.error .nameError, path)

/-- `stringed_cubic_to(point1, point2, absolute)` (Path.py:1090-1091). -/
def Path.stringedCubicTo (path : Path K) (_point1 _point2 : Vec K) (absolute : Bool := false) : Outcome K :=
  path.addPart (.stringedCubic absolute)

/-- `arc_to(point, radius_x, radius_y, angle, large_arc, sweep, absolute)` (Path.py:1095-1097). -/
def Path.arcTo (path : Path K) (point : Vec K) (radiusX radiusY angle : K) (largeArc sweep : Bool) (absolute : Bool := false) : Outcome K :=
  path.addPart (.arc point radiusX radiusY angle largeArc sweep absolute)

/-- `LinearSegment.close(radius)` (Path.py:261-265); the other classes have no such method. -/
def Part.close (radius : K) : Part K → Except PyErr (Part K)
  | .line point absolute _ closing _ => .ok (.line point absolute (some |radius|) closing true)
  | .absH x _ _ => .ok (.absH x (some |radius|) true)
  | .absV y _ _ => .ok (.absV y (some |radius|) true)
  | .dir u length _ _ => .ok (.dir u length (some |radius|) true)
  | _ => .error .attributeError

/-- The call `self.start_segment.close(close_radius)` in `close` (Path.py:1067-1068). -/
def Path.closeStart (path : Path K) (radius : K) : Except PyErr Unit × Path K :=
  match path.parts with
  | [] => (.error .indexError, path)
  | part :: parts =>
    match part.close radius with
    | .ok part => (.ok (), { path with parts := part :: parts })
    | .error e => (.error e, path)

/-- `close(radius, close_radius)` (Path.py:1061-1071). -/
def Path.close (path : Path K) (radius closeRadius : Option K := none) : Outcome K :=
  let (r, path) := path.addPart (.line path.p0 true (setRadius radius) closeRadius.isSome false)
  match r with
  | .error e => (.error e, path)
  | .ok segment =>
    match closeRadius with
    | none => (.ok segment, { path with closed := true })
    | some closeRadius =>
      match path.closeStart closeRadius with
      | (.error e, path) => (.error e, path)
      | (.ok (), path) => (.ok segment, { path with closed := true })

/-! ## Transformation -/

/-- The end of `to_path_segment`: the constructor of the segment of index `i`, then `close` when it is the first one (Path.py:480-492,
619-630). -/
def Path.makeSegment (path : Path K) (i : Nat) (point : Vec K) (absolute : Bool) (radius : Option K) : Except PyErr (Part K) :=
  match radius with
  | none => .ok (.line point absolute none false false)
  | some r =>
    if i = 0 then (Part.line point absolute none false false).close r
    else if (path.parts[i - 1]?).map Part.isLinear = some true then .ok (.line point absolute (some |r|) false false)
    else .error .valueError

/-- `part.to_path_segment()` (Path.py:477-492, 616-630) for the part of index `i`; the parts which have no such method are not cast. -/
def Path.toPathSegment (path : Path K) (i : Nat) (part : Part K) : Except PyErr (Part K) :=
  match part with
  | .absH _ radius _ => do path.makeSegment i (← path.stopPoint i) true radius
  | .absV _ radius _ => do path.makeSegment i (← path.stopPoint i) true radius
  | .dir u length radius _ => path.makeSegment i (u.smul length) false radius
  | part => .ok part

/-- `part.to_absolute()` (Path.py:435-437, 687-690, 731-735, 848-850); the stringed curves have no such method. -/
def Path.toAbsolute (path : Path K) (i : Nat) (part : Part K) : Except PyErr (Part K) :=
  match part with
  | .line point absolute radius closing startBulge => do
    let point ← path.toAbsolutePoint i absolute point
    return .line point true radius closing startBulge
  | .quad p1 p2 absolute => do
    let p1 ← path.toAbsolutePoint i absolute p1
    let p2 ← path.toAbsolutePoint i absolute p2
    return .quad p1 p2 true
  | .cubic p1 p2 p3 absolute => do
    let p1 ← path.toAbsolutePoint i absolute p1
    let p2 ← path.toAbsolutePoint i absolute p2
    let p3 ← path.toAbsolutePoint i absolute p3
    return .cubic p1 p2 p3 true
  | .arc point rx ry angle largeArc sweep absolute => do
    let point ← path.toAbsolutePoint i absolute point
    return .arc point rx ry angle largeArc sweep true
  | _ => .error .attributeError

/-- `_absolute` (Path.py:65-66). The parts cast to `PathSegment` do not need it. -/
def Part.absolute : Part K → Bool
  | .line _ a _ _ _ | .quad _ _ a | .cubic _ _ _ a | .stringedCubic a | .arc _ _ _ _ _ _ a => a
  | _ => false

/-- The path with the part of index `i` replaced. -/
def Path.setPart (path : Path K) (i : Nat) (part : Part K) : Path K := { path with parts := path.parts.set i part }

/-- The body of the first loop of `apply_transformation` (Path.py:960-973): the outcome and the path afterwards. -/
def Path.absoluteStep (path : Path K) (i : Nat) : Except PyErr Unit × Path K :=
  match path.parts[i]? with
  | none => (.ok (), path)
  | some part =>
    match path.toPathSegment i part with
    | .error e => (.error e, path)
    | .ok part =>
      let path := path.setPart i part
      if part.absolute then (.ok (), path)
      else
        match path.toAbsolute i part with
        | .error e => (.error e, path)
        | .ok part => (.ok (), path.setPart i part)

/-- A transformation as seen by a path: `T * vector` and `T * number`. -/
structure Transf (K : Type _) where
  point : Vec K → Vec K
  number : K → Except PyErr K

/-- `part.apply_transformation(transformation)` (Path.py:162-164, 192-195, 213-216, 441-444, 459-462): the outcome and the part
afterwards. The points of a stringed curve do not exist. -/
def Part.transform (t : Transf K) : Part K → Except PyErr Unit × Part K
  | .line point absolute radius closing startBulge =>
    match radius with
    | none => (.ok (), .line (t.point point) absolute none closing startBulge)
    | some r =>
      match t.number r with
      | .ok r => (.ok (), .line (t.point point) absolute (some r) closing startBulge)
      | .error e => (.error e, .line (t.point point) absolute radius closing startBulge)
  | .quad p1 p2 absolute => (.ok (), .quad (t.point p1) (t.point p2) absolute)
  | .cubic p1 p2 p3 absolute => (.ok (), .cubic (t.point p1) (t.point p2) (t.point p3) absolute)
  | .arc point rx ry angle largeArc sweep absolute => (.ok (), .arc (t.point point) rx ry angle largeArc sweep absolute)
  | .stringedCubic absolute => (.error .attributeError, .stringedCubic absolute)
  | part => (.error .notImplementedError, part)

/-- The body of the second loop of `apply_transformation` (Path.py:977-979). -/
def Path.transformStep (t : Transf K) (path : Path K) (i : Nat) : Except PyErr Unit × Path K :=
  match path.parts[i]? with
  | none => (.ok (), path)
  | some part =>
    let (r, part) := part.transform t
    (r, path.setPart i part)

/-- A loop over the indices of the parts, which stops at the first exception. -/
def loop (step : Path K → Nat → Except PyErr Unit × Path K) : List Nat → Path K → Except PyErr Unit × Path K
  | [], path => (.ok (), path)
  | i :: is, path =>
    match step path i with
    | (.ok (), path) => loop step is path
    | (.error e, path) => (.error e, path)

/-- `apply_transformation(transformation)` (Path.py:956-979). -/
def Path.applyTransformation (path : Path K) (t : Transf K) : Except PyErr Unit × Path K :=
  let is := List.range path.parts.length
  match loop Path.absoluteStep is path with
  | (.error e, path) => (.error e, path)
  | (.ok (), path) => loop (Path.transformStep t) is { path with p0 := t.point path.p0 }

/-- `T * vector` and `T * number` of a `Transformation2D` (Transformation.py:181-199). -/
def ofLin (t : Transformation.Lin K) : Transf K := ⟨t.apply, Transformation.scalarMul t.type (t.m 0 0)⟩

/-- The same for an `AffineTransformation2D` (Transformation.py:411-421). -/
def ofAff (t : Transformation.Aff K) : Transf K := ⟨t.apply, Transformation.scalarMul t.type (t.m 0 0)⟩

/-! ## Cloning -/

/-- `part.clone(path)` (Path.py:420-431, 513-514, 551-552, 589-590, 682-683, 726-727, 796-797, 829-838), with the check of the radius by
the constructor. `PathSegment.clone` uses `obj` before it is assigned; the clone of the cubic curves uses an undefined name. -/
def Part.clone (path : Path K) (part : Part K) : Except PyErr (Part K) :=
  let make (part : Part K) : Except PyErr (Part K) :=
    if part.radius.isSome ∧ ¬ (path.parts.getLast?.map Part.isLinear = some true) then .error .valueError else .ok part
  match part with
  | .line .. => .error .unboundLocalError
  | .absH x radius _ => make (.absH x (setRadius radius) false)
  | .absV y radius _ => make (.absV y (setRadius radius) false)
  | .dir u length radius _ => make (.dir u length (setRadius radius) false)
  | .quad p1 p2 absolute => .ok (.quad p1 p2 absolute)
  | .cubic .. => .error .nameError
  | .stringedCubic _ => .error .attributeError
  | .arc point rx ry angle largeArc sweep absolute => .ok (.arc point rx ry angle largeArc sweep absolute)

/-- `clone()` (Path.py:894-903). The clone of the part of index `i` has the index `i`, and its previous part is the last clone. -/
def Path.clone (path : Path K) : Except PyErr (Path K) :=
  path.parts.foldlM (fun obj part => do return { obj with parts := obj.parts ++ [← part.clone obj] }) (Path.new path.p0)

/-- `rounded_rectangle(point, width, height, radius)` (Path.py:1101-1110). -/
def roundedRectangle (point : Vec K) (width height : K) (radius : Option K := none) : Outcome K :=
  match (Path.new point).horizontalTo width with
  | (.error e, path) => (.error e, path)
  | (.ok _, path) =>
    match path.verticalTo height radius with
    | (.error e, path) => (.error e, path)
    | (.ok _, path) =>
      match path.horizontalTo (-width) radius with
      | (.error e, path) => (.error e, path)
      | (.ok _, path) => path.close radius radius

end Patro.Path
