import Verif.Model.SceneGeometry
/-!
# Model of the parts of a path as mutable objects: the setters of `Patro/GeometryEngine/Path.py` and the values kept by the linear parts

The parts of `Model/Path.lean` with the attributes where a linear part keeps what was computed: `_direction`, `_bissector`,
`_bulge_angle`, `_bulge_center`, `_start_bulge_point`, `_stop_bulge_point`. The last four are made by `_reset_cache`, which is called when
the part is made with a radius, by `close` and by a transformation only: before this they do not exist. Numbers are real numbers, and
what is said of parallel directions in `Model/PathBulge.lean` holds here.
-/

namespace Patro.PathEdit


open MathFunctions (sign)

noncomputable section

/-- The attributes made by `_reset_cache` (Path.py:252-257). -/
structure Bulge where
  angle : Option ℝ
  center : Option (Vec ℝ)
  start : Option (Vec ℝ)
  stop : Option (Vec ℝ)

/-- `_reset_cache()` (Path.py:252-257). -/
def Bulge.reset : Bulge := ⟨none, none, none, none⟩

/-- What a linear part keeps (Path.py:239-240, 252-257). `bulge` is `none` when the attributes do not exist. -/
structure Cache where
  direction : Option (Vec ℝ)
  bissector : Option (Vec ℝ)
  bulge : Option Bulge

/-- The attributes of a new part, in its constructor (Path.py:235-248). -/
def Cache.new (part : Path.Part ℝ) : Cache := ⟨none, none, if part.radius.isSome then some Bulge.reset else none⟩

/-- A path with what its parts keep, by index. -/
structure Obj where
  path : Path.Path ℝ
  cache : Nat → Cache

/-- A path whose parts were just made. -/
def Obj.new (path : Path.Path ℝ) : Obj :=
  ⟨path, fun i => match path.parts[i]? with
    | some part => .new part
    | none => ⟨none, none, none⟩⟩

/-- A reading: a value or an exception, and the path afterwards. -/
def M (α : Type) := Obj → Except PyErr α × Obj

instance : Monad M where
  pure a := fun o => (.ok a, o)
  bind m f := fun o =>
    match m o with
    | (.ok a, o) => f a o
    | (.error e, o) => (.error e, o)

/-- A reading which keeps nothing. -/
def M.lift {α : Type} (f : Path.Path ℝ → Except PyErr α) : M α := fun o => (f o.path, o)

/-- An attribute of a part, kept when it is not `None`, computed and kept otherwise. -/
def M.memo {α : Type} (get : Cache → Option α) (set : α → Cache → Cache) (i : Nat) (compute : M α) : M α := fun o =>
  match get (o.cache i) with
  | some a => (.ok a, o)
  | none =>
    match compute o with
    | (.ok a, o) => (.ok a, { o with cache := fun j => if j = i then set a (o.cache i) else o.cache j })
    | (.error e, o) => (.error e, o)

/-- The same for the attributes of `_reset_cache`, which may not exist. -/
def M.memoBulge {α : Type} (get : Bulge → Option α) (set : α → Bulge → Bulge) (i : Nat) (compute : M α) : M α := fun o =>
  match (o.cache i).bulge with
  | none => (.error .attributeError, o)
  | some _ => M.memo (fun c => c.bulge.bind get) (fun a c => { c with bulge := c.bulge.map (set a) }) i compute o

/-- `_radius` of the part of index `i` (Path.py:304-306). -/
def radiusOf (path : Path.Path ℝ) (i : Nat) : Option ℝ := (path.parts[i]?).bind Path.Part.radius

/-- A vector multiplied by `_radius`: numpy does not multiply by `None`. -/
def timesRadius (v : Vec ℝ) (radius : Option ℝ) : Except PyErr (Vec ℝ) :=
  match radius with
  | some r => .ok (v.smul r)
  | none => .error .typeError

/-- `direction` (Path.py:318-322). -/
def direction (i : Nat) : M (Vec ℝ) :=
  .memo (·.direction) (fun d c => { c with direction := some d }) i do
    let stop ← M.lift (·.stopPoint i)
    let start ← M.lift (·.startPoint i)
    return Path.direction start stop

/-- `prev_part.direction` (Path.py:268-275): a missing part, or one which is not linear, has no direction. -/
def prevDirection (i : Nat) : M (Vec ℝ) := fun o =>
  match o.path.prevIndex i with
  | none => (.error .attributeError, o)
  | some j => if (o.path.parts[j]?.map Path.Part.isLinear) = some true then direction j o else (.error .attributeError, o)

/-- `bissector` of a part with a radius (Path.py:324-332). -/
def bissector (i : Nat) : M (Vec ℝ) :=
  .memo (·.bissector) (fun d c => { c with bissector := some d }) i do
    let d2 ← direction i
    let d1 ← prevDirection i
    return Path.bissector d1 d2

/-- `bulge_angle_rad` (Path.py:336-346). -/
def bulgeAngleRad (i : Nat) : M ℝ :=
  .memoBulge (·.angle) (fun a b => { b with angle := some a }) i do
    let d2 ← direction i
    let d1 ← prevDirection i
    M.lift fun _ => Path.bulgeAngleRad d1 d2

/-- `self.bissector * self._radius` (Path.py:360): without a radius the bissector is `None`, which cannot be multiplied. -/
def bissectorRadius (i : Nat) (radius : Option ℝ) : M (Vec ℝ) :=
  match radius with
  | some r => do return (← bissector i).smul r
  | none => M.lift fun _ => .error .typeError

/-- `bulge_center` (Path.py:358-364). -/
def bulgeCenter (i : Nat) : M (Vec ℝ) :=
  .memoBulge (·.center) (fun a b => { b with center := some a }) i do
    let radius ← M.lift fun path => .ok (radiusOf path i)
    let v ← bissectorRadius i radius
    let angle ← bulgeAngleRad i
    let start ← M.lift (·.startPoint i)
    return start + v.sdiv (Real.sin |angle / 2|)

/-- `bulge_start_point` (Path.py:368-375). -/
def bulgeStart (i : Nat) : M (Vec ℝ) :=
  .memoBulge (·.start) (fun a b => { b with start := some a }) i do
    let angle ← bulgeAngleRad i
    let d1 ← prevDirection i
    let v ← M.lift fun path => timesRadius d1 (radiusOf path i)
    let start ← M.lift (·.startPoint i)
    return start - (v.sdiv (Real.tan (angle / 2))).smul (sign (angle / 2))

/-- `bulge_stop_point` (Path.py:377-383). -/
def bulgeStop (i : Nat) : M (Vec ℝ) :=
  .memoBulge (·.stop) (fun a b => { b with stop := some a }) i do
    let angle ← bulgeAngleRad i
    let d2 ← direction i
    let v ← M.lift fun path => timesRadius d2 (radiusOf path i)
    let start ← M.lift (·.startPoint i)
    return start + (v.sdiv (Real.tan (angle / 2))).smul (sign (angle / 2))

open Classical in
/-- `bulge_geometry` of a part with a radius (Path.py:387-397). -/
def bulgeGeometry (i : Nat) (radius : ℝ) : M (Conic.Circle ℝ) := do
  let center ← bulgeCenter i
  let arc : Conic.Circle ℝ := ⟨center, radius, none⟩
  let startAngle := arc.angleForPoint (← bulgeStart i)
  let stopAngle := arc.angleForPoint (← bulgeStop i)
  let angle := Vec.degrees (← bulgeAngleRad i)
  return { arc with domain := some (if angle < 0 then ⟨stopAngle, startAngle⟩ else ⟨startAngle, stopAngle⟩) }

/-- The part of index `j`, when it is linear with a radius (Path.py:294-296). -/
def rounded (path : Path.Path ℝ) (j : Option Nat) : Option Nat := j.filter fun j => (radiusOf path j).isSome

/-- The first point of `points` (Path.py:289-292). -/
def pointsStart (i : Nat) (radius : Option ℝ) : M (Vec ℝ) :=
  match radius with
  | some _ => bulgeStop i
  | none => M.lift (·.startPoint i)

/-- The last point of `points` (Path.py:294-298). -/
def pointsStop (i : Nat) (next : Option Nat) : M (Vec ℝ) :=
  match next with
  | some j => bulgeStart j
  | none => M.lift (·.stopPoint i)

/-- `points` of the linear part of index `i` (Path.py:286-300). -/
def points (i : Nat) : M (Vec ℝ × Vec ℝ) := do
  let radius ← M.lift fun path => .ok (radiusOf path i)
  let start ← pointsStart i radius
  let next ← M.lift fun path => .ok (rounded path (SceneGeometry.nextIndex path i))
  let stop ← pointsStop i next
  return (start, stop)

/-! ## Setters -/

/-- `part.point = value`, `part.point3 = value` and so on replace attributes of the part and keep its class and everything else
(Path.py:150-152, 176-188, 207-209, 522-524, 560-562, 598-600). -/
def Obj.setPart (o : Obj) (i : Nat) (part : Path.Part ℝ) : Obj := { o with path := o.path.setPart i part }

/-- The part with another radius; the other classes take the attribute and do not use it. -/
def withRadius (r : Option ℝ) : Path.Part ℝ → Path.Part ℝ
  | .line p a _ c b => .line p a r c b
  | .absH x _ b => .absH x r b
  | .absV y _ b => .absV y r b
  | .dir u l _ b => .dir u l r b
  | part => part

/-- `part.radius = value` (Path.py:308-314). -/
def Obj.setRadius (o : Obj) (i : Nat) (radius : Option ℝ) : Obj :=
  match o.path.parts[i]? with
  | some part => o.setPart i (withRadius (Path.setRadius radius) part)
  | none => o

/-- `path.move_to(point)` and `path.p0 = point` (Path.py:999-1000). -/
def Obj.moveTo (o : Obj) (point : Vec ℝ) : Obj := { o with path := o.path.moveTo point }

end

end Patro.PathEdit
