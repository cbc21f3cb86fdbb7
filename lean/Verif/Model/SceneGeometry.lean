import Verif.Model.PathBulge
import Verif.Model.Ellipse
import Verif.Model.Spline
/-!
# Model of the geometric objects added to a scene: `add_geometry`, `add_spline`, `add_path` of
`Patro/GraphicEngine/GraphicScene/Scene.py`, the items of `GraphicItem.py`, and the points of the parts of `Patro/GeometryEngine/Path.py`

The scene keeps the items (`Model/Scene.lean`); here is what items are made, with which positions and numbers. The style is kept as it is
and not modelled. The directions of the parts of a path are computed: they were not asked before (see `Model/PathBulge.lean` for the
cache). Coordinates are real numbers.
-/

namespace Patro.SceneGeometry

open Conic

/-- The objects given to `add_geometry`, by class. A triangle, a polygon and a polyline are given by their points. -/
inductive Geometry where
  | quadratic (c : Bezier.Quad ℝ)
  | cubic (c : Bezier.Cubic ℝ)
  | circle (c : Circle ℝ)
  | ellipse (e : Ellipse)
  | line
  | path (p : Path.Path ℝ)
  | polygon (points : List (Vec ℝ))
  | polyline (points : List (Vec ℝ))
  | rectangle (r : Rectangle ℝ)
  | segment (s : Segment ℝ)
  | spline (s : Spline.BSpline ℝ)
  | triangle (t : Triangle ℝ)
  /-- An object of another class. -/
  | other

/-- The segments of a `PathItem` (GraphicItem.py:441-462, 466-476). -/
inductive PathSegment where
  | linear (p : Vec ℝ)
  | quadratic (p1 p2 : Vec ℝ)
  | cubic (p1 p2 p3 : Vec ℝ)

/-- The items (GraphicItem.py:76-465) with their positions and numbers. -/
inductive Item where
  | quadratic (p0 p1 p2 : Vec ℝ)
  | cubic (p0 p1 p2 p3 : Vec ℝ)
  | circle (center : Vec ℝ) (radius start stop : ℝ)
  | ellipse (center : Vec ℝ) (radiusX radiusY angle start stop : ℝ)
  | polygon (points : List (Vec ℝ))
  | polyline (points : List (Vec ℝ))
  | rectangle (p0 p1 : Vec ℝ)
  | segment (p0 p1 : Vec ℝ)
  | path (p0 : Vec ℝ) (segments : List PathSegment) (closed : Bool)

/-! ## The parts of a path -/

noncomputable section

open Classical

/-- The index of `next_part` (Path.py:277-282, 913-928): only a `PathSegment` can have `_closing` set. -/
def nextIndex (path : Path.Path ℝ) (i : Nat) : Option Nat :=
  match path.parts[i]? with
  | some (.line _ _ _ true _) => some 0
  | _ => if i + 1 < path.parts.length then some (i + 1) else none

/-- `direction` of the linear part of index `i` (Path.py:318-322), computed. -/
def partDirection (path : Path.Path ℝ) (i : Nat) : Except PyErr (Vec ℝ) := do
  let stop ← path.stopPoint i
  let start ← path.startPoint i
  return Path.direction start stop

/-- `prev_part.direction`: a missing part, or one which is not linear, has no direction. -/
def prevDirection (path : Path.Path ℝ) (i : Nat) : Except PyErr (Vec ℝ) :=
  match path.prevIndex i with
  | none => .error .attributeError
  | some j => if (path.parts[j]?.map Path.Part.isLinear) = some true then partDirection path j else .error .attributeError

/-- `bulge_start_point`, `bulge_stop_point`, `bulge_geometry` of the linear part of index `i` with a radius (Path.py:368-397). -/
def partBulgeStart (path : Path.Path ℝ) (i : Nat) (radius : ℝ) : Except PyErr (Vec ℝ) := do
  Path.bulgeStart (← path.startPoint i) (← prevDirection path i) (← partDirection path i) radius
@[inherit_doc partBulgeStart] def partBulgeStop (path : Path.Path ℝ) (i : Nat) (radius : ℝ) : Except PyErr (Vec ℝ) := do
  Path.bulgeStop (← path.startPoint i) (← prevDirection path i) (← partDirection path i) radius
@[inherit_doc partBulgeStart] def partBulge (path : Path.Path ℝ) (i : Nat) (radius : ℝ) : Except PyErr (Circle ℝ) := do
  Path.bulgeGeometry (← path.startPoint i) (← prevDirection path i) (← partDirection path i) radius

/-- The first point of `points` of a linear part (Path.py:289-292), with `part` the part of index `i`. -/
def linearStart (path : Path.Path ℝ) (i : Nat) (part : Path.Part ℝ) : Except PyErr (Vec ℝ) :=
  match part.radius with
  | some r => partBulgeStop path i r
  | none => path.startPoint i

/-- The last point of `points` of a linear part (Path.py:294-298). -/
def linearStop (path : Path.Path ℝ) (i : Nat) : Except PyErr (Vec ℝ) :=
  match nextIndex path i with
  | none => path.stopPoint i
  | some j =>
    match path.parts[j]? with
    | none => path.stopPoint i
    | some next =>
      match next.radius with
      | some r => partBulgeStart path j r
      | none => path.stopPoint i

/-- `points` of a linear part (Path.py:286-300), with `part` the part of index `i`. -/
def linearPoints (path : Path.Path ℝ) (i : Nat) (part : Path.Part ℝ) : Except PyErr (Vec ℝ × Vec ℝ) := do
  let start ← linearStart path i part
  let stop ← linearStop path i
  return (start, stop)

/-! ## Adding objects to a scene -/

/-- `add_as_path_segments` (Scene.py:429-510) for the part of index `i`: the items it adds, and what it raises. For an arc with a null
radius the geometry is a segment, without `radius_x`. -/
def addPart (path : Path.Path ℝ) (i : Nat) (part : Path.Part ℝ) : List Item × Except PyErr Unit :=
  if part.isLinear then
    let segment (before : List Item) : List Item × Except PyErr Unit :=
      match linearPoints path i part with
      | .ok (p, q) => (before ++ [.segment p q], .ok ())
      | .error e => (before, .error e)
    match part.radius with
    | none => segment []
    | some r =>
      match partBulge path i r with
      | .error e => ([], .error e)
      | .ok arc =>
        match arc.domain with
        | none => ([], .error .attributeError)
        | some d => segment [.circle arc.center arc.radius d.start d.stop]
  else
    match part with
    | .quad .. =>
      match path.points i with
      | .ok [p0, p1, p2] => ([.quadratic p0 p1 p2], .ok ())
      | .ok _ => ([], .error .typeError)
      | .error e => ([], .error e)
    | .cubic .. =>
      match path.points i with
      | .ok [p0, p1, p2, p3] => ([.cubic p0 p1 p2 p3], .ok ())
      | .ok _ => ([], .error .typeError)
      | .error e => ([], .error e)
    | .arc _ rx ry angle large sweep _ =>
      match (do Ellipse.svgArc (← path.startPoint i) (← path.stopPoint i) rx ry angle large sweep) with
      | .error e => ([], .error e)
      | .ok (.segment _) => ([], .error .attributeError)
      | .ok (.ellipse e) =>
        match e.domain with
        | none => ([], .error .attributeError)
        | some d => ([.ellipse e.center e.radiusX e.radiusY e.angle d.start d.stop], .ok ())
    | _ => ([], .ok ())

/-- The loop of `add_as_path_segments` (Scene.py:489-510) on the remaining parts, from the index `i`. -/
def addParts (path : Path.Path ℝ) : Nat → List (Path.Part ℝ) → List Item × Except PyErr Unit
  | _, [] => ([], .ok ())
  | i, part :: rest =>
    match addPart path i part with
    | (items, .error e) => (items, .error e)
    | (items, .ok ()) => (items ++ (addParts path (i + 1) rest).1, (addParts path (i + 1) rest).2)

/-- `add_as_path_segments(path)` (Scene.py:429-510), and `add_path(path)` (Scene.py:378-388): the items added, and what it raises; it
returns `None`. -/
def addAsPathSegments (path : Path.Path ℝ) : List Item × Except PyErr Unit := addParts path 0 path.parts

/-- The loop of `add_as_path` (Scene.py:406-420): the segments of the path item. -/
def pathSegments (path : Path.Path ℝ) : Nat → List (Path.Part ℝ) → List PathSegment × Except PyErr Unit
  | _, [] => ([], .ok ())
  | i, part :: rest =>
    let segment : Except PyErr (List PathSegment) :=
      if part.isLinear then do return [.linear (← path.stopPoint i)]
      else match part with
        | .quad p1 p2 absolute => do return [.quadratic (← path.toAbsolutePoint i absolute p1) (← path.toAbsolutePoint i absolute p2)]
        | .cubic p1 p2 p3 absolute => do
          return [.cubic (← path.toAbsolutePoint i absolute p1) (← path.toAbsolutePoint i absolute p2)
            (← path.toAbsolutePoint i absolute p3)]
        | _ => .ok []
    match segment with
    | .error e => ([], .error e)
    | .ok l => (l ++ (pathSegments path (i + 1) rest).1, (pathSegments path (i + 1) rest).2)

/-- `add_as_path(path)` (Scene.py:392-425): the path item, which is in the scene whatever is raised. The syntax error of the line 403 is
ignored. -/
def addAsPath (path : Path.Path ℝ) : Item × Except PyErr Unit :=
  let (segments, r) := pathSegments path 0 path.parts
  (.path path.p0 segments (match r with | .ok () => path.closed | .error _ => false), r)

/-- `add_spline` (Scene.py:370-374): the item for a curve of the spline. `cubic_bezier` with the three points of a quadratic curve misses
an argument. -/
def addCurve : Spline.Curve ℝ → Except PyErr Item
  | .cubic c => .ok (.cubic c.p0 c.p1 c.p2 c.p3)
  | .quad _ => .error .typeError

/-- `add_geometry(item)` (Scene.py:282-359): the items added, and what it raises. -/
def addGeometry : Geometry → List Item × Except PyErr Unit
  | .quadratic c => ([.quadratic c.p0 c.p1 c.p2], .ok ())
  | .cubic c => ([.cubic c.p0 c.p1 c.p2 c.p3], .ok ())
  | .circle c =>
    match c.domain with
    | some d => ([.circle c.center c.radius d.start d.stop], .ok ())
    | none => ([.circle c.center c.radius 0 360], .ok ())
  | .ellipse e => ([.ellipse e.center e.radiusX e.radiusY e.angle 0 360], .ok ())
  | .line => ([], .error .notImplementedError)
  | .path p => addAsPathSegments p
  | .polygon points => ([.polygon points], .ok ())
  | .polyline points => ([.polyline points], .ok ())
  | .rectangle r => ([.rectangle r.p0 r.p1], .ok ())
  | .segment s => ([.segment s.p0 s.p1], .ok ())
  | .spline s =>
    match s.toBezier with
    | .error e => ([], .error e)
    | .ok curves =>
      match curves.mapM addCurve with
      | .error e => ([], .error e)
      | .ok items => (items, .ok ())
  | .triangle t => ([.polygon [t.p0, t.p1, t.p2]], .ok ())
  | .other => ([], .error .notImplementedError)

/-- `get_geometry()` of the items (GraphicItem.py:147-151, 201-203, 223-225, 246-248, 267-269, 277-279, 349-351, 386-388, 435-437), with the transformation of the scene (Scene.py:171-181). -/
def Item.geometry (t : Vec ℝ → Vec ℝ) : Item → Geometry
  | .quadratic p0 p1 p2 => .quadratic ⟨t p0, t p1, t p2⟩
  | .cubic p0 p1 p2 p3 => .cubic ⟨t p0, t p1, t p2, t p3⟩
  | .circle center radius start stop => .circle ⟨t center, radius, some ⟨start, stop⟩⟩
  | .ellipse center rx ry angle _ _ => .ellipse (Ellipse.new (t center) rx ry angle)
  | .polygon points => .polygon (points.map t)
  | .polyline points => .polyline (points.map t)
  | .rectangle p0 p1 => .rectangle ⟨t p0, t p1⟩
  | .segment p0 p1 => .segment ⟨t p0, t p1⟩
  | .path p0 _ _ => .path (Path.Path.new (t p0))

/-- The box of `geometry` of a part: a `PathSegment` gives its points (Path.py:448-451), the other linear parts the points before rounding
(Path.py:466-469), a Bézier curve its control points (Path.py:704-707, 749-752, Primitive.py:249-259), an arc the box of its ellipse
(Path.py:859-867); `_point2` does not exist in a stringed curve (Path.py:801-804). -/
def partBox (path : Path.Path ℝ) (i : Nat) (part : Path.Part ℝ) : Except PyErr (Option (Box ℝ)) := do
  match part with
  | .line .. =>
    let (p, q) ← linearPoints path i part
    return Box.fromPoints [p, q]
  | .quad .. | .cubic .. =>
    let points ← path.points i
    return Box.fromPoints points
  | .stringedCubic .. =>
    let _ ← path.startPoint i
    .error .attributeError
  | .arc _ rx ry angle large sweep _ =>
    let p ← path.startPoint i
    let q ← path.stopPoint i
    match ← Ellipse.svgArc p q rx ry angle large sweep with
    | .segment s => return Box.fromPoints [s.p0, s.p1]
    | .ellipse e => return e.boundingBox.1
  | _ =>
    let p ← path.startPoint i
    let q ← path.stopPoint i
    return Box.fromPoints [p, q]

/-- The loop of `bounding_box` of a path (Path.py:984-995). -/
def pathBoxLoop (path : Path.Path ℝ) : Nat → List (Path.Part ℝ) → Option (Box ℝ) → Except PyErr (Option (Box ℝ))
  | _, [], box => .ok box
  | i, part :: rest, box =>
    match partBox path i part with
    | .error e => .error e
    | .ok none => .error .typeError
    | .ok (some b) => pathBoxLoop path (i + 1) rest (some (match box with | none => b | some box => box.union b))

/-- `bounding_box` of a path (Path.py:984-995): `None` without parts. -/
def pathBox (path : Path.Path ℝ) : Except PyErr (Option (Box ℝ)) := pathBoxLoop path 0 path.parts none

end

end Patro.SceneGeometry
