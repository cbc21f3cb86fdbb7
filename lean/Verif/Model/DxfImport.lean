import Verif.Model.Dxf
import Verif.Model.Ellipse
import Verif.Model.Spline
import Mathlib.Data.Real.Archimedean
/-!
# Model of `Patro/FileFormat/Dxf/Importer.py`

`ezdxf` reads the file: the entities of the model space, with their attributes, are the input. The attributes the importer does not read
are in the model when DXF gives them a meaning for the shape: `mirrored` says that the extrusion of the entity is (0, 0, -1) and not
(0, 0, 1); `knots`, `weights` and `fitPoints` are those of a spline. Numbers are real numbers.
-/

namespace Patro.DxfImport

open Conic Dxf
open Spline (BSpline)

/-- A point of a file: three coordinates. -/
abbrev P3 := ℝ × ℝ × ℝ

/-- An entity of the model space. The points of a light-weight polyline are (x, y, start width, end width, bulge), as
`LWPolyline.get_points` gives them. `other` is any other type of entity. -/
inductive Entity where
  | line (start stop : P3)
  | circle (mirrored : Bool) (center : P3) (radius : ℝ)
  | arc (mirrored : Bool) (center : P3) (radius startAngle endAngle : ℝ)
  | ellipse (mirrored : Bool) (center majorAxis : P3) (ratio startParam endParam : ℝ)
  | lwpolyline (mirrored closed : Bool) (points : List (ℝ × ℝ × ℝ × ℝ × ℝ))
  | spline (controlPoints : List P3) (degree : Nat) (closed : Bool) (knots weights : List ℝ) (fitPoints : List P3)
  | other (dxftype : String)

/-- An item of the importer: a geometric object, or, for a polyline, the list of its geometric objects (`none` has nan coordinates, see
`Model/Dxf.lean`). -/
inductive Item where
  | segment (s : Segment ℝ)
  | circle (c : Circle ℝ)
  | ellipse (e : Ellipse)
  | polyline (l : List (Option Dxf.Item))
  | spline (s : BSpline ℝ)

/-- `_to_vector(point)` (Importer.py:70-72): `point[:2]`. -/
def toVector (p : P3) : Vec ℝ := ⟨p.1, p.2.1⟩

/-- `_to_vectors(points)` (Importer.py:74-76). -/
def toVectors (l : List P3) : List (Vec ℝ) := l.map toVector

noncomputable section

open Classical

/-- `_on_line` (Importer.py:103-106). -/
def onLine (start stop : P3) : Item := .segment ⟨toVector start, toVector stop⟩

/-- `_on_circle` (Importer.py:111-120): `angles` is `none` for a circle, the start and end angles for an arc. -/
def onCircleOrArc (center : P3) (radius : ℝ) (angles : Option (ℝ × ℝ)) : Except PyErr Item :=
  let domain : Option (Domain ℝ) := match angles with
    | some (start, stop) => some ⟨start, stop⟩
    | none => none
  (Circle.new (toVector center) radius domain).map .circle

/-- `_on_ellipse` (Importer.py:124-143). `AngularDomain(…, degrees=False)` converts the bounds to degrees (Mixin.py:49-56). -/
def onEllipse (center majorAxis : P3) (ratio startParam endParam : ℝ) : Item :=
  let center := toVector center
  let majorAxis := toVector majorAxis
  let minorAxis := majorAxis.smul ratio
  let domain : Domain ℝ := ⟨Vec.degrees startParam, Vec.degrees endParam⟩
  let rx := majorAxis.magnitude
  let ry := minorAxis.magnitude
  let angle := majorAxis.orientation
  if angle = 90 then .ellipse (Ellipse.new center ry rx 0 (some domain))
  else .ellipse (Ellipse.new center rx ry angle (some domain))

/-- `_on_polyline` (Importer.py:147-153). The list of the items is one item. -/
def onPolyline (closed : Bool) (points : List (ℝ × ℝ × ℝ × ℝ × ℝ)) : Except PyErr Item :=
  let polyline := points.foldl (fun (p : Dxf.Polyline) (x, y, _, _, b) => p.add ⟨x, y⟩ b) ⟨[], closed⟩
  polyline.geometry.map .polyline

/-- `_on_spline` (Importer.py:157-163): the knots are not passed. -/
def onSpline (controlPoints : List P3) (degree : Nat) (closed : Bool) : Except PyErr Item :=
  (BSpline.new (toVectors controlPoints) degree closed).map .spline

/-- One turn of the loop of `_read` (Importer.py:87-98): the item which is added, if any. -/
def onEntity : Entity → Except PyErr (Option Item)
  | .line start stop => .ok (some (onLine start stop))
  | .circle _ center radius => (onCircleOrArc center radius none).map some
  | .arc _ center radius startAngle endAngle => (onCircleOrArc center radius (some (startAngle, endAngle))).map some
  | .ellipse _ center majorAxis ratio startParam endParam => .ok (some (onEllipse center majorAxis ratio startParam endParam))
  | .lwpolyline _ closed points => (onPolyline closed points).map some
  | .spline controlPoints degree closed _ _ _ => (onSpline controlPoints degree closed).map some
  | .other _ => .ok none

/-- The loop of `_read` (Importer.py:87-98), with `_add` (Importer.py:80-81): the items so far, and the entities that are left. -/
def readLoop (items : List Item) : List Entity → Except PyErr (List Item)
  | [] => .ok items
  | e :: rest =>
    match onEntity e with
    | .error err => .error err
    | .ok none => readLoop items rest
    | .ok (some item) => readLoop (items ++ [item]) rest

/-- `DxfImporter(path)` (Importer.py:49-55): the list of the items, which `__len__`, `__iter__` and `__getitem__` (Importer.py:59-66) give
access to. -/
def new (modelSpace : List Entity) : Except PyErr (List Item) := readLoop [] modelSpace

end

end Patro.DxfImport
