import Verif.Model.Conic
/-!
# Model of `Patro/FileFormat/Dxf/Polyline.py`

Points have real coordinates. A division by a null length gives nan coordinates in numpy: an item with such coordinates is `none`.
-/

namespace Patro.Dxf

open Conic MathFunctions

/-- `PolylineVertex` (Polyline.py:59-64): the index in the polyline is the position in the list. -/
structure Vertex where
  point : Vec ℝ
  bulge : ℝ

/-- `Polyline` (Polyline.py:159-161). -/
structure Polyline where
  vertices : List Vertex := []
  closed : Bool := false

/-- `add(point, bulge)` (Polyline.py:185-187). -/
def Polyline.add (p : Polyline) (point : Vec ℝ) (bulge : ℝ := 0) : Polyline :=
  { p with vertices := p.vertices ++ [⟨point, bulge⟩] }

/-- `next` of the vertex of index `i` (Polyline.py:94-101): `is_last_index` (180-181) and `__getitem__` (177-178). The outer `none` is
`IndexError`, which is not met for an index of the polyline; the inner one is `None`. -/
def Polyline.next (p : Polyline) (i : Nat) : Except PyErr (Option Vertex) :=
  if i = p.vertices.length - 1 then
    if p.closed then (Py.getItem p.vertices 0).map some else .ok none
  else (Py.getItem p.vertices (i + 1)).map some

/-- `iter_on_segment()` (Polyline.py:196-200), with the index of the first vertex. -/
def Polyline.iterOnSegment (p : Polyline) : Except PyErr (List (Nat × Vertex × Vertex)) := do
  let l ← (List.range (p.vertices.length - 1)).mapM fun i => do
    let a ← Py.getItem p.vertices i
    let b ← Py.getItem p.vertices (i + 1)
    return (i, a, b)
  if p.closed then do
    let a ← Py.getItemInt p.vertices (-1)
    let b ← Py.getItem p.vertices 0
    return l ++ [(p.vertices.length - 1, a, b)]
  else return l

noncomputable section

open Classical

/-- `segment_vector` (Polyline.py:110-112), `next` being the next vertex. -/
def segmentVector (v next : Vertex) : Vec ℝ := next.point - v.point

/-- `demi_chord` (Polyline.py:116-118). -/
def demiChord (v next : Vertex) : ℝ := (segmentVector v next).magnitude / 2

/-- `sagitta` (Polyline.py:122-124). -/
def sagitta (v next : Vertex) : ℝ := v.bulge * demiChord v next

/-- `bulge_radius` (Polyline.py:128-133). -/
def bulgeRadius (v next : Vertex) : ℝ := if v.bulge = 0 then 0 else demiChord v next / 2 * (v.bulge + 1 / v.bulge)

/-- `sagitta_dual` (Polyline.py:137-142). -/
def sagittaDual (v next : Vertex) : ℝ := if v.bulge = 0 then 0 else demiChord v next / 2 * (1 / v.bulge - v.bulge)

/-- `angle` (Polyline.py:146-151): `demi_chord` is a Python float. -/
def angle (v next : Vertex) : Except PyErr ℝ :=
  if v.bulge = 0 then .ok 0
  else if demiChord v next = 0 then .error .zeroDivisionError
  else .ok (Vec.degrees (2 * Real.arctan (bulgeRadius v next / demiChord v next - v.bulge)))

/-- An item of the geometry: a segment or an arc. -/
inductive Item where
  | segment (s : Segment ℝ)
  | arc (c : Circle ℝ)

/-- One turn of the loop of `geometry()` (Polyline.py:207-229) for the pair of vertices `v1`, `v2`, with `v1.next` the next vertex of the
first one. Angles from `angle_for_point` are positive, but the code adds 360 if they are not. -/
def item (v1 v2 next : Vertex) : Option Item :=
  let segment : Segment ℝ := ⟨v1.point, v2.point⟩
  if v1.bulge ≠ 0 then
    match (segmentVector v1 next).toNormalised with
    | none => none
    | some direction =>
      let center := segment.center + (direction.normal.smul (sign v1.bulge)).smul (sagittaDual v1 next)
      let arc : Circle ℝ := ⟨center, bulgeRadius v1 next, none⟩
      let start := arc.angleForPoint v1.point
      let stop := arc.angleForPoint v2.point
      let start := if start < 0 then start + 360 else start
      let stop := if stop < 0 then stop + 360 else stop
      let domain : Domain ℝ := if v1.bulge < 0 then ⟨stop, start⟩ else ⟨start, stop⟩
      some (.arc { arc with domain := some domain })
  else some (.segment segment)

/-- `geometry()` (Polyline.py:204-230). The properties of a vertex without a next one raise `AttributeError`. -/
def Polyline.geometry (p : Polyline) : Except PyErr (List (Option Item)) := do
  let l ← p.iterOnSegment
  l.mapM fun (i, v1, v2) =>
    if v1.bulge = 0 then .ok (item v1 v2 v2)
    else do
      match ← p.next i with
      | none => .error .attributeError
      | some next => return item v1 v2 next

end

end Patro.Dxf
