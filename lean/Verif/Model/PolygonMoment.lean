import Verif.Model.Polygon
import Verif.Model.Vector
import Mathlib.Analysis.SpecialFunctions.Trigonometric.Arctan
import Mathlib.Analysis.SpecialFunctions.Sqrt
/-!
# Model of `recenter` and of the axes of inertia of `Polygon2D` in `Patro/GeometryEngine/Polygon.py`

The angles are real numbers, in degrees. Rounding is not modelled.
-/

namespace Patro

namespace Polygon

/-! ## `recenter` -/

section Recenter

variable {K : Type _} [Field K] [LinearOrder K]

/-- A polygon and whether its attribute `_barycenter` is the object of its first point: it is so after the assignment
`self._barycenter = self.start_point` (Polygon.py:262-263) and until the points are replaced. -/
structure Body (K : Type _) where
  polygon : Polygon K
  shared : Bool := false
deriving DecidableEq

/-- Reading `barycenter` (Polygon.py:397-401, 363-365, 258-275): the assignment shares the first point when the area is
computed and is null. -/
def Body.readBarycenter (b : Body K) : Except PyErr (Vec K) × Body K :=
  let (r, p) := b.polygon.getBarycenter
  (r, ⟨p, b.shared || (b.polygon.area.isNone && decide (p.area = some 0))⟩)

/-- `point -= barycenter` for the points after the first one, and the barycentre (Polygon.py:410-412,
Patro/GeometryEngine/Vector.py:199-202). -/
def shiftAll (points : List (Vec K)) (barycenter : Vec K) : List (Vec K) := points.map (· - barycenter)

/-- `recenter()` (Polygon.py:405-411): `AttributeError` when the barycentre has not been computed. The points are changed in
place; when the barycentre is the first one, it is null after the first turn of the loop. The caches are kept. -/
def Body.recenter (b : Body K) : Except PyErr Unit × Body K :=
  match b.polygon.barycenter with
  | none => (.error .attributeError, b)
  | some g =>
    if b.shared then
      match b.polygon.points with
      | [] => (.ok (), b)
      | p :: ps => (.ok (), { b with polygon := { b.polygon with points := (p - g) :: shiftAll ps (p - g), barycenter := some (p - g) } })
    else (.ok (), { b with polygon := { b.polygon with points := shiftAll b.polygon.points g } })

/-- `apply_transformation` (Patro/GeometryEngine/Primitive.py:276-284, 652-654): the points are new objects. -/
def Body.transform (b : Body K) (f : Vec K → Vec K) : Body K := ⟨b.polygon.transform f, false⟩

end Recenter

/-! ## Axes of inertia -/

noncomputable section

/-- The attributes set by `_compute_inertia_moment` (Polygon.py:315-359). -/
@[ext] structure Axes where
  angle : ℝ
  major : ℝ
  minor : ℝ
  ratio : ℝ

/-- `Ix`, `Iy` and `Ixy` (Polygon.py:296-299). -/
def momentIx (points : List (Vec ℝ)) : ℝ := (points.map fun p => p.y ^ 2).sum / points.length
@[inherit_doc momentIx] def momentIy (points : List (Vec ℝ)) : ℝ := (points.map fun p => p.x ^ 2).sum / points.length
@[inherit_doc momentIx] def momentIxy (points : List (Vec ℝ)) : ℝ := -(points.map fun p => p.x * p.y).sum / points.length

/-- `_compute_inertia_moment()` (Polygon.py:279-359): the angle, `lambda1` and `lambda2`. -/
def principal (points : List (Vec ℝ)) : ℝ × ℝ × ℝ :=
  let Ix := momentIx points
  let Iy := momentIy points
  let Ixy := momentIxy points
  if Ixy = 0 then
    if Iy ≥ Ix then (0, Iy, Ix) else (90, Ix, Iy)
  else
    let Is := Iy + Ix
    let Id := Ix - Iy
    let sqrt0 := √(Id * Id + 4 * Ixy * Ixy)
    let lambda1 := (Is + sqrt0) / 2
    let lambda2 := (Is - sqrt0) / 2
    let vx := Ixy
    let v1y := (Id + sqrt0) / 2
    let v2y := (Id - sqrt0) / 2
    let (v1y, lambda1, lambda2) := if lambda1 < lambda2 then (v2y, lambda2, lambda1) else (v1y, lambda1, lambda2)
    (-(Real.arctan (v1y / vx) * (180 / Real.pi)), lambda1, lambda2)

/-- The end of `_compute_inertia_moment()` (Polygon.py:353-359). -/
def computeAxes (points : List (Vec ℝ)) : Axes :=
  let (angle, lambda1, lambda2) := principal points
  let major := 4 * √|lambda1|
  let minor := 4 * √|lambda2|
  ⟨angle, major, minor, if minor ≠ 0 then major / minor else 0⟩

/-- A polygon and the attributes of its axes, `none` while `_major_axis` is `None` (Polygon.py:110-113). -/
structure Inertia where
  polygon : Polygon ℝ
  axes : Option Axes := none

/-- `_check_moment()` (Polygon.py:416-418). -/
def Inertia.check (s : Inertia) : Except PyErr Unit × Inertia :=
  match s.polygon.getIsSimple with
  | (.error e, p) => (.error e, { s with polygon := p })
  | (.ok simple, p) =>
    if simple = true ∧ s.axes.isNone then (.ok (), ⟨p, some (computeAxes p.points)⟩) else (.ok (), { s with polygon := p })

/-- `major_axis` (Polygon.py:427-430): `None` when it has not been computed. -/
def Inertia.major (s : Inertia) : Except PyErr (Option ℝ) × Inertia :=
  match s.check with
  | (.error e, s) => (.error e, s)
  | (.ok (), s) => (.ok (s.axes.map Axes.major), s)

/-- The properties `major_axis_angle`, `minor_axis` and `axis_ratio` (Polygon.py:422-425, 432-440): `AttributeError` when
they have not been computed. -/
def Inertia.read (attr : Axes → ℝ) (s : Inertia) : Except PyErr ℝ × Inertia :=
  match s.check with
  | (.error e, s) => (.error e, s)
  | (.ok (), s) =>
    match s.axes with
    | some a => (.ok (attr a), s)
    | none => (.error .attributeError, s)

/-- `apply_transformation` (Patro/GeometryEngine/Primitive.py:276-284): the caches are kept. -/
def Inertia.transform (s : Inertia) (f : Vec ℝ → Vec ℝ) : Inertia := { s with polygon := s.polygon.transform f }

end

end Polygon

end Patro
