import Verif.Model.Path
import Verif.Model.Conic
/-!
# Model of the rounded corners of `Patro/GeometryEngine/Path.py`

The corner between two linear parts: `d1` is the direction of the previous part, `d2` the one of the part, `corner` its start point.
The values are real numbers. A division of a vector by zero gives infinities or nan in numpy and raises nothing: the values of the model
are meaningless in this case, which is the one of parallel directions.
-/

namespace Patro.Path

open MathFunctions (sign)

noncomputable section

/-- `normalise()` (Vector.py:565-568) of a vector which is not null. -/
def normalise (v : Vec ℝ) : Vec ℝ := v.sdiv v.magnitude

/-- `direction` (Path.py:318-322), computed. -/
def direction (start stop : Vec ℝ) : Vec ℝ := normalise (stop - start)

/-- `bissector` (Path.py:324-332), computed. -/
def bissector (d1 d2 : Vec ℝ) : Vec ℝ := normalise (d2 - d1)

/-- `bulge_angle_rad` (Path.py:336-346), computed. -/
def bulgeAngleRad (d1 d2 : Vec ℝ) : Except PyErr ℝ := do
  let angle ← d2.angleWith d1
  return Vec.radians (if angle ≥ 0 then 180 - angle else -(180 + angle))

/-- `half_bulge_angle` (Path.py:352-354). -/
def halfBulgeAngle (d1 d2 : Vec ℝ) : Except PyErr ℝ := do return (← bulgeAngleRad d1 d2) / 2

/-- `bulge_center` (Path.py:358-364), computed. -/
def bulgeCenter (corner d1 d2 : Vec ℝ) (radius : ℝ) : Except PyErr (Vec ℝ) := do
  let half ← halfBulgeAngle d1 d2
  return corner + ((bissector d1 d2).smul radius).sdiv (Real.sin |half|)

/-- `bulge_start_point` (Path.py:368-375), computed. -/
def bulgeStart (corner d1 d2 : Vec ℝ) (radius : ℝ) : Except PyErr (Vec ℝ) := do
  let angle ← halfBulgeAngle d1 d2
  return corner - ((d1.smul radius).sdiv (Real.tan angle)).smul (sign angle)

/-- `bulge_stop_point` (Path.py:377-383), computed. -/
def bulgeStop (corner d1 d2 : Vec ℝ) (radius : ℝ) : Except PyErr (Vec ℝ) := do
  let angle ← halfBulgeAngle d1 d2
  return corner + ((d2.smul radius).sdiv (Real.tan angle)).smul (sign angle)

open Classical in
/-- `bulge_geometry` (Path.py:387-397). -/
def bulgeGeometry (corner d1 d2 : Vec ℝ) (radius : ℝ) : Except PyErr (Conic.Circle ℝ) := do
  let arc : Conic.Circle ℝ := ⟨← bulgeCenter corner d1 d2 radius, radius, none⟩
  let startAngle := arc.angleForPoint (← bulgeStart corner d1 d2 radius)
  let stopAngle := arc.angleForPoint (← bulgeStop corner d1 d2 radius)
  let angle := Vec.degrees (← bulgeAngleRad d1 d2)
  return { arc with domain := some (if angle < 0 then ⟨stopAngle, startAngle⟩ else ⟨startAngle, stopAngle⟩) }

/-! ## The cache of the directions -/

/-- A path and the attributes `_direction` of its linear parts (Path.py:239). -/
structure Cached where
  path : Path ℝ
  direction : Nat → Option (Vec ℝ)

/-- `direction` of the part of index `i` (Path.py:318-322). -/
def Cached.getDirection (c : Cached) (i : Nat) : Except PyErr (Vec ℝ) × Cached :=
  match c.direction i with
  | some d => (.ok d, c)
  | none =>
    match (do return Path.direction (← c.path.startPoint i) (← c.path.stopPoint i)) with
    | .ok d => (.ok d, { c with direction := fun j => if j = i then some d else c.direction j })
    | .error e => (.error e, c)

/-- `apply_transformation` (Path.py:956-979) on the path and the caches: `_reset_cache` does not reset `_direction`; the parts which are
cast are new objects. -/
def Cached.applyTransformation (c : Cached) (t : Transf ℝ) : Except PyErr Unit × Cached :=
  let (r, path) := c.path.applyTransformation t
  (r, ⟨path, fun i =>
    match c.path.parts[i]? with
    | some (.line ..) => c.direction i
    | _ => none⟩)

end

end Patro.Path
