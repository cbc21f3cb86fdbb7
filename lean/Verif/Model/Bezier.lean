import Verif.Model.Line
import Mathlib.Analysis.SpecialFunctions.Pow.Real
import Mathlib.Data.Matrix.Mul
/-!
# Model of `Patro/GeometryEngine/Bezier.py` and of the uniform spans of `Patro/GeometryEngine/Spline.py`

Coordinates are elements of a field, or real numbers when roots are used. Not modelled: the intersection of two curves
(Bezier.py:592-814: calls undefined names) and `_map_to_line` (Bezier.py:176-181: `AffineTransformation.Rotation` does not exist,
so that `intersect_line` always raises).
-/

namespace Patro.Bezier

/-- `QuadraticBezier2D` (Bezier.py:206-234). -/
@[ext] structure Quad (K : Type _) where
  p0 : Vec K
  p1 : Vec K
  p2 : Vec K
deriving DecidableEq

/-- `CubicBezier2D` (Bezier.py:414-440). -/
@[ext] structure Cubic (K : Type _) where
  p0 : Vec K
  p1 : Vec K
  p2 : Vec K
  p3 : Vec K
deriving DecidableEq

section Field

variable {K : Type _} [Field K]

/-- `interpolate_two_points` (Interpolation.py:31-33). -/
def interpolate (p0 p1 : Vec K) (t : K) : Vec K := p0.smul (1 - t) + p1.smul t

/-- `QuadraticBezier2D.point_at_t` (Bezier.py:263-267). -/
def Quad.pointAt (c : Quad K) (t : K) : Vec K :=
  let u := 1 - t
  c.p0.smul (u ^ 2) + ((c.p1.smul 2).smul t).smul u + c.p2.smul (t ^ 2)

/-- `CubicBezier2D.point_at_t` (Bezier.py:462-468). -/
def Cubic.pointAt (c : Cubic K) (t : K) : Vec K :=
  c.p0 + ((c.p1 - c.p0).smul 3).smul t + ((c.p2 - c.p1.smul 2 + c.p0).smul 3).smul (t ^ 2) +
    (c.p3 - c.p2.smul 3 + c.p1.smul 3 - c.p0).smul (t ^ 3)

/-- `QuadraticBezier2D.tangent_at` (Bezier.py:312-314). -/
def Quad.tangentAt (c : Quad K) (t : K) : Vec K :=
  let u := 1 - t
  (c.p1 - c.p0).smul u + (c.p2 - c.p1).smul t

/-- `CubicBezier2D.tangent_at` (Bezier.py:539-541). -/
def Cubic.tangentAt (c : Cubic K) (t : K) : Vec K :=
  let u := 1 - t
  (c.p1 - c.p0).smul (u ^ 2) + ((c.p2 - c.p1).smul 2 |>.smul t).smul u + (c.p3 - c.p2).smul (t ^ 2)

/-- `QuadraticBezier2D.to_cubic` (Bezier.py:397-405). -/
def Quad.toCubic (c : Quad K) : Cubic K :=
  ⟨c.p0, (c.p0 + c.p1.smul 2).sdiv 3, (c.p2 + c.p1.smul 2).sdiv 3, c.p2⟩

/-- `CubicBezier2D.split_at_t` (Bezier.py:487-496). -/
def Cubic.splitAt (c : Cubic K) (t : K) : Cubic K × Cubic K :=
  let p01 := interpolate c.p0 c.p1 t
  let p12 := interpolate c.p1 c.p2 t
  let p23 := interpolate c.p2 c.p3 t
  let p012 := interpolate p01 p12 t
  let p123 := interpolate p12 p23 t
  let p := interpolate p012 p123 t
  (⟨c.p0, p01, p012, p⟩, ⟨p, p123, p23, c.p3⟩)

/-- `_q_point` (Bezier.py:474-476). -/
def Cubic.qPoint (c : Cubic K) : Vec K := (c.p2.smul 3 - c.p3 + c.p1.smul 3 - c.p0).sdiv 4

/-- `mid_point_quadratic_approximation` (Bezier.py:480-483). -/
def Cubic.midQuad (c : Cubic K) : Quad K := ⟨c.p0, c.qPoint, c.p3⟩

/-- `area` (Bezier.py:839-851). -/
def Cubic.area (c : Cubic K) : K :=
  3 * ((c.p3.y - c.p0.y) * (c.p1.x + c.p2.x) - (c.p3.x - c.p0.x) * (c.p1.y + c.p2.y)
    + c.p1.y * (c.p0.x - c.p2.x) - c.p1.x * (c.p0.y - c.p2.y)
    + c.p3.y * (c.p2.x + c.p0.x / 3) - c.p3.x * (c.p2.y + c.p0.y / 3)) / 20

/-- `QuadraticBezier2D.BASIS` (Bezier.py:210-214). -/
def quadBasis : Matrix (Fin 3) (Fin 3) K := !![1, -2, 1; 0, 2, -2; 0, 0, 1]

/-- `QuadraticBezier2D.INVERSE_BASIS` (Bezier.py:216-220). -/
def quadInverseBasis : Matrix (Fin 3) (Fin 3) K := !![-2, 1, -2; -1, -3, 1; -1, -1, -2]

/-- `CubicBezier2D.BASIS` (Bezier.py:420-425). -/
def cubicBasis : Matrix (Fin 4) (Fin 4) K := !![1, -3, 3, -1; 0, 3, -6, 3; 0, 0, 3, -3; 0, 0, 0, 1]

/-- `CubicBezier2D.INVERSE_BASIS` (Bezier.py:427-432). -/
def cubicInverseBasis : Matrix (Fin 4) (Fin 4) K :=
  !![1, 1, 1, 1; 0, 1 / 3, 2 / 3, 1; 0, 0, 1 / 3, 1; 0, 0, 0, 1]

/-- `QuadraticUniformSpline2D.BASIS` (Spline.py:52-56). -/
def quadSplineBasis : Matrix (Fin 3) (Fin 3) K := !![1, -2, 1; 1, 2, -2; 0, 0, 1]

/-- `QuadraticUniformSpline2D.INVERSE_BASIS` (Spline.py:58-62). -/
def quadSplineInverseBasis : Matrix (Fin 3) (Fin 3) K := !![-2, 1, -2; -2, -3, 1; -1, -1, -2]

/-- `CubicUniformSpline2D.BASIS` (Spline.py:110-115), the division by 6 written on the entries. -/
def cubicSplineBasis : Matrix (Fin 4) (Fin 4) K :=
  !![1 / 6, -3 / 6, 3 / 6, -1 / 6; 4 / 6, 0 / 6, -6 / 6, 3 / 6; 1 / 6, 3 / 6, 3 / 6, -3 / 6; 0 / 6, 0 / 6, 0 / 6, 1 / 6]

/-- `CubicUniformSpline2D.INVERSE_BASIS` (Spline.py:117-122). -/
def cubicSplineInverseBasis : Matrix (Fin 4) (Fin 4) K :=
  !![1, 1, 1, 1; -1, 0, 1, 2; 2 / 3, -1 / 3, 2 / 3, 11 / 3; 0, 0, 0, 6]

/-- `CubicUniformSpline2D` (Spline.py:101-127): four control points. -/
@[ext] structure CubicSpline (K : Type _) where
  p0 : Vec K
  p1 : Vec K
  p2 : Vec K
  p3 : Vec K
deriving DecidableEq

/-- `point_array` of four points (Primitive.py:199-214): one column for each point. -/
def pointArray (p0 p1 p2 p3 : Vec K) : Matrix (Fin 2) (Fin 4) K := !![p0.x, p1.x, p2.x, p3.x; p0.y, p1.y, p2.y, p3.y]

/-- A column of an array of points, as the constructor takes it (`points = ….transpose()`, `cls(*points)`). -/
def column (m : Matrix (Fin 2) (Fin 4) K) (j : Fin 4) : Vec K := ⟨m 0 j, m 1 j⟩

/-- `CubicBezier2D.to_spline` (Bezier.py:448-452). -/
def Cubic.toSpline (c : Cubic K) : CubicSpline K :=
  let m := pointArray c.p0 c.p1 c.p2 c.p3 * (cubicBasis * cubicSplineInverseBasis)
  ⟨column m 0, column m 1, column m 2, column m 3⟩

/-- `CubicUniformSpline2D.to_bezier` (Spline.py:136-145): `self._start` does not exist. -/
def CubicSpline.toBezier (_ : CubicSpline K) : Except PyErr (Cubic K) := .error .attributeError

/-- `CubicUniformSpline2D.point_at_t` (Spline.py:149-163). -/
def CubicSpline.pointAt (c : CubicSpline K) (t : K) : Vec K :=
  c.p0.sdiv 6 + (c.p1.smul 2).sdiv 3 + c.p2.sdiv 6 + ((-c.p0).sdiv 2 + c.p2.sdiv 2).smul t +
    (c.p0.sdiv 2 - c.p1 + c.p2.sdiv 2).smul (t ^ 2) +
    ((-c.p0).sdiv 6 + c.p1.sdiv 2 - c.p2.sdiv 2 + c.p3.sdiv 6).smul (t ^ 3)

variable [LinearOrder K]

/-- `QuadraticBezier2D.split_at_t` (Bezier.py:271-284): `None` for the missing part. -/
def Quad.splitAt (c : Quad K) (t : K) : Option (Quad K) × Option (Quad K) :=
  if t ≤ 0 then (none, some c)
  else if 1 ≤ t then (some c, none)
  else
    let p01 := interpolate c.p0 c.p1 t
    let p12 := interpolate c.p1 c.p2 t
    let p := interpolate p01 p12 t
    (some ⟨c.p0, p01, p⟩, some ⟨p, p12, c.p2⟩)

/-- The result of `split_at_two_t`: a point or a curve; for a quadratic curve it may be `None`. -/
inductive Part (C K : Type _) where
  | point (p : Vec K)
  | curve (c : C)
  | none
deriving DecidableEq

/-- `split_at_two_t` (Bezier.py:155-172) of a cubic curve. -/
def Cubic.splitAtTwo (c : Cubic K) (t1 t2 : K) : Part (Cubic K) K :=
  if t1 = t2 then .point (c.pointAt t1)
  else
    let (t1, t2) := if t2 < t1 then (t2, t1) else (t1, t2)
    let curve := (c.splitAt t1).2
    if t2 < 1 then .curve (curve.splitAt ((t2 - t1) / (1 - t1))).1 else .curve curve

/-- `split_at_two_t` (Bezier.py:155-172) of a quadratic curve. `None.split_at_t` raises. -/
def Quad.splitAtTwo (c : Quad K) (t1 t2 : K) : Except PyErr (Part (Quad K) K) :=
  if t1 = t2 then .ok (.point (c.pointAt t1))
  else
    let (t1, t2) := if t2 < t1 then (t2, t1) else (t1, t2)
    let curve := (c.splitAt t1).2
    let part : Option (Quad K) → Part (Quad K) K := fun
      | some c => .curve c
      | .none => .none
    if t2 < 1 then
      match curve with
      | some curve => .ok (part (curve.splitAt ((t2 - t1) / (1 - t1))).1)
      | .none => .error .attributeError
    else .ok (part curve)

/-- `is_flat_enough` (Bezier.py:818-835). -/
def Cubic.isFlatEnough (c : Cubic K) (flatness : K) : Bool :=
  let u := c.p1.smul 3 - c.p0.smul 2 - c.p3
  let v := c.p2.smul 3 - c.p3.smul 2 - c.p0
  decide (max (u.x ^ 2) (v.x ^ 2) + max (u.y ^ 2) (v.y ^ 2) ≤ 16 * flatness ^ 2)

end Field

noncomputable section

open Classical

/-- `math.log`: `ValueError` for a number which is not positive. -/
def pyLog (x : ℝ) : Except PyErr ℝ := if 0 < x then .ok (Real.log x) else .error .valueError

/-- `QuadraticBezier2D.length` (Bezier.py:236-259). `c**1.5` is `c ^ (3/2)`; `c` is positive when it is used, and the arguments of
`math.sqrt` are never negative (`length_args` in the proofs). -/
def Quad.length (c : Quad ℝ) : Except PyErr ℝ :=
  let A0 := c.p1 - c.p0
  let A1 := c.p0 - c.p1.smul 2 + c.p2
  if A1.magnitudeSquare ≠ 0 then do
    let cc := 4 * A1.dot A1
    let b := 8 * A0.dot A1
    let a := 4 * A0.dot A0
    let q := 4 * a * cc - b * b
    let two_cb := 2 * cc + b
    let sum_cba := cc + b + a
    let m0 := 0.25 / cc
    let m1 := q / (8 * cc ^ (1.5 : ℝ))
    let l1 ← pyLog (2 * Real.sqrt (cc * sum_cba) + two_cb)
    let l0 ← pyLog (2 * Real.sqrt (cc * a) + b)
    return m0 * (two_cb * Real.sqrt sum_cba - b * Real.sqrt a) + m1 * (l1 - l0)
  else return 2 * A0.magnitude

/-- `fat_line` (Bezier.py:578-588): the line, `d_min` and `d_max`. -/
def Cubic.fatLine (c : Cubic ℝ) : Except PyErr (Line ℝ × ℝ × ℝ) := do
  let line := Line.fromTwoPoints c.p0 c.p3
  let d1 ← line.distanceToLine c.p1
  let d2 ← line.distanceToLine c.p2
  let factor : ℝ := if d1 * d2 > 0 then 3 / 4 else 4 / 9
  return (line, factor * min (min 0 d1) d2, factor * max (max 0 d1) d2)

/-- `QuadraticBezier2D.fat_line` (Bezier.py:359-364): `self._p3` does not exist. -/
def Quad.fatLine (_ : Quad ℝ) : Except PyErr (Line ℝ × ℝ × ℝ) := .error .attributeError

/-- `_d01` (Bezier.py:500-502). -/
def Cubic.d01 (c : Cubic ℝ) : ℝ := (c.p3 - c.p2.smul 3 + c.p1.smul 3 - c.p0).magnitude / 2

/-- `InterpolationPrecision` (Bezier.py:418). -/
def precision : ℝ := 0.001

/-- `_t_max` (Bezier.py:506-508). The magnitude is a Python float. -/
def Cubic.tMax (c : Cubic ℝ) : Except PyErr ℝ := do
  let x ← Vec.pyDiv (18 / Real.sqrt 3 * precision) c.d01
  return x ^ (1 / 3 : ℝ)

/-- The loop of `adaptive_length_approximation` (Bezier.py:520-528): the segments, given that `tMax` is the value for `segment`; at
most `fuel` turns, `none` when this is not enough. -/
def adaptiveLoop (fuel : Nat) (segment : Cubic ℝ) (tMax : ℝ) : Option (Except PyErr (List (Cubic ℝ))) :=
  if tMax < 1 then
    match fuel with
    | 0 => none
    | fuel + 1 =>
      let split := segment.splitAt tMax
      match split.2.tMax with
      | .error e => some (.error e)
      | .ok t => (adaptiveLoop fuel split.2 t).map fun r => r.map (split.1 :: ·)
  else some (.ok [segment])

/-- The segments of `adaptive_length_approximation` (Bezier.py:518-528). -/
def Cubic.adaptiveSegments (fuel : Nat) (c : Cubic ℝ) : Option (Except PyErr (List (Cubic ℝ))) :=
  match c.tMax with
  | .error e => some (.error e)
  | .ok t => adaptiveLoop fuel c t

/-- `q_length` (Bezier.py:512-514). -/
def Cubic.qLength (c : Cubic ℝ) : Except PyErr ℝ := c.midQuad.length

/-- `adaptive_length_approximation`, which is `length` (Bezier.py:457-458, 518-529). -/
def Cubic.length (fuel : Nat) (c : Cubic ℝ) : Option (Except PyErr ℝ) :=
  (c.adaptiveSegments fuel).map fun r => do
    let segments ← r
    let lengths ← segments.mapM Cubic.qLength
    return lengths.sum

/-- The loop of `interpolated_length` (Bezier.py:90-97) for the curve `f`: at most `fuel` turns. -/
def interpolatedLoop (f : ℝ → Vec ℝ) (dt : ℝ) (fuel : Nat) (t length : ℝ) : Option ℝ :=
  if t < 1 then
    match fuel with
    | 0 => none
    | fuel + 1 =>
      let t' := min (t + dt) 1
      interpolatedLoop f dt fuel t' (length + (f t' - f t).magnitude)
  else some length

/-- `interpolated_length(dt)` (Bezier.py:83-97) for the curve `f` with the given end points; `dt` computed when not given. -/
def interpolatedLength (f : ℝ → Vec ℝ) (start stop : Vec ℝ) (dt : Option ℝ) (fuel : Nat) : Option (Except PyErr ℝ) :=
  match dt with
  | some dt => (interpolatedLoop f dt fuel 0 0).map .ok
  | none =>
    match Vec.pyDiv 0.05 (stop - start).magnitude with
    | .error e => some (.error e)
    | .ok dt => (interpolatedLoop f dt fuel 0 0).map .ok

/-- `t_at_length` (Bezier.py:121-151), given the length of the curve. `length_at_t` (Bezier.py:101-117) reads the attribute `length` of
the pair of curves returned by `split_at_t`, which does not exist. -/
def tAtLength (curveLength : Except PyErr ℝ) (length precision : ℝ) : Except PyErr ℝ :=
  if length < 0 then .error .valueError
  else if length = 0 then .ok 0
  else do
    let curve_length ← curveLength
    if curve_length - length ≤ precision then return 1
    else if length > curve_length then .error .valueError
    else .error .attributeError

/-- `fifth_root` (Patro/Common/Math/Root.py:124-130), on top of `sympy.real_roots` (external, `realRoots`: coefficients from the highest
degree). -/
def fifthRoot (realRoots : List ℝ → Except PyErr (List ℝ)) (a b c d e f : ℝ) : Except PyErr (List ℝ) :=
  if a = 0 then realRoots [a, b, c, d, e, f]
  else realRoots [1, b / a, c / a, d / a, e / a, f / a]

/-- The coefficients of the equation of `closest_point` (Bezier.py:863-875). -/
def Cubic.closestCoefficients (k : Cubic ℝ) (point : Vec ℝ) : ℝ × ℝ × ℝ × ℝ × ℝ × ℝ :=
  let n := k.p3 - k.p2.smul 3 + k.p1.smul 3 - k.p0
  let r := (k.p2 - k.p1.smul 2 + k.p0).smul 3
  let s := (k.p1 - k.p0).smul 3
  let v := k.p0
  (-3 * n.magnitudeSquare, -5 * n.dot r, -2 * (2 * n.dot s + r.magnitudeSquare),
    3 * (point.dot n - n.dot v - r.dot s), 2 * point.dot r - 2 * r.dot v - s.magnitudeSquare, point.dot s - s.dot v)

/-- `CubicBezier2D.closest_point` (Bezier.py:855-895). -/
def Cubic.closestPoint (realRoots : List ℝ → Except PyErr (List ℝ)) (k : Cubic ℝ) (point : Vec ℝ) :
    Except PyErr (Option (Vec ℝ)) := do
  let (a, b, c, d, e, f) := k.closestCoefficients point
  let roots ← fifthRoot realRoots a b c d e f
  match roots.filter fun root => decide (0 ≤ root ∧ root ≤ 1) with
  | [] => return none
  | [t] => return some (k.pointAt t)
  | [t0, t1] => if t0 = 0 then return some (k.pointAt t1) else return none
  | _ => return none

/-- `distance_to_point` (Bezier.py:197-202) of a cubic curve. -/
def Cubic.distanceToPoint (realRoots : List ℝ → Except PyErr (List ℝ)) (k : Cubic ℝ) (point : Vec ℝ) :
    Except PyErr (Option ℝ) := do
  match ← k.closestPoint realRoots point with
  | some p => return some (point - p).magnitude
  | none => return none

/-- `QuadraticBezier2D.closest_point` (Bezier.py:368-393). `cubic_root` (Root.py:72-77) returns `None`, a number or a pair when the
first coefficient is null: only a pair can be iterated. With exactly one root in the range, `point_at_t` is called with the list
of roots, and `1 - list` raises. -/
def Quad.closestPoint (realRoots : List ℝ → Except PyErr (List ℝ)) (k : Quad ℝ) (point : Vec ℝ) :
    Except PyErr (Option (Vec ℝ)) := do
  let A := k.p1 - k.p0
  let B := k.p2 - k.p1 - A
  let M := k.p0 - point
  let a := B.magnitudeSquare
  let b := 3 * A.dot B
  let c := 2 * A.magnitudeSquare + M.dot B
  let d := M.dot A
  let roots ← if a = 0 then
      match MathFunctions.quadraticRoot b c d with
      | .two r1 r2 => .ok [r1, r2]
      | _ => .error .typeError
    else realRoots [a, b, c, d]
  match roots.filter fun root => decide (0 ≤ root ∧ root ≤ 1) with
  | [] => return none
  | [_] => .error .typeError
  | _ => return none

end

end Patro.Bezier
