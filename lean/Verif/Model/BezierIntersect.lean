import Verif.Model.Bezier
import Verif.Model.Roots
/-!
# Model of the intersections and the end tangents of the Bézier curves of `Patro/GeometryEngine/Bezier.py`
-/

namespace Patro.BezierIntersect

open Bezier (Quad Cubic)
open MathFunctions (Roots quadraticRoot)

noncomputable section

/-- `_map_to_line(line)` (Bezier.py:176-181): the class `AffineTransformation` (Transformation.py:328-360) has no method `Rotation`, which only
`Transformation2D` and `AffineTransformation2D` define: the lookup raises `AttributeError` before anything else is computed. -/
def mapToLine {Curve : Type} (_curve : Curve) (_line : Line ℝ) : Except PyErr Curve := .error .attributeError

/-- The end of `QuadraticBezier2D.intersect_line` (Bezier.py:328-336) for the mapped curve. -/
def quadRoots (curve : Quad ℝ) : Roots ℝ :=
  let p0 := curve.p0.y
  let p1 := curve.p1.y
  let p2 := curve.p2.y
  quadraticRoot (p2 - 2 * p1 + p0) (2 * (p1 - p0)) p0

/-- `QuadraticBezier2D.intersect_line(line)` (Bezier.py:318-336). -/
def quadIntersectLine (c : Quad ℝ) (line : Line ℝ) : Except PyErr (Roots ℝ) := do
  let curve ← mapToLine c line
  return quadRoots curve

/-- The end of `CubicBezier2D.intersect_line` (Bezier.py:564-574) for the mapped curve. -/
def cubicRoots (realRoots : Roots.RealRoots) (curve : Cubic ℝ) : Except PyErr Roots.CubicRoots :=
  let p0 := curve.p0.y
  let p1 := curve.p1.y
  let p2 := curve.p2.y
  let p3 := curve.p3.y
  Roots.cubicRoot realRoots (p3 - 3 * p2 + 3 * p1 - p0) (3 * (p2 - p1 * 2 + p0)) (3 * (p1 - p0)) p0

/-- `CubicBezier2D.intersect_line(line)` (Bezier.py:545-574). -/
def cubicIntersectLine (realRoots : Roots.RealRoots) (c : Cubic ℝ) (line : Line ℝ) : Except PyErr Roots.CubicRoots := do
  let curve ← mapToLine c line
  cubicRoots realRoots curve

/-- `non_parametric_curve(line)` (Bezier.py:185-193): the distances are computed, then the name `d` of the second comprehension is not
defined. -/
def nonParametricCurve (c : Cubic ℝ) (line : Line ℝ) : Except PyErr (Cubic ℝ) := do
  let _ ← [c.p0, c.p1, c.p2, c.p3].mapM line.distanceToLine
  .error .nameError

/-- `CubicBezier2D._instersect_curve(curve1, curve2)` (Bezier.py:709-814) with the default values of the other arguments, up to the first
exception: with `recursion` 0 the first test fails and the fat line is computed. -/
def intersectCurve (curve1 curve2 : Cubic ℝ) : Except PyErr Unit := do
  let (fatline, _, _) ← curve1.fatLine
  let _ ← nonParametricCurve curve2 fatline
  return ()

/-- `tangent0` (Bezier.py:288-290); `none` for nan coordinates. -/
def tangent0 (c : Quad ℝ) : Option (Vec ℝ) := (c.p1 - c.p0).toNormalised

/-- `normal0` (Bezier.py:300-302): `normal` is a property, whose value is called. -/
def normal0 (_c : Quad ℝ) : Except PyErr (Vec ℝ) := .error .typeError

/-- `tangent1` (Bezier.py:306-308), the second property with this name, which replaces the one of Bezier.py:294-296 and reads itself.
`depth` is the number of calls that Python still allows. -/
def tangent1 (c : Quad ℝ) : Nat → Except PyErr (Vec ℝ)
  | 0 => .error .recursionError
  | depth + 1 => do
    let _ ← tangent1 c depth
    .error .typeError

/-- `CubicBezier2D.tangent1` (Bezier.py:533-535); `none` for nan coordinates. -/
def cubicTangent1 (c : Cubic ℝ) : Option (Vec ℝ) := (c.p3 - c.p2).toNormalised

end

end Patro.BezierIntersect
