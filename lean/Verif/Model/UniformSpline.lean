import Verif.Model.Bezier
/-! # Model of `QuadraticUniformSpline2D` (Patro/GeometryEngine/Spline.py) -/

namespace Patro.Bezier

variable {K : Type _} [Field K]

/-- `QuadraticUniformSpline2D` (Spline.py:48-67): three control points. -/
@[ext] structure QuadSpline (K : Type _) where
  p0 : Vec K
  p1 : Vec K
  p2 : Vec K

/-- `point_array` of three points (Primitive.py:199-214, 528-530): one column for each point. -/
def pointArray3 (p0 p1 p2 : Vec K) : Matrix (Fin 2) (Fin 3) K := !![p0.x, p1.x, p2.x; p0.y, p1.y, p2.y]

/-- `QuadraticUniformSpline2D.to_bezier` (Spline.py:76-79). -/
def QuadSpline.toBezier (s : QuadSpline K) : Quad K :=
  let m := pointArray3 s.p0 s.p1 s.p2 * (quadSplineBasis * quadInverseBasis)
  ⟨⟨m 0 0, m 1 0⟩, ⟨m 0 1, m 1 1⟩, ⟨m 0 2, m 1 2⟩⟩

/-- `QuadraticUniformSpline2D.point_at_t` (Spline.py:83-97): the formula of the cubic splines, with a fourth point which does not exist. -/
def QuadSpline.pointAt (_ : QuadSpline K) (_ : K) : Except PyErr (Vec K) := .error .attributeError

end Patro.Bezier
