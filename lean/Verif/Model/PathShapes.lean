import Verif.Model.Path
/-! # Model of `Path2D.circle` of `Patro/GeometryEngine/Path.py` -/

namespace Patro.Path

/-- `circle(point, radius)` (Path.py:1114-1124). -/
def circle {K : Type _} [Field K] [LinearOrder K] (point : Vec K) (radius : K) : Outcome K :=
  let diameter := 2 * radius
  match (Path.new point).horizontalTo diameter with
  | (.error e, path) => (.error e, path)
  | (.ok _, path) =>
    match path.verticalTo diameter (some radius) with
    | (.error e, path) => (.error e, path)
    | (.ok _, path) =>
      match path.horizontalTo (-diameter) (some radius) with
      | (.error e, path) => (.error e, path)
      | (.ok _, path) => path.close (some radius) (some radius)

end Patro.Path
