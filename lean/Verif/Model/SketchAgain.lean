import Verif.Model.SketchGeometry
/-! # Model of `Expression.set_dirty` for the expressions of a sketch -/

namespace Patro.SketchGeometry

/-- `set_dirty()` (Calculator.py:351-353) called for every expression of every operation of a sketch. The library does not call it. -/
def St.setDirty (st : St) : St := { st with value := fun _ _ => none }

end Patro.SketchGeometry
