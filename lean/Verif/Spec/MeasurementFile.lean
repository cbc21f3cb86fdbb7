import Verif.Model.Text
/-! # The names a set of measurements already uses -/

namespace Patro.Measurement

open Patro.Text (Text)

/-- The public attributes of a set of measurements, then its private ones. -/
def setAttributes : List Text :=
  ["unit", "pattern_making_system", "personal", "add", "subs", "sorted_iter", "dump", "save_as_yaml", "load_yaml",
    "_unit", "_pattern_making_system", "_personal", "_measurements", "_expressions", "_logger", "__measurement_cls__"].map String.toList

end Patro.Measurement
