import Verif.Model.Textile
/-!
# What the textile databases are expected to hold
-/

namespace Patro.Textile

open Xml (Text)

/-- A fiber of the file: its name, the kind of fiber, and the source for natural fibers. -/
structure FiberEntry where
  name : Text
  fiberType : FiberType
  sourceType : Option FiberType
  source : Option Yaml

/-- The fibers of a file, in the order plants, animals, synthetic fibers. -/
def fiberEntries (plants animals : List (Text × Yaml)) (synthetic : List (Text × Yaml)) : List FiberEntry :=
  plants.map (fun e => ⟨e.1, .natural, some .plant, some e.2⟩) ++
  animals.map (fun e => ⟨e.1, .natural, some .animal, some e.2⟩) ++
  synthetic.map fun e => ⟨e.1, .synthetic, none, none⟩

/-- The file that describes these fibers: natural fibers with their sources, then synthetic fibers. -/
def fiberFile (plants animals : List (Text × Yaml)) (synthetic : List (Text × Yaml)) : Yaml :=
  .map [("Natural Fibers".toList, .map [
      ("Plant Fibers".toList, .map (plants.map fun e => (e.1, .map [("source".toList, e.2)]))),
      ("Animal Fibers".toList, .map (animals.map fun e => (e.1, .map [("source".toList, e.2)])))]),
    ("Synthetic Fibers".toList, .map synthetic)]

end Patro.Textile
