import Verif.Model.Common
/-!
# Specification of files in directories and of paths
-/

namespace Patro.Common

open Xml (Text)

/-- There is a file with this name in the directory reached by these names. -/
def Under : Listing → List Text → Text → Prop
  | .nil, _, _ => False
  | .file n rest, ds, name => (ds = [] ∧ name = n) ∨ Under rest ds name
  | .dir _ _ rest, [], name => Under rest [] name
  | .dir n children rest, d :: ds, name => (d = n ∧ Under children ds name) ∨ Under rest (d :: ds) name

/-- `q` is the path of a file with this name somewhere in the directory `path`. -/
def IsAt (system : Text → Option Listing) (path name q : Text) : Prop :=
  ∃ listing, system path = some listing ∧ ∃ ds, Under listing ds name ∧ q = pathJoin (ds.foldl pathJoin path) name

/-- A name of a file or of a directory. -/
def Component (c : Text) : Prop := c ≠ [] ∧ '/' ∉ c

/-- The absolute path with these names. -/
def absolute (cs : List Text) : Text := if cs = [] then ['/'] else cs.flatMap fun c => '/' :: c

/-- The rectangle of a view box, from its corner and its size: its bounds in x and in y. -/
def rectangle {K : Type} [Add K] (x y width height : K) : (K × K) × (K × K) := ((x, x + width), (y, y + height))

end Patro.Common
