import Verif.Model.SvgState
/-! # Specification for the drawing states of SVG -/

namespace Patro.SvgState

variable {F T : Type _} (env : Env F T)

/-- The state with the attributes of an element. -/
def extend (state item : Obj F T) : Except PyErr (Obj F T) := do
  let s ← clone env state
  merge env s item

/-- The states of the items when the state set by a group applies to its children only, and comments are ignored. -/
def inScope : Forest F T → Obj F T → Except PyErr (List (Obj F T))
  | .nil, _ => .ok []
  | .group given children rest, state => do
    let inner ← extend env state (object "Group" given)
    let xs ← inScope children inner
    let ys ← inScope rest state
    return xs ++ ys
  | .item tag given rest, state => do
    let x ← itemState env state tag given
    let ys ← inScope rest state
    return x :: ys
  | .other rest, state => inScope rest state
  | .comment rest, state => inScope rest state

/-- An opening tag or a comment. -/
inductive Mark (F T : Type _) where
  | group (given : Obj F T)
  | item (tag : String) (given : Obj F T)
  | comment

/-- The opening tags and the comments of a document, in the order they are written. -/
def Forest.marks : Forest F T → List (Mark F T)
  | .nil => []
  | .group given children rest => .group given :: (children.marks ++ rest.marks)
  | .item tag given rest => .item tag given :: rest.marks
  | .other rest => rest.marks
  | .comment rest => .comment :: rest.marks

/-- The states of the items when a group changes the state for all that follows, and a comment is an error. -/
def leaking : List (Mark F T) → Obj F T → Except PyErr (List (Obj F T))
  | [], _ => .ok []
  | .group given :: rest, state => do
    let state ← extend env state (object "Group" given)
    leaking rest state
  | .item tag given :: rest, state => do
    let x ← itemState env state tag given
    let xs ← leaking rest state
    return x :: xs
  | .comment :: _, _ => .error .typeError

/-- No comment, and nothing read after a group among its siblings. -/
def Forest.LastGroup : Forest F T → Prop
  | .nil => True
  | .group _ children rest => children.LastGroup ∧ rest.marks = []
  | .item _ _ rest => rest.LastGroup
  | .other rest => rest.LastGroup
  | .comment _ => False

/-- The declaration of a property in a style attribute. -/
def declaration (d : Xml.Text × Xml.Text) : Xml.Text := d.1 ++ ':' :: d.2

end Patro.SvgState
