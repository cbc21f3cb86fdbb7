import Verif.Model.Pattern
/-! # Specification vocabulary for sketches: histories of public calls -/

namespace Patro.Pattern

open Patro
open Patro.Text (Text)

/-- Patterns obtained by any history of scope additions, removals (a failed one leaves the pattern as it is) and
renamings. -/
inductive PatReachable : Pat → Prop where
  | init : PatReachable {}
  | add {p : Pat} (name : Option Text) : PatReachable p → PatReachable (p.addScope name).1
  | remove {p p' : Pat} (k : ScopeKey) : PatReachable p → p.removeScope k = .ok p' → PatReachable p'
  | rename {p : Pat} (uid : Nat) (name : Option Text) : PatReachable p → PatReachable (p.rename uid name)

/-- A request a program can make: the objects it passes are operations of this sketch, returned by earlier calls, or
objects unknown to this sketch's graph; a line has no expression. -/
structure Req.Possible (s : Sk) (q : Req) : Prop where
  objs : ∀ g ∈ q.groups, ∀ u, RefArg.obj u ∈ g → u ∈ s.ops.map Op.uid ∨ (u ∉ s.dag.nodes.keys ∧ u ≠ s.dag.next)
  line : q.kind = .line → q.exprs = []

/-- Sketches obtained by any history of operation creations, evaluations, and creations of other objects that share the
id counter; exceptions are caught by the program. `ok` restricts the requests. -/
inductive Reachable (ok : Req → Prop) : Sk → Prop where
  | init (c : Int) : Reachable ok { counter := c }
  | create {s : Sk} (q : Req) : Reachable ok s → q.Possible s → ok q → Reachable ok (s.create q).1
  | other {s : Sk} (id : Option Int) : Reachable ok s → Reachable ok { s with counter := (Counter.newId s.counter id).1 }
  | eval {s : Sk} (geom : Uid → Geom) : Reachable ok s → Reachable ok (s.eval geom).1

/-- The operation is registered under the key. -/
def Op.Registered (o : Op) (k : Key) : Prop := k = .int o.id ∨ o.name = some k

instance (o : Op) (k : Key) : Decidable (o.Registered k) := by unfold Op.Registered; infer_instance

/-- The operations an operation depends on: those it was constructed from, those mentioned in its expressions and
those whose position its expressions have read. -/
def Op.dependencies (o : Op) : List Uid :=
  o.refs ++ o.exprs.flatMap fun e => (e.resolved.getD []) ++ e.readFrom

/-- A point whose expressions evaluate every `Line_…` call that mentions the point itself: no mention hidden in a branch
that is not taken. -/
def Req.NoHiddenSelf (q : Req) : Prop :=
  ∀ n, q.kind = .point n → ∀ e ∈ q.exprs, n ∈ e.1 → n ∈ e.2.1

end Patro.Pattern
