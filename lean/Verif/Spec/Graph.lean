import Verif.Model.Graph
/-! # Specification vocabulary for graphs: paths with their length, histories of public calls -/

namespace Patro.Graph

/-- `PathLen desc n a b`: there is a path of exactly `n` edges from `a` to `b`, an edge `x → y` meaning
that `y` is one of the descendants of `x`. -/
inductive PathLen {V : Type _} (desc : V → List V) : Nat → V → V → Prop where
  | nil (a : V) : PathLen desc 0 a a
  | snoc {n : Nat} {a b c : V} : PathLen desc n a b → c ∈ desc b → PathLen desc (n + 1) a c

section
variable {I : Type _} [DecidableEq I]

/-- Graphs obtainable by the public operations from the empty graph.  Only node objects returned by
`add_node` exist, so `connect_ancestor`/`disconnect_ancestor` are called on those. -/
inductive Reachable : G I → Prop where
  | init : Reachable {}
  | addNode {g g' : G I} {id : I} {r : Ref} : Reachable g → g.addNode id = .ok (g', r) → Reachable g'
  | connect {g : G I} {self node : Ref} : Reachable g → self ∈ g.nodes.values → node ∈ g.nodes.values →
      Reachable (g.connectAncestor self node)
  | disconnect {g : G I} {self node : Ref} : Reachable g → self ∈ g.nodes.values →
      node ∈ g.nodes.values → Reachable (g.disconnectAncestor self node).2

end

end Patro.Graph
