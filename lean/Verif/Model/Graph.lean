import Verif.Model.Py
/-!
# Model of `Patro/Common/Graph/DirectedAcyclicGraph.py`

Node objects are values of a type `V` with decidable equality (object identity).  The `_descendants`
set of each node is given as the list `desc v` of its members in the order in which Python iterates
over it; the model is parametrised by that order, which the theorems quantify over.
-/

namespace Patro.Graph

open Patro

variable {V : Type _} [DecidableEq V]

/-- What can go wrong in `topological_sort`: the explicit `NameError('Not a DAG')`
(DirectedAcyclicGraph.py:166) or CPython's `RecursionError` when `visit` recurses deeper than the
interpreter's recursion limit. -/
inductive SortErr where
  | notADag
  | recursion
  deriving DecidableEq, Repr

/-- The local variables of `topological_sort` (DirectedAcyclicGraph.py:159-162):
`marked_nodes`, `temporary_marked_nodes` (sets, kept as duplicate free lists) and `sorted_list`. -/
structure Dfs (V : Type _) where
  marked : List V
  temp : List V
  sorted : List V

/-- The nested function `visit` (DirectedAcyclicGraph.py:164-173).  The first argument is the
remaining recursion depth allowed by the interpreter. -/
def visit (desc : V → List V) : Nat → Dfs V → V → Except SortErr (Dfs V)
  | 0, _, _ => .error .recursion
  | depth + 1, st, node =>
    if node ∈ st.temp then .error .notADag
    else if node ∈ st.marked then .ok st
    else
      match (desc node).foldlM (visit desc depth) { st with temp := node :: st.temp } with
      | .error e => .error e
      | .ok st' =>
        .ok { marked := node :: st'.marked
              temp := st'.temp.erase node
              sorted := st'.sorted ++ [node] }

/-- `topological_sort` (DirectedAcyclicGraph.py:157-181).  `order` is the sequence in which
`unmarked_nodes.pop()` hands out the nodes of the graph. -/
def topologicalSort (limit : Nat) (desc : V → List V) (order : List V) : Except SortErr (List V) :=
  match order.foldlM (visit desc limit) { marked := [], temp := [], sorted := [] } with
  | .error e => .error e
  | .ok st => .ok st.sorted.reverse

/-- State of the `breadth_first_search` generator (DirectedAcyclicGraph.py:94-106):
`queue`, `visited`, and the nodes yielded so far. -/
structure Bfs (V : Type _) where
  queue : List V
  visited : List V
  yielded : List V

/-- The inner `for descendant in node._descendants` loop (DirectedAcyclicGraph.py:103-106). -/
def bfsExpand : List V → List V × List V → List V × List V
  | [], qv => qv
  | d :: ds, (queue, visited) =>
    if d ∈ visited then bfsExpand ds (queue, visited)
    else bfsExpand ds (queue ++ [d], d :: visited)

/-- One iteration of the `while queue` loop (DirectedAcyclicGraph.py:100-106); `none` when the queue
is empty, i.e. when the generator is exhausted. -/
def bfsStep (desc : V → List V) (st : Bfs V) : Option (Bfs V) :=
  match st.queue with
  | [] => none
  | node :: queue =>
    let (queue', visited') := bfsExpand (desc node) (queue, st.visited)
    some { queue := queue', visited := visited', yielded := st.yielded ++ [node] }

/-- Run at most `n` iterations of the loop; `some out` when the generator is exhausted within them,
`out` being everything it yielded. -/
def bfsRun (desc : V → List V) : Nat → Bfs V → Option (List V)
  | 0, st => if st.queue.isEmpty then some st.yielded else none
  | n + 1, st =>
    match bfsStep desc st with
    | none => some st.yielded
    | some st' => bfsRun desc n st'

/-- `node.breadth_first_search()` consumed during at most `n` loop iterations
(DirectedAcyclicGraph.py:94-106). -/
def breadthFirstSearch (desc : V → List V) (n : Nat) (start : V) : Option (List V) :=
  bfsRun desc n { queue := [start], visited := [start], yielded := [] }

/-! ## The graph as a mutable object -/

/-- References to node objects. -/
abbrev Ref := Nat

/-- A graph with its node objects: the `_nodes` dict (DirectedAcyclicGraph.py:117), and for each
node object its `_ancestors` and `_descendants` sets (DirectedAcyclicGraph.py:42-43), kept as
duplicate free lists.  `next` is the next fresh object reference. -/
structure G (I : Type _) where
  nodes : Dict I Ref := []
  anc : Ref → List Ref := fun _ => []
  desc : Ref → List Ref := fun _ => []
  next : Ref := 0

/-- `set.add`. -/
def setAdd (s : List Ref) (x : Ref) : List Ref := if x ∈ s then s else s ++ [x]

/-- Assign one field of the heap. -/
def upd (f : Ref → List Ref) (r : Ref) (s : List Ref) : Ref → List Ref := fun x => if x = r then s else f x

section
variable {I : Type _} [DecidableEq I]

/-- `add_node` (DirectedAcyclicGraph.py:131-138). -/
def G.addNode (g : G I) (id : I) : Except PyErr (G I × Ref) :=
  if g.nodes.contains id then .error .nameError
  else
    let node := g.next
    .ok ({ nodes := g.nodes.set id node
           anc := upd g.anc node []
           desc := upd g.desc node []
           next := g.next + 1 }, node)

/-- `__getitem__` (DirectedAcyclicGraph.py:126-127). -/
def G.getItem (g : G I) (id : I) : Except PyErr Ref := Dict.getItem g.nodes id

/-- `self.connect_ancestor(node)` (DirectedAcyclicGraph.py:88-90); `add_edge(ancestor, descendant)`
(line 142-143) is `connectAncestor descendant ancestor`. -/
def G.connectAncestor (g : G I) (self node : Ref) : G I :=
  let g1 := { g with anc := upd g.anc self (setAdd (g.anc self) node) }
  { g1 with desc := upd g1.desc node (setAdd (g1.desc node) self) }

/-- `self.disconnect_ancestor(node)` (DirectedAcyclicGraph.py:82-84): two `set.remove`, each raising
`KeyError` when the element is absent.  An exception in the second one would leave the first
removal in place, so the state is returned together with the error. -/
def G.disconnectAncestor (g : G I) (self node : Ref) : Except PyErr Unit × G I :=
  if node ∈ g.anc self then
    let g1 := { g with anc := upd g.anc self ((g.anc self).erase node) }
    if self ∈ g1.desc node then
      (.ok (), { g1 with desc := upd g1.desc node ((g1.desc node).erase self) })
    else (.error .keyError, g1)
  else (.error .keyError, g)

/-- `is_root` (DirectedAcyclicGraph.py:70-72). -/
def G.isRoot (g : G I) (r : Ref) : Bool := (g.anc r).isEmpty

/-- `is_leaf` (DirectedAcyclicGraph.py:76-78). -/
def G.isLeaf (g : G I) (r : Ref) : Bool := (g.desc r).isEmpty

/-- `roots()` (DirectedAcyclicGraph.py:147-148). -/
def G.roots (g : G I) : List Ref := g.nodes.values.filter g.isRoot

/-- `leafs()` (DirectedAcyclicGraph.py:152-153). -/
def G.leafs (g : G I) : List Ref := g.nodes.values.filter g.isLeaf

/-- `graph.topological_sort()` with `order` the order in which the node set is popped. -/
def G.topologicalSort (g : G I) (limit : Nat) (order : List Ref) : Except SortErr (List Ref) :=
  Graph.topologicalSort limit g.desc order

end

end Patro.Graph
