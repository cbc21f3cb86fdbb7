import Verif.Proof.Graph
/-!
# C01-C05: the dependency graph

`Reachable g` (Verif/Spec/Graph.lean) says that `g` was built by `add_node`, `connect_ancestor`,
`disconnect_ancestor` calls.  `order` is the order in which the set of nodes is popped and `desc' v` the
order in which the descendants of `v` are iterated: arbitrary permutations.
-/

set_option linter.unusedSectionVars false

namespace Patro.Graph

open Patro Relation

variable {I : Type _} [DecidableEq I]

/-- C01. When `topological_sort` returns, the result has every node of the graph exactly once and every
ancestor comes before its descendants, whatever the set iteration orders and recursion limit. -/
theorem topologicalSort_sound (g : G I) (hg : Reachable g) (limit : Nat) (order : List Ref)
    (desc' : Ref → List Ref) (horder : order.Perm g.nodes.values)
    (hdesc : ∀ v, (desc' v).Perm (g.desc v)) (l : List Ref)
    (h : topologicalSort limit desc' order = .ok l) :
    l.Perm g.nodes.values ∧
    ∀ a b, a ∈ g.anc b → ∃ l1 l2 l3, l = l1 ++ a :: l2 ++ b :: l3 := by
  have inv := ginv g hg
  obtain ⟨hn, hmem, hord⟩ := sort_ok desc' limit order l h
  have hcl : ∀ n v, n ∈ g.nodes.values → ReflTransGen (Edge desc') n v → v ∈ g.nodes.values := by
    intro n v hn hr
    induction hr with
    | refl => exact hn
    | tail _ he ih => exact (inv.closed _ _ ((hdesc _).mem_iff.1 he)).2
  have hmem' : ∀ v, v ∈ l ↔ v ∈ g.nodes.values := by
    intro v
    rw [hmem]
    constructor
    · rintro ⟨n, hn, hr⟩
      exact hcl n v (horder.mem_iff.1 hn) hr
    · intro hv
      exact ⟨v, horder.mem_iff.2 hv, ReflTransGen.refl⟩
  refine ⟨(List.perm_ext_iff_of_nodup hn inv.valuesNodup).2 hmem', ?_⟩
  intro a b hab
  have hd : b ∈ g.desc a := (inv.mirror a b).1 hab
  have hs := hord a b ((hmem' a).2 (inv.closed _ _ hd).1) ((hdesc a).mem_iff.2 hd)
  obtain ⟨r₁, r₂, rfl, ha, hb⟩ := List.cons_sublist_iff.1 hs
  obtain ⟨x1, x2, rfl⟩ := List.append_of_mem ha
  obtain ⟨y1, y2, rfl⟩ := List.append_of_mem (List.singleton_sublist.1 hb)
  exact ⟨x1, x2 ++ y1, y2, by simp⟩

/-- C02, what holds: with a recursion limit above the number of nodes, `topological_sort` raises exactly when the
graph has a directed cycle, and then it raises `NameError('Not a DAG')`, never `RecursionError`. -/
theorem topologicalSort_complete_partial (g : G I) (hg : Reachable g) (limit : Nat) (order : List Ref)
    (desc' : Ref → List Ref) (horder : order.Perm g.nodes.values)
    (hdesc : ∀ v, (desc' v).Perm (g.desc v)) (hlimit : g.nodes.length < limit) :
    ((∃ c, TransGen (fun a b => a ∈ g.anc b) c c) →
      topologicalSort limit desc' order = .error .notADag) ∧
    ((¬ ∃ c, TransGen (fun a b => a ∈ g.anc b) c c) →
      ∃ l, topologicalSort limit desc' order = .ok l) := by
  have inv := ginv g hg
  have hE : ∀ a b, Edge desc' a b ↔ a ∈ g.anc b := by
    intro a b
    rw [inv.mirror]
    exact (hdesc a).mem_iff
  have hER : Edge desc' = fun a b => a ∈ g.anc b := by
    funext a b; exact propext (hE a b)
  have herr : ∀ e, topologicalSort limit desc' order = .error e →
      e = .notADag ∧ ∃ c, TransGen (fun a b => a ∈ g.anc b) c c := by
    intro e he
    obtain ⟨h1, n, _, c, _, hc⟩ := sort_error desc' limit order g.nodes.values
      (fun v _ w hw => (inv.closed v w ((hdesc v).mem_iff.1 hw)).2)
      (fun v hv => horder.mem_iff.1 hv) (by simpa [Dict.values] using hlimit) e he
    exact ⟨h1, c, hER ▸ hc⟩
  constructor
  · rintro ⟨c, hc⟩
    cases hr : topologicalSort limit desc' order with
    | error e => rw [(herr e hr).1]
    | ok l =>
      exfalso
      obtain ⟨hn, hmem, hord⟩ := sort_ok desc' limit order l hr
      rw [← hER] at hc
      have hcn : c ∈ g.nodes.values := by
        cases hc with
        | single he => exact (inv.closed _ _ ((hdesc _).mem_iff.1 he)).1
        | tail _ he => exact (inv.closed _ _ ((hdesc _).mem_iff.1 he)).2
      exact no_cycle_of_ordered desc' l hn hord c
        ((hmem c).2 ⟨c, horder.mem_iff.2 hcn, ReflTransGen.refl⟩) hc
  · intro hno
    cases hr : topologicalSort limit desc' order with
    | error e => exact absurd (herr e hr).2 hno
    | ok l => exact ⟨l, rfl⟩

/-- A chain: node 0, and node `k + 1` with the ancestor `k`. -/
def chain : Nat → G Nat
  | 0 => ⟨[(0, 0)], upd (fun _ => []) 0 [], upd (fun _ => []) 0 [], 1⟩
  | k + 1 => G.connectAncestor ⟨(chain k).nodes.set (k + 1) (chain k).next, upd (chain k).anc (chain k).next [],
      upd (chain k).desc (chain k).next [], (chain k).next + 1⟩ (chain k).next k

theorem chain_shape (k : Nat) : Reachable (chain k) ∧ (chain k).next = k + 1 ∧ (chain k).nodes = (List.range (k + 1)).map (fun i => (i, i)) ∧
    (∀ v : Nat, (chain k).desc v = if v < k then [v + 1] else []) ∧ (∀ a b : Nat, a ∈ (chain k).anc b → b = a + 1) := by
  induction k with
  | zero =>
    refine ⟨Reachable.addNode (id := 0) (r := 0) Reachable.init rfl, rfl, rfl, fun v => ?_, fun a b h => ?_⟩
    · show upd (fun _ => []) 0 [] v = _
      unfold upd
      simp
    · have : a ∈ upd (fun _ => []) 0 [] b := h
      unfold upd at this
      simp at this
  | succ k ih =>
    obtain ⟨h1, h2, h3, h4, h5⟩ := ih
    have hc : (chain k).nodes.contains (k + 1) = false := by
      unfold Dict.contains
      rw [(Dict.get?_eq_none_iff _ _).2]
      · rfl
      · rw [h3]
        simp [Dict.keys]
    have hset : (chain k).nodes.set (k + 1) (k + 1) = (List.range (k + 2)).map fun i => (i, i) := by
      rw [Dict.set_of_not_mem, h3, List.range_succ (n := k + 1)]
      · simp
      · rw [h3]
        simp [Dict.keys]
    have hadd : Reachable (⟨(chain k).nodes.set (k + 1) (chain k).next, upd (chain k).anc (chain k).next [],
        upd (chain k).desc (chain k).next [], (chain k).next + 1⟩ : G Nat) := by
      refine Reachable.addNode (id := k + 1) (r := (chain k).next) h1 ?_
      unfold G.addNode
      rw [hc]
      rfl
    rw [h2, hset] at hadd
    have e : chain (k + 1) = G.connectAncestor ⟨(List.range (k + 2)).map fun i => (i, i), upd (chain k).anc (k + 1) [],
        upd (chain k).desc (k + 1) [], k + 1 + 1⟩ (k + 1) k := by
      rw [← hset]
      conv_lhs => unfold chain
      rw [h2]
    rw [e]
    refine ⟨Reachable.connect hadd (by simp [Dict.values]) (by simp [Dict.values]), rfl, rfl, fun v => ?_, fun a b h => ?_⟩
    · show upd (upd (chain k).desc (k + 1) []) k (setAdd (upd (chain k).desc (k + 1) [] k) (k + 1)) v = _
      have hk : upd (chain k).desc (k + 1) [] k = [] := by
        unfold upd
        rw [if_neg (Nat.ne_of_lt (Nat.lt_succ_self k)), h4, if_neg (by omega)]
      rw [hk]
      unfold upd setAdd
      by_cases hv : v = k
      · subst hv
        simp
      · rw [if_neg hv]
        by_cases hv' : v = k + 1
        · subst hv'
          simp
        · rw [if_neg hv', h4]
          by_cases hlt : v < k
          · rw [if_pos hlt, if_pos (by omega)]
          · rw [if_neg hlt, if_neg (by omega)]
    · replace h : a ∈ upd (upd (chain k).anc (k + 1) []) (k + 1) (setAdd (upd (chain k).anc (k + 1) [] (k + 1)) k) b := h
      unfold upd setAdd at h
      by_cases hb : b = k + 1
      · subst hb
        simp at h
        omega
      · rw [if_neg hb, if_neg hb] at h
        exact h5 a b h

theorem visit_chain (k : Nat) : ∀ (fuel : Nat) (st : Dfs Nat) (v : Nat), v + fuel = k → (∀ x ∈ st.temp, x < v) → (∀ x ∈ st.marked, x < v) →
    visit (chain k).desc fuel st v = .error .recursion := by
  intro fuel
  induction fuel with
  | zero => intros; rfl
  | succ n ih =>
    intro st v hk ht hm
    unfold visit
    rw [if_neg (fun h => Nat.lt_irrefl _ (ht v h)), if_neg (fun h => Nat.lt_irrefl _ (hm v h)), (chain_shape k).2.2.2.1 v, if_pos (by omega)]
    have := ih { st with temp := v :: st.temp } (v + 1) (by omega) (by
      intro x hx
      rcases List.mem_cons.1 hx with rfl | hx
      · omega
      · have := ht x hx; omega) (fun x hx => by have := hm x hx; omega)
    simp only [List.foldlM_cons, this]
    rfl

/-- C02 is false of deep graphs: whatever the recursion limit of the interpreter, there is a graph without a cycle, a chain, for which
`RecursionError` is raised when the set of the nodes gives its first node first. -/
theorem topologicalSort_deep_wrong (limit : Nat) : ∃ (g : G Nat) (order : List Ref), Reachable g ∧ order.Perm g.nodes.values ∧
    (¬ ∃ c, TransGen (fun a b => a ∈ g.anc b) c c) ∧ g.nodes.length = limit + 1 ∧ topologicalSort limit g.desc order = .error .recursion := by
  obtain ⟨h1, -, h3, h4, h5⟩ := chain_shape limit
  have hv : (chain limit).nodes.values = List.range (limit + 1) := by
    rw [h3]
    simp [Dict.values, List.map_map, Function.comp_def]
  refine ⟨chain limit, List.range (limit + 1), h1, by rw [hv], ?_, by rw [h3]; simp, ?_⟩
  · rintro ⟨c, hc⟩
    have hlt : ∀ a b : Nat, TransGen (fun a b => a ∈ (chain limit).anc b) a b → a < b := by
      intro a b h
      induction h with
      | single h => have := h5 _ _ h; omega
      | tail _ h ih => have := h5 _ _ h; omega
    exact Nat.lt_irrefl _ (hlt c c hc)
  · unfold topologicalSort
    rw [List.range_succ_eq_map, List.foldlM_cons, visit_chain limit limit _ 0 (by omega) (by simp) (by simp)]
    rfl

/-- C03. The breadth first search from any node of a reachable graph ends (within as many loop
iterations as there are nodes) and yields each node reachable from the start exactly once, the start
first, in non-decreasing length of a shortest path. -/
theorem breadthFirstSearch_spec (g : G I) (hg : Reachable g) (desc' : Ref → List Ref)
    (hdesc : ∀ v, (desc' v).Perm (g.desc v)) (start : Ref) (hs : start ∈ g.nodes.values)
    (n : Nat) (hn : g.nodes.length ≤ n) :
    ∃ out, breadthFirstSearch desc' n start = some out ∧ out.Nodup ∧ out.head? = some start ∧
      (∀ v, v ∈ out ↔ ReflTransGen (fun a b => b ∈ g.desc a) start v) ∧
      out.Pairwise (fun u v => ∀ m, PathLen g.desc m start v → ∃ k, k ≤ m ∧ PathLen g.desc k start u) := by
  have inv := ginv g hg
  have hpath : ∀ m a b, PathLen desc' m a b ↔ PathLen g.desc m a b := by
    intro m a b
    constructor
    · intro h
      induction h with
      | nil => exact PathLen.nil _
      | snoc _ he ih => exact PathLen.snoc ih ((hdesc _).mem_iff.1 he)
    · intro h
      induction h with
      | nil => exact PathLen.nil _
      | snoc _ he ih => exact PathLen.snoc ih ((hdesc _).mem_iff.2 he)
  have inv0 : BfsInv desc' start 0 [start] [] ⟨[start], [start], []⟩ := by
    refine ⟨rfl, ?_, by simp, by simp, by simp, by simp, by simp, ?_, by simp, by simp⟩
    · intro v hv
      simp only [List.mem_singleton] at hv
      subst hv
      exact ⟨PathLen.nil _, fun m _ => Nat.zero_le m⟩
    · intro v m hp hm
      have : m = 0 := by omega
      subst this
      cases hp
      simp
  obtain ⟨d', st', hrun, hi⟩ := bfsRun_ok g.nodes.values
    (fun v _ w hw => (inv.closed v w ((hdesc v).mem_iff.1 hw)).2) n 0 [start] [] _ inv0
    (by simpa using hs) (by simpa [Dict.values] using hn)
  have hq : st'.queue = [] := by simpa using hi.queue
  refine ⟨st'.yielded, hrun, ?_, ?_, ?_, ?_⟩
  · simpa [hq] using hi.nodup
  · simpa [hq] using hi.first
  · intro v
    have hER : (fun a b => b ∈ g.desc a) = Edge desc' := by
      funext a b; exact propext (hdesc a).mem_iff.symm
    rw [hER, ← pathLen_iff_reach]
    constructor
    · intro hv
      obtain ⟨k, _, hk⟩ := hi.out v hv
      exact ⟨k, hk.1⟩
    · rintro ⟨m, hm⟩
      have hvis : ∀ w, w ∈ st'.visited → w ∈ st'.yielded := by
        intro w hw
        rcases (hi.vis w).1 hw with h | h
        · exact h
        · simp [hq] at h
      have hstart : start ∈ st'.yielded := hvis _ (hi.all _ 0 (PathLen.nil _) (Nat.zero_le _))
      clear hrun inv0 hs
      have aux : ∀ k a b, PathLen desc' k a b → a ∈ st'.yielded → b ∈ st'.yielded := by
        intro k a b h ha
        induction h with
        | nil => exact ha
        | snoc _ he ih => exact hvis _ (hi.closed _ (ih ha) _ he)
      exact aux _ _ _ hm hstart
  · have := hi.mono
    simpa only [hpath] using this

/-- C04. `a` is an ancestor of `b` exactly when `b` is a descendant of `a`, after every history. -/
theorem links_mirror (g : G I) (hg : Reachable g) (a b : Ref) : a ∈ g.anc b ↔ b ∈ g.desc a :=
  (ginv g hg).mirror a b

/-- C04. `connect_ancestor` adds exactly the edge `node → self`. -/
theorem connect_edges (g : G I) (self node a b : Ref) :
    a ∈ (g.connectAncestor self node).anc b ↔ a ∈ g.anc b ∨ (a = node ∧ b = self) := by
  simp only [G.connectAncestor, upd_apply]
  by_cases hb : b = self
  · subst hb; simp [setAdd_mem]
  · simp [hb]

/-- C04. `disconnect_ancestor` of an edge removes exactly that edge. -/
theorem disconnect_edge (g : G I) (hg : Reachable g) (self node : Ref) (h : node ∈ g.anc self) :
    (g.disconnectAncestor self node).1 = .ok () ∧
    ∀ a b, a ∈ (g.disconnectAncestor self node).2.anc b ↔ a ∈ g.anc b ∧ ¬ (a = node ∧ b = self) := by
  have inv := ginv g hg
  have hd : self ∈ g.desc node := (inv.mirror _ _).1 h
  unfold G.disconnectAncestor
  simp only [h, hd, if_true, upd_apply, true_and]
  intro a b
  by_cases hb : b = self
  · subst hb
    simp [(inv.ancNodup _).mem_erase_iff, and_comm]
  · simp [hb]

/-- C04. `disconnect_ancestor` of a non-edge raises `KeyError` and changes nothing. -/
theorem disconnect_non_edge (g : G I) (self node : Ref) (h : node ∉ g.anc self) :
    g.disconnectAncestor self node = (.error .keyError, g) := by
  simp [G.disconnectAncestor, h]

/-- C04. `roots()` lists exactly the registered nodes that are a descendant of no node, `leafs()` those
that are an ancestor of no node. -/
theorem roots_leafs_spec (g : G I) (hg : Reachable g) (r : Ref) :
    (r ∈ g.roots ↔ r ∈ g.nodes.values ∧ ∀ a, r ∉ g.desc a) ∧
    (r ∈ g.leafs ↔ r ∈ g.nodes.values ∧ ∀ b, r ∉ g.anc b) := by
  have inv := ginv g hg
  constructor
  · simp only [G.roots, List.mem_filter, G.isRoot, List.isEmpty_iff]
    refine and_congr_right fun _ => ?_
    rw [List.eq_nil_iff_forall_not_mem]
    exact forall_congr' fun a => not_congr (inv.mirror a r)
  · simp only [G.leafs, List.mem_filter, G.isLeaf, List.isEmpty_iff]
    refine and_congr_right fun _ => ?_
    rw [List.eq_nil_iff_forall_not_mem]
    exact forall_congr' fun b => not_congr (inv.mirror r b).symm

/-- C05. Registering a new id: it resolves to the new node, all other ids resolve as before, and the
node is a new object without edges. -/
theorem addNode_new (g : G I) (hg : Reachable g) (id : I) (h : g.getItem id = .error .keyError) :
    ∃ g' r, g.addNode id = .ok (g', r) ∧ g'.getItem id = .ok r ∧ r ∉ g.nodes.values ∧
      (∀ id', id' ≠ id → g'.getItem id' = g.getItem id') ∧
      (∀ a b, a ∈ g'.anc b ↔ a ∈ g.anc b) := by
  have hnone : Dict.get? g.nodes id = none := by
    unfold G.getItem Dict.getItem at h
    cases hh : Dict.get? g.nodes id with
    | none => rfl
    | some v => rw [hh] at h; cases h
  have inv := ginv g hg
  have hnext : g.next ∉ g.nodes.values := fun hm => Nat.lt_irrefl _ (inv.fresh _ hm)
  refine ⟨{ nodes := g.nodes.set id g.next, anc := upd g.anc g.next [],
            desc := upd g.desc g.next [], next := g.next + 1 }, g.next,
    by simp [G.addNode, Dict.contains, hnone], ?_, hnext, ?_, ?_⟩
  · simp [G.getItem, Dict.getItem, Dict.get?_set_self]
  · intro id' hne
    simp only [G.getItem, Dict.getItem, Dict.get?_set_ne _ _ (Ne.symm hne)]
  · intro a b
    simp only [upd_apply]
    split
    · rename_i hb
      subst hb
      constructor
      · intro hh; simp at hh
      · intro hh
        exact absurd (inv.closed _ _ ((inv.mirror _ _).1 hh)).2 hnext
    · rfl

/-- C05. Registering an id twice raises `NameError` (and, raising, leaves the graph as it was). -/
theorem addNode_duplicate (g : G I) (id : I) (r : Ref) (h : g.getItem id = .ok r) :
    g.addNode id = .error .nameError := by
  unfold G.getItem Dict.getItem at h
  cases hh : Dict.get? g.nodes id with
  | none => rw [hh] at h; cases h
  | some v => simp [G.addNode, Dict.contains, hh]

/-! ## Concrete reachable graphs -/

/-- Three nodes `0 → 1 → 2` and `0 → 2`. -/
def exampleGraph : G Nat :=
  let add (g : G Nat) (i : Nat) : G Nat := match g.addNode i with | .ok (g', _) => g' | .error _ => g
  let g := add (add (add {} 10) 11) 12
  ((g.connectAncestor 1 0).connectAncestor 2 1).connectAncestor 2 0

theorem exampleGraph_reachable : Reachable exampleGraph := by
  unfold exampleGraph
  refine Reachable.connect (Reachable.connect (Reachable.connect ?_ ?_ ?_) ?_ ?_) ?_ ?_
  · refine Reachable.addNode (id := 12) (r := 2) (Reachable.addNode (id := 11) (r := 1)
      (Reachable.addNode (id := 10) (r := 0) Reachable.init rfl) rfl) rfl
  all_goals decide

example : topologicalSort 10 exampleGraph.desc [2, 0, 1] = .ok [0, 1, 2] := by decide
example : topologicalSort 10 exampleGraph.desc [0, 1, 2] = .ok [0, 1, 2] := by decide
example : topologicalSort 10 (exampleGraph.connectAncestor 0 2).desc [0, 1, 2] = .error .notADag := by
  decide
example : breadthFirstSearch exampleGraph.desc 3 0 = some [0, 1, 2] := by decide
/-- Both directions of C02 are inhabited by reachable graphs. -/
example : Reachable (exampleGraph.connectAncestor 0 2) :=
  Reachable.connect exampleGraph_reachable (by decide) (by decide)
example : exampleGraph.roots = [0] ∧ exampleGraph.leafs = [2] := by decide

end Patro.Graph
