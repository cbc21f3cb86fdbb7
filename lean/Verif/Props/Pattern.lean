import Verif.Proof.Pattern
import Verif.Props.Graph
import Mathlib.Data.List.Sort
/-!
# C26, C27, C28: pattern scopes, references between sketch operations, dependency order
-/

namespace Patro.Pattern

open Patro
open Patro.Text (Text)

/-! ## C26 -/

theorem removeFirst_split (l : List Scope) (hn : (l.map Scope.uid).Nodup) (l1 l2 : List Scope) (s : Scope)
    (h : l = l1 ++ s :: l2) : removeFirst l s.uid = l1 ++ l2 := by
  subst h
  induction l1 with
  | nil => simp [removeFirst]
  | cons a l1 ih =>
    simp only [List.cons_append, List.map_cons, List.nodup_cons] at hn
    have : a.uid ≠ s.uid := by
      intro e; apply hn.1; simp [e]
    simp only [List.cons_append, removeFirst, this, if_false]
    rw [ih hn.2]

theorem removeScope_sublist {p p' : Pat} {k : ScopeKey} (h : p.removeScope k = .ok p') :
    p'.scopes.Sublist p.scopes ∧ p'.next = p.next := by
  have hsub : ∀ (l : List Scope) u, (removeFirst l u).Sublist l := by
    intro l u
    induction l with
    | nil => exact List.Sublist.refl _
    | cons a l ih =>
      rw [removeFirst]
      split
      · exact List.sublist_cons_self _ _
      · exact ih.cons_cons _
  unfold Pat.removeScope at h
  cases hs : p.scope k with
  | error e => rw [hs] at h; cases h
  | ok o =>
    rw [hs] at h
    cases o with
    | none => cases h; exact ⟨List.Sublist.refl _, rfl⟩
    | some s => cases h; exact ⟨hsub _ _, rfl⟩

/-- C26. Whatever the history, the scopes are listed in the order in which they were added (`uid` is the order of
creation), each once. -/
theorem scopes_in_insertion_order (p : Pat) (h : PatReachable p) :
    (p.scopes.map Scope.uid).Pairwise (· < ·) ∧ ∀ s ∈ p.scopes, s.uid < p.next := by
  induction h with
  | init => simp
  | add name _ ih =>
    simp only [Pat.addScope, List.map_append, List.map_cons, List.map_nil, List.pairwise_append]
    refine ⟨⟨ih.1, List.pairwise_singleton _ _, ?_⟩, ?_⟩
    · intro a ha b hb
      obtain ⟨s, hs, rfl⟩ := List.mem_map.1 ha
      rw [List.mem_singleton.1 hb]
      exact ih.2 s hs
    · intro s hs
      rcases List.mem_append.1 hs with hs | hs
      · exact Nat.lt_succ_of_lt (ih.2 s hs)
      · rw [List.mem_singleton.1 hs]; exact Nat.lt_succ_self _
  | remove k _ hr ih =>
    obtain ⟨h1, h2⟩ := removeScope_sublist hr
    refine ⟨List.Pairwise.sublist (h1.map _) ih.1, ?_⟩
    intro s hs
    rw [h2]; exact ih.2 s (h1.subset hs)
  | rename uid name _ ih =>
    rename_i p _
    have hu : ((p.rename uid name).scopes.map Scope.uid) = p.scopes.map Scope.uid := by
      simp only [Pat.rename, List.map_map]
      apply List.map_congr_left
      intro s _
      simp only [Function.comp]
      split <;> rfl
    refine ⟨by rw [hu]; exact ih.1, ?_⟩
    intro s hs
    have : s.uid ∈ (p.rename uid name).scopes.map Scope.uid := List.mem_map_of_mem hs
    rw [hu] at this
    obtain ⟨t, ht, e⟩ := List.mem_map.1 this
    rw [← e]; exact ih.2 t ht

/-- C26. `scope(name)` returns the earliest scope of the pattern with that name, `None` when there is none. -/
theorem scope_by_name (p : Pat) (n : Option Text) :
    (∀ s, p.scope (.name n) = .ok (some s) ↔
      ∃ l1 l2, p.scopes = l1 ++ s :: l2 ∧ s.name = n ∧ ∀ x ∈ l1, x.name ≠ n) ∧
    (p.scope (.name n) = .ok none ↔ ∀ x ∈ p.scopes, x.name ≠ n) ∧
    (∀ e, p.scope (.name n) ≠ .error e) := by
  refine ⟨?_, ?_, ?_⟩
  · intro s
    simp only [Pat.scope, Except.ok.injEq, List.find?_eq_some_iff_append, decide_eq_true_eq]
    constructor
    · rintro ⟨h1, l1, l2, h2, h3⟩
      exact ⟨l1, l2, h2, h1, fun x hx => by simpa using h3 x hx⟩
    · rintro ⟨l1, l2, h2, h1, h3⟩
      exact ⟨h1, l1, l2, h2, fun x hx => by simpa using h3 x hx⟩
  · simp only [Pat.scope, Except.ok.injEq, List.find?_eq_none, decide_eq_true_eq, ne_eq]
  · intro e h
    simp [Pat.scope] at h

/-- C26. `scope(i)` returns the scope at index `i` in insertion order; a negative index counts from the end; any other
index raises `IndexError`. -/
theorem scope_by_index (p : Pat) (i : Int) :
    (∀ k : Nat, k < p.scopes.length → i = k ∨ i = (k : Int) - p.scopes.length →
      ∃ s, p.scopes[k]? = some s ∧ p.scope (.index i) = .ok (some s)) ∧
    ((p.scopes.length : Int) ≤ i ∨ i < -(p.scopes.length : Int) → p.scope (.index i) = .error .indexError) := by
  constructor
  · intro k hk hi
    refine ⟨p.scopes[k], List.getElem?_eq_getElem hk, ?_⟩
    rcases hi with rfl | rfl
    · simp [Pat.scope, Py.getItemInt, Py.getItem, hk, Except.map]
    · have h1 : ¬ (0 ≤ (k : Int) - p.scopes.length) := by omega
      have h2 : (k : Int) - p.scopes.length + p.scopes.length = k := by omega
      simp only [Pat.scope, Py.getItemInt, h1, if_false, h2]
      simp [Py.getItem, hk, Except.map]
  · intro hi
    simp only [Pat.scope, Py.getItemInt]
    by_cases h0 : 0 ≤ i
    · rw [if_pos h0]
      have : p.scopes.length ≤ i.toNat := by omega
      simp [Py.getItem, List.getElem?_eq_none this, Except.map]
    · rw [if_neg h0, if_neg (by omega)]
      rfl

/-- C26. `remove_scope(name)` removes exactly the earliest scope with that name, the others keep their order; it changes
nothing when there is none. -/
theorem removeScope_by_name (p : Pat) (h : PatReachable p) (n : Option Text) :
    (∀ l1 s l2, p.scopes = l1 ++ s :: l2 → s.name = n → (∀ x ∈ l1, x.name ≠ n) →
      ∃ p', p.removeScope (.name n) = .ok p' ∧ p'.scopes = l1 ++ l2) ∧
    ((∀ x ∈ p.scopes, x.name ≠ n) → p.removeScope (.name n) = .ok p) := by
  have hnd : (p.scopes.map Scope.uid).Nodup := (scopes_in_insertion_order p h).1.imp (fun h => Nat.ne_of_lt h)
  constructor
  · intro l1 s l2 hs hn hl
    have := ((scope_by_name p n).1 s).2 ⟨l1, l2, hs, hn, hl⟩
    refine ⟨{ p with scopes := l1 ++ l2 }, ?_, rfl⟩
    unfold Pat.removeScope
    rw [this]
    show Except.ok _ = _
    rw [removeFirst_split p.scopes hnd l1 l2 s hs]
  · intro hn
    have := (scope_by_name p n).2.1.2 hn
    unfold Pat.removeScope
    rw [this]; rfl

/-- C26. Renaming a scope keeps the scopes at their places and changes the name of that one only. -/
theorem rename_only (p : Pat) (uid : Nat) (n : Option Text) (i : Nat) :
    (p.rename uid n).scopes.length = p.scopes.length ∧
      ∀ s, p.scopes[i]? = some s → ∃ t, (p.rename uid n).scopes[i]? = some t ∧ t.uid = s.uid ∧
        (s.uid = uid → t.name = n) ∧ (s.uid ≠ uid → t = s) := by
  refine ⟨by simp [Pat.rename], fun s hs => ⟨if s.uid = uid then { s with name := n } else s, ?_, ?_, ?_, ?_⟩⟩
  · simp [Pat.rename, hs]
  · split <;> rfl
  · intro h; rw [if_pos h]
  · intro h; rw [if_neg h]

example : ((⟨[⟨0, some "a".toList⟩, ⟨1, some "b".toList⟩], 2⟩ : Pat).rename 1 (some "c".toList)).scopes =
    [⟨0, some "a".toList⟩, ⟨1, some "c".toList⟩] := by decide

/-- C26. A scope added and never removed stays, whatever happens: removing a scope by any key removes at most one
scope. -/
theorem removeScope_at_most_one (p p' : Pat) (h : PatReachable p) (k : ScopeKey) (hr : p.removeScope k = .ok p') :
    p' = p ∨ ∃ l1 s l2, p.scopes = l1 ++ s :: l2 ∧ p.scope k = .ok (some s) ∧ p'.scopes = l1 ++ l2 := by
  have hnd : (p.scopes.map Scope.uid).Nodup := (scopes_in_insertion_order p h).1.imp (fun h => Nat.ne_of_lt h)
  unfold Pat.removeScope at hr
  cases hs : p.scope k with
  | error e => rw [hs] at hr; cases hr
  | ok o =>
    rw [hs] at hr
    cases o with
    | none => cases hr; exact Or.inl rfl
    | some s =>
      cases hr
      right
      have hmem : s ∈ p.scopes := by
        cases k with
        | name n =>
          obtain ⟨l1, l2, e, _⟩ := ((scope_by_name p n).1 s).1 hs
          rw [e]; simp
        | index i =>
          simp only [Pat.scope, Py.getItemInt, Py.getItem] at hs
          split at hs
          · cases hg : p.scopes[i.toNat]? with
            | none => rw [hg] at hs; cases hs
            | some x => rw [hg] at hs; cases hs; exact List.mem_of_getElem? hg
          · split at hs
            · cases hg : p.scopes[(i + p.scopes.length).toNat]? with
              | none => rw [hg] at hs; cases hs
              | some x => rw [hg] at hs; cases hs; exact List.mem_of_getElem? hg
            · cases hs
      obtain ⟨l1, l2, e⟩ := List.append_of_mem hmem
      exact ⟨l1, s, l2, e, rfl, removeFirst_split p.scopes hnd l1 l2 s e⟩

/-- Two scopes with the same name, then the first is removed. -/
example : ∃ p, PatReachable p ∧ p.scope (.name (some "a".toList)) = .ok (some ⟨1, some "a".toList⟩) ∧
    p.scope (.index (-1)) = .ok (some ⟨2, some "b".toList⟩) :=
  ⟨⟨[⟨1, some "a".toList⟩, ⟨2, some "b".toList⟩], 3⟩,
    PatReachable.remove (.name (some "a".toList))
      ((PatReachable.init.add (some "a".toList)).add (some "a".toList) |>.add (some "b".toList)) (by decide +kernel),
    by decide +kernel, by decide +kernel⟩

/-! ## C27 -/

theorem reachable_inv {ok : Req → Prop} {strict : Prop} (hok : ∀ q, ok q → strict → q.NoHiddenSelf) {s : Sk}
    (h : Reachable ok s) : Inv strict s := by
  induction h with
  | init c =>
    refine ⟨⟨Graph.Reachable.init, ?_, ?_⟩, ?_, ?_, ?_, ?_, ?_, ?_, ?_, ?_, ?_, ?_, ?_, ?_⟩ <;>
      simp [latest, Dict.get?]
  | create q _ hp hq ih => exact (create_spec ih q hp (hok q hq)).1
  | @other s id _ ih =>
    refine ⟨ih.dag, ih.uids, ih.mem, ih.dict, ih.ids, ?_, ih.refs, ih.pts, ih.ptsDone, ih.vecDone, ih.vecMem, ih.expr,
      ih.line⟩
    intro o ho
    have := ih.idsLe o ho
    show o.id ≤ (Counter.newId s.counter id).1
    unfold Counter.newId Counter.increment Counter.set
    cases id with
    | none => simp only; omega
    | some i =>
      by_cases hi : i ≤ s.counter
      · simp [hi]; exact this
      · simp [hi]; omega
  | @eval s geom _ ih =>
    exact (evalLoop_inv geom s.ops s [] ih (by simp)).1

/-- C27. A key resolves to the latest operation registered under it: `get_operation(k)` returns operation `o` exactly
when `o` is an operation of the sketch whose id or point name is `k` and no later operation is registered under `k`; it
raises `KeyError` exactly when no operation is. -/
theorem getOperation_latest (s : Sk) (h : Reachable (fun _ => True) s) (k : Key) :
    (∀ u, s.getOperation (.key k) = .ok u ↔
      ∃ l1 o l2, s.ops = l1 ++ o :: l2 ∧ o.uid = u ∧ o.Registered k ∧ ∀ x ∈ l2, ¬ x.Registered k) ∧
    (∀ e, s.getOperation (.key k) = .error e ↔ e = .keyError ∧ ∀ x ∈ s.ops, ¬ x.Registered k) := by
  have inv : Inv False s := reachable_inv (by intro _ _ h; exact h.elim) h
  have hlat : ∀ o, latest s.ops k = some o ↔
      ∃ l1 l2, s.ops = l1 ++ o :: l2 ∧ o.Registered k ∧ ∀ x ∈ l2, ¬ x.Registered k := by
    intro o
    unfold latest
    rw [List.find?_eq_some_iff_append]
    constructor
    · rintro ⟨h1, l1, l2, h2, h3⟩
      refine ⟨l2.reverse, l1.reverse, ?_, by simpa using h1, ?_⟩
      · have := congrArg List.reverse h2
        simpa using this
      · intro x hx
        simpa using h3 x (by simpa using hx)
    · rintro ⟨l1, l2, h2, h1, h3⟩
      refine ⟨by simpa using h1, l2.reverse, l1.reverse, by rw [h2]; simp, ?_⟩
      intro x hx
      simpa using h3 x (by simpa using hx)
  constructor
  · intro u
    simp only [Sk.getOperation]
    rw [getItem_ok, inv.dict k, Option.map_eq_some_iff]
    constructor
    · rintro ⟨o, ho, rfl⟩
      obtain ⟨l1, l2, h1, h2, h3⟩ := (hlat o).1 ho
      exact ⟨l1, o, l2, h1, rfl, h2, h3⟩
    · rintro ⟨l1, o, l2, h1, rfl, h2, h3⟩
      exact ⟨o, (hlat o).2 ⟨l1, l2, h1, h2, h3⟩, rfl⟩
  · intro e
    simp only [Sk.getOperation]
    rw [getItem_error, inv.dict k, and_comm, Option.map_eq_none_iff]
    refine and_congr_right fun _ => ?_
    unfold latest
    rw [List.find?_eq_none]
    simp

/-- C27. An operation is only created when every reference resolves to an operation already in the sketch; it is then
appended, and its references are, in order, the operations designated by the arguments. -/
theorem create_ok (s : Sk) (h : Reachable (fun _ => True) s) (q : Req) (hq : q.Possible s) (u : Uid)
    (hc : (s.create q).2 = .ok u) :
    ∃ o, (s.create q).1.ops = s.ops ++ [o] ∧ o.uid = u ∧ o.kind = q.kind ∧ u ∉ s.ops.map Op.uid ∧
      List.Forall₂ (fun a r => s.getOperation a = .ok r) q.groups.flatten o.refs ∧
      ∀ r ∈ o.refs, ∃ o' ∈ s.ops, o'.uid = r := by
  have inv : Inv False s := reachable_inv (by intro _ _ h; exact h.elim) h
  obtain ⟨_, _, h3⟩ := create_spec inv q hq (by intro h; exact h.elim)
  obtain ⟨o, h1, h2, h4, _, _, h5, h6, _⟩ := h3 u hc
  refine ⟨o, h1, h2, h4, h5, ?_, ?_⟩
  · refine h6.imp ?_
    intro a p hap
    cases a with
    | obj v => simp only at hap; rw [hap.1]; rfl
    | key k =>
      simp only at hap
      obtain ⟨t, ht, rfl⟩ := hap
      simp only [Sk.getOperation]
      rw [getItem_ok, inv.dict k, ht]; rfl
  · intro r hr
    obtain ⟨a, _, hap⟩ := forall₂_mem_right h6 r hr
    cases a with
    | obj v =>
      simp only at hap
      obtain ⟨o', ho', e⟩ := List.mem_map.1 hap.2
      exact ⟨o', ho', by rw [e, hap.1]⟩
    | key k =>
      simp only at hap
      obtain ⟨t, ht, rfl⟩ := hap
      exact ⟨t, (latest_mem ht).1, rfl⟩

/-- C27. A failed creation leaves the operations and the names of the sketch unchanged. It fails with `NameError` when the
id given is not greater than all ids before, otherwise with `KeyError` because some reference is not an operation of the
sketch. -/
theorem create_error (s : Sk) (h : Reachable (fun _ => True) s) (q : Req) (hq : q.Possible s) (e : PyErr)
    (hc : (s.create q).2 = .error e) :
    (s.create q).1.ops = s.ops ∧ (∀ a, (s.create q).1.getOperation a = s.getOperation a) ∧
    ((e = .nameError ∧ ∃ i, q.id = some i ∧ i ≤ s.counter) ∨
     (e = .keyError ∧ ∃ a ∈ q.groups.flatten, (∃ k, a = .key k ∧ ∀ o ∈ s.ops, ¬ o.Registered k) ∨
       ∃ p, a = .obj p ∧ ∀ o ∈ s.ops, o.uid ≠ p)) := by
  have inv : Inv False s := reachable_inv (by intro _ _ h; exact h.elim) h
  obtain ⟨_, h2, _⟩ := create_spec inv q hq (by intro h; exact h.elim)
  obtain ⟨h1, h3, h4⟩ := h2 e hc
  refine ⟨h1, ?_, ?_⟩
  · intro a
    cases a with
    | obj v => rfl
    | key k => simp only [Sk.getOperation, h3]
  · rcases h4 with h4 | ⟨h4, g, hg, a, ha, hor⟩
    · exact Or.inl h4
    · refine Or.inr ⟨h4, a, List.mem_flatten.2 ⟨g, hg, ha⟩, ?_⟩
      rcases hor with ⟨k, rfl, hk⟩ | ⟨p, rfl, hp⟩
      · refine Or.inl ⟨k, rfl, ?_⟩
        unfold latest at hk
        rw [List.find?_eq_none] at hk
        intro o ho
        simpa using hk o (by simpa using ho)
      · refine Or.inr ⟨p, rfl, ?_⟩
        intro o ho e
        exact hp (List.mem_map.2 ⟨o, ho, e⟩)

/-- C27. A creation with an unused id and references that all resolve to operations of the sketch succeeds. -/
theorem create_succeeds (s : Sk) (h : Reachable (fun _ => True) s) (q : Req) (hq : q.Possible s)
    (hid : ∀ i, q.id = some i → s.counter < i)
    (hrefs : ∀ a ∈ q.groups.flatten, ∃ u ∈ s.ops.map Op.uid, s.getOperation a = .ok u) :
    ∃ u, (s.create q).2 = .ok u := by
  cases hc : (s.create q).2 with
  | ok u => exact ⟨u, rfl⟩
  | error e =>
    exfalso
    rcases (create_error s h q hq e hc).2.2 with ⟨_, i, hi, hle⟩ | ⟨_, a, ha, hor⟩
    · have := hid i hi; omega
    · obtain ⟨u, hu, hg⟩ := hrefs a ha
      rcases hor with ⟨k, rfl, hk⟩ | ⟨p, rfl, hp⟩
      · have := ((getOperation_latest s h k).2 .keyError).2 ⟨rfl, hk⟩
        rw [this] at hg; cases hg
      · cases hg
        obtain ⟨o, ho, e⟩ := List.mem_map.1 hu
        exact hp o ho e

/-- C27. The ids of the operations of a sketch are strictly increasing, so that an id designates the operation created
with it unless a later point is named after that id. -/
theorem id_resolves (s : Sk) (h : Reachable (fun _ => True) s) :
    (s.ops.map Op.id).Pairwise (· < ·) ∧
    ∀ l1 o l2, s.ops = l1 ++ o :: l2 → (∀ x ∈ l2, x.name ≠ some (.int o.id)) →
      s.getOperation (.key (.int o.id)) = .ok o.uid := by
  have inv : Inv False s := reachable_inv (by intro _ _ h; exact h.elim) h
  refine ⟨inv.ids, ?_⟩
  intro l1 o l2 e hx
  refine ((getOperation_latest s h _).1 o.uid).2 ⟨l1, o, l2, e, rfl, Or.inl rfl, ?_⟩
  intro x hx2 hreg
  rcases hreg with hreg | hreg
  · have hp := inv.ids
    rw [e, List.map_append, List.map_cons, List.pairwise_append] at hp
    have := (List.pairwise_cons.1 hp.2.1).1 x.id (List.mem_map_of_mem hx2)
    simp only [Key.int.injEq] at hreg
    omega
  · exact hx x hx2 hreg

/-- C27. A point named like an id hides the operation with that id. -/
theorem id_hidden_by_name : ∃ s, Reachable (fun _ => True) s ∧ (∃ o ∈ s.ops, o.id = 0 ∧ o.uid = 0) ∧
    s.getOperation (.key (.int 0)) = .ok 1 := by
  refine ⟨_, Reachable.create ⟨none, .point (.int 0), [], []⟩
    (Reachable.create ⟨none, .point (.str "A".toList), [], []⟩ (Reachable.init (-1)) ⟨by simp, by simp⟩ trivial)
    ⟨by simp, by simp⟩ trivial, ?_, ?_⟩ <;> decide +kernel

/-! ## C28 -/

/-- C28. Without restriction: every edge of the dependency graph goes from an operation to itself or to a later one
(`uid` is the order of creation, and the order of the operation list). -/
theorem edges_forward_weak (s : Sk) (h : Reachable (fun _ => True) s) :
    (s.ops.map Op.uid).Pairwise (· < ·) ∧ ∀ a b, a ∈ s.dag.anc b → a ≤ b := by
  have inv : Inv False s := reachable_inv (by intro _ _ h; exact h.elim) h
  exact ⟨inv.uids, fun a b hab => (inv.dag.edges a b hab).1⟩

/-- C28, for sketches in which no expression of a point hides a `Line_…` call mentioning that very point in a branch
that is not taken (see `eval_selfLoop` for what happens otherwise): after any history of creations and evaluations,
every edge of the dependency graph goes from an earlier operation to a later one. Missing: the sketches excluded, for
which it is false. -/
theorem edges_forward_partial (s : Sk) (h : Reachable Req.NoHiddenSelf s) :
    (s.ops.map Op.uid).Pairwise (· < ·) ∧ ∀ a b, a ∈ s.dag.anc b → a < b := by
  have inv : Inv True s := reachable_inv (fun _ h _ => h) h
  exact ⟨inv.uids, fun a b hab => (inv.dag.edges a b hab).2 trivial⟩

/-- C28, with the same restriction: `topological_sort` on the graph of the sketch never raises. The nodes and the
descendants may be enumerated in any order; `limit` is the recursion limit, greater than the number of operations. -/
theorem topologicalSort_never_raises_partial (s : Sk) (h : Reachable Req.NoHiddenSelf s) (limit : Nat)
    (order : List Graph.Ref) (desc' : Graph.Ref → List Graph.Ref) (horder : order.Perm s.dag.nodes.values)
    (hdesc : ∀ v, (desc' v).Perm (s.dag.desc v)) (hlimit : s.dag.nodes.length < limit) :
    ∃ l, Graph.topologicalSort limit desc' order = .ok l := by
  have inv : Inv True s := reachable_inv (fun _ h _ => h) h
  refine (Graph.topologicalSort_complete_partial s.dag inv.dag.reach limit order desc' horder hdesc hlimit).2 ?_
  rintro ⟨c, hc⟩
  have hlt : ∀ a b, Relation.TransGen (fun a b => a ∈ s.dag.anc b) a b → a < b := by
    intro a b hab
    induction hab with
    | single h1 => exact (inv.dag.edges _ _ h1).2 trivial
    | tail _ h1 ih => exact lt_trans ih ((inv.dag.edges _ _ h1).2 trivial)
  exact lt_irrefl _ (hlt c c hc)

/-- C28. Without restriction: `eval()` evaluates the operations in the order of the list, stopping at the first
exception; when none is raised all the operations are evaluated, each once. -/
theorem eval_order (s : Sk) (h : Reachable (fun _ => True) s) (geom : Uid → Geom) :
    (s.eval geom).2.1 <+: s.ops.map Op.uid ∧
    ((s.eval geom).2.2 = .ok () → (s.eval geom).2.1 = s.ops.map Op.uid) ∧
    (s.eval geom).1.ops.map Op.uid = s.ops.map Op.uid ∧
    (∀ a, (s.eval geom).1.getOperation a = s.getOperation a) := by
  have inv : Inv False s := reachable_inv (by intro _ _ h; exact h.elim) h
  obtain ⟨_, h2, h3, h4, h5, _⟩ := evalLoop_inv geom s.ops s [] inv (by simp)
  refine ⟨h2, h3, ?_, ?_⟩
  · unfold Sk.eval
    rw [List.nil_append] at h4
    generalize (s.evalLoop geom [] s.ops).1.ops = l at h4
    generalize s.ops = l0 at h4
    induction h4 with
    | nil => rfl
    | cons hs _ ih => simp only [List.map_cons]; rw [hs.uid, ih]
  · intro a
    cases a with
    | obj v => rfl
    | key k => simp only [Sk.getOperation, Sk.eval, h5]

/-- C28. What the evaluation of one operation changes: a line has no position and nothing changes; the positions of the other operations are kept;
after an exception that of the operation is kept too; without exception the operation has a position exactly when its geometry gives one, and
the operations it was constructed from have theirs. A point constructed from an operation without position raises `AttributeError`, before
its expressions are looked at. -/
theorem eval_positions (geom : Uid → Geom) (points : Dict Key Uid) (vec vec' : List Uid) (o o' : Op) (r : Except PyErr Unit)
    (h : evalOp geom points vec o = (o', vec', r)) :
    (o.kind = .line → o' = o ∧ vec' = vec ∧ r = .ok ()) ∧
    (∀ u, u ≠ o.uid → (u ∈ vec' ↔ u ∈ vec)) ∧
    (∀ e, r = .error e → vec' = vec) ∧
    (r = .ok () → o.kind ≠ .line → (o.uid ∈ vec' ↔ geom o.uid = .position) ∧ ∀ u ∈ o.refs, u ∈ vec) ∧
    (∀ n, o.kind = .point n → ∀ u ∈ o.refs, u ∉ vec → o' = o ∧ r = .error .attributeError) := by
  have hneed : ∀ v : List Uid, (needRefs v o = .ok () ∧ ∀ u ∈ o.refs, u ∈ v) ∨ (needRefs v o = .error .attributeError ∧ ∃ u ∈ o.refs, u ∉ v) := by
    intro v
    unfold needRefs
    by_cases hv : ∀ u ∈ o.refs, u ∈ v
    · left
      exact ⟨if_pos (by simpa using hv), hv⟩
    · right
      refine ⟨if_neg (by simpa using hv), ?_⟩
      push Not at hv
      exact hv
  have fin : ∀ (p : Op) (x : Op × List Uid × Except PyErr Unit),
      x = (match geom o.uid with
        | .position => (p, if o.uid ∈ vec then vec else vec ++ [o.uid], .ok ())
        | .null => (p, vec.filter (· ≠ o.uid), .ok ())
        | .raises e => (p, vec, .error e)) →
      (∀ u, u ≠ o.uid → (u ∈ x.2.1 ↔ u ∈ vec)) ∧ (∀ e, x.2.2 = .error e → x.2.1 = vec) ∧
      (x.2.2 = .ok () → (o.uid ∈ x.2.1 ↔ geom o.uid = .position)) := by
    intro p x hx
    cases hg : geom o.uid with
    | position =>
      rw [hg] at hx
      subst hx
      refine ⟨fun u hu => ?_, nofun, fun _ => ⟨fun _ => rfl, fun _ => ?_⟩⟩ <;> dsimp only <;> split
      · rfl
      · simp [hu]
      · assumption
      · simp
    | null =>
      rw [hg] at hx
      subst hx
      exact ⟨fun u hu => by simp [hu], nofun, fun _ => ⟨fun hm => by simp at hm, nofun⟩⟩
    | raises e =>
      rw [hg] at hx
      subst hx
      exact ⟨fun _ _ => Iff.rfl, fun _ _ => rfl, nofun⟩
  unfold evalOp at h
  dsimp only at h
  cases hk : o.kind with
  | line =>
    rw [hk] at h
    cases h
    exact ⟨fun _ => ⟨rfl, rfl, rfl⟩, fun _ _ => Iff.rfl, nofun, fun _ hl => absurd rfl hl, nofun⟩
  | point n =>
    rw [hk] at h
    dsimp only at h
    rcases hneed vec with ⟨h1, h2⟩ | ⟨h1, -⟩
    · rw [h1] at h
      dsimp only at h
      rcases he : evalExprs points vec o.exprs with ⟨es, e | ⟨⟩⟩
      · rw [he] at h
        cases h
        exact ⟨nofun, fun _ _ => Iff.rfl, fun _ _ => rfl, nofun, fun _ _ u hu hv => absurd (h2 u hu) hv⟩
      · rw [he] at h
        obtain ⟨f1, f2, f3⟩ := fin _ _ h.symm
        exact ⟨nofun, f1, f2, fun hr _ => ⟨f3 hr, h2⟩, fun _ _ u hu hv => absurd (h2 u hu) hv⟩
    · rw [h1] at h
      cases h
      exact ⟨nofun, fun _ _ => Iff.rfl, fun _ _ => rfl, nofun, fun _ _ _ _ _ => ⟨rfl, rfl⟩⟩
  | spline =>
    rw [hk] at h
    dsimp only at h
    rcases he : evalExprs points vec o.exprs with ⟨es, e | ⟨⟩⟩
    · rw [he] at h
      cases h
      exact ⟨nofun, fun _ _ => Iff.rfl, fun _ _ => rfl, nofun, nofun⟩
    · rw [he] at h
      dsimp only at h
      rcases hneed vec with ⟨h1, h2⟩ | ⟨h1, -⟩
      · rw [h1] at h
        obtain ⟨f1, f2, f3⟩ := fin _ _ h.symm
        exact ⟨nofun, f1, f2, fun hr _ => ⟨f3 hr, h2⟩, nofun⟩
      · rw [h1] at h
        cases h
        exact ⟨nofun, fun _ _ => Iff.rfl, fun _ _ => rfl, nofun, nofun⟩

/-- C28. Without restriction: the operations an operation was constructed from, and those whose position its expressions
have read, come before it in the list, hence are evaluated before it by any later `eval()`. -/
theorem dependencies_before (s : Sk) (h : Reachable (fun _ => True) s) (o : Op) (ho : o ∈ s.ops) :
    ∀ d, (d ∈ o.refs ∨ ∃ e ∈ o.exprs, d ∈ e.readFrom) → ∃ l1 x l2 l3, s.ops = l1 ++ x :: l2 ++ o :: l3 ∧ x.uid = d := by
  have inv : Inv False s := reachable_inv (by intro _ _ h; exact h.elim) h
  intro d hd
  have hlt : d < o.uid ∧ d ∈ s.ops.map Op.uid := by
    rcases hd with hd | ⟨e, he, hd⟩
    · exact inv.refs o ho d hd
    · have := (inv.expr o ho e he).read d hd
      exact ⟨this.2, this.1⟩
  obtain ⟨x, hx, rfl⟩ := List.mem_map.1 hlt.2
  obtain ⟨l1, l3, e⟩ := List.append_of_mem ho
  have hx1 : x ∈ l1 := by
    rw [e] at hx
    have hp := inv.uids
    rw [e, List.map_append, List.map_cons, List.pairwise_append] at hp
    rcases List.mem_append.1 hx with hx | hx
    · exact hx
    · rcases List.mem_cons.1 hx with rfl | hx
      · exact absurd hlt.1 (lt_irrefl _)
      · exact absurd hlt.1 (not_lt.2 ((List.pairwise_cons.1 hp.2.1).1 x.uid (List.mem_map_of_mem hx)).le)
  obtain ⟨m1, m2, e'⟩ := List.append_of_mem hx1
  exact ⟨m1, x, m2, l3, by rw [e, e'], rfl⟩

/-- C28. With the restriction, the operations mentioned in the expressions of an evaluated operation come before it
too. -/
theorem mentioned_before_partial (s : Sk) (h : Reachable Req.NoHiddenSelf s) (o : Op) (ho : o ∈ s.ops) (e : Expr)
    (he : e ∈ o.exprs) (hv : e.hasValue = true) :
    ∃ us, e.resolved = some us ∧ ∀ d ∈ us, d < o.uid ∧ ∃ x ∈ s.ops, x.uid = d := by
  have inv : Inv True s := reachable_inv (fun _ h _ => h) h
  have hi := inv.expr o ho e he
  obtain ⟨us, hus⟩ := hi.valRes hv
  refine ⟨us, hus, ?_⟩
  intro d hd
  obtain ⟨h1, h2, h3⟩ := hi.res us hus d hd
  refine ⟨lt_of_le_of_ne h2 ?_, List.mem_map.1 h1⟩
  intro e'
  obtain ⟨n, hn, hdep⟩ := h3 e'
  exact hi.selfVal hv n hn (hi.hidden trivial n hn hdep)

/-- C28. A created operation is connected to each of the operations it was constructed from. -/
theorem create_edges (s : Sk) (h : Reachable (fun _ => True) s) (q : Req) (hq : q.Possible s) (u : Uid)
    (hc : (s.create q).2 = .ok u) :
    ∀ o ∈ (s.create q).1.ops, o.uid = u → ∀ r ∈ o.refs, r ∈ (s.create q).1.dag.anc u := by
  have inv : Inv False s := reachable_inv (by intro _ _ h; exact h.elim) h
  obtain ⟨h1, _, h3⟩ := create_spec inv q hq (by intro h; exact h.elim)
  obtain ⟨o, g1, g2, _, _, _, g5, _, g7⟩ := h3 u hc
  intro o' ho' hu
  have : o' = o := uid_inj h1.uids ho' (by rw [g1]; simp) (by rw [hu, g2])
  rw [this]; exact g7

/-! ### Witnesses -/

/-- Points `A`, `B`, then `C` along the line from `A` to `B` with a distance mentioning `Line_A_B`. -/
def exampleReqs : List Req :=
  [⟨none, .point (.str "A".toList), [], [([], [], true)]⟩,
   ⟨none, .point (.str "B".toList), [[.key (.str "A".toList)]], [([], [], true)]⟩,
   ⟨none, .point (.str "C".toList), [[.key (.int 0)], [.obj 1]],
     [([.str "A".toList, .str "B".toList], [.str "A".toList, .str "B".toList], true)]⟩]

def exampleSketch : Sk := (exampleReqs.foldl (fun s q => (s.create q).1) ({} : Sk))

theorem exampleSketch_reachable : Reachable Req.NoHiddenSelf exampleSketch := by
  refine Reachable.create _ (Reachable.create _ (Reachable.create _ (Reachable.init (-1)) ⟨?_, ?_⟩ ?_) ⟨?_, ?_⟩ ?_)
    ⟨?_, ?_⟩ ?_
  · simp
  · simp
  · simp [Req.NoHiddenSelf]
  · simp
  · simp
  · simp [Req.NoHiddenSelf]
  · intro g hg u hu
    simp only [List.mem_cons, List.not_mem_nil, or_false] at hg
    rcases hg with rfl | rfl
    · simp at hu
    · simp only [List.mem_singleton, RefArg.obj.injEq] at hu
      subst hu
      left; decide +kernel
  · simp
  · intro n hn e he hmem
    simp only [List.mem_singleton] at he
    subst he
    exact hmem

example : (exampleSketch.eval fun _ => .position).2 = ([0, 1, 2], .ok ()) := by decide +kernel
example : (exampleSketch.eval fun _ => .position).1.dag.anc 2 = [0, 1] := by decide +kernel
example : exampleSketch.ops.map Op.refs = [[], [0], [0, 1]] := by decide +kernel

/-- The second point loses its position and the third one, which is constructed from it, raises. -/
example : (exampleSketch.eval fun u => if u = 1 then .null else .position).2 = ([0, 1], .error .attributeError) ∧
    (exampleSketch.eval fun u => if u = 1 then .null else .position).1.vec = [0] := by decide +kernel

/-- C28 fails without the restriction: a point `A` whose expression mentions `Line_A_A` in a branch that is not taken (for
instance `1 if True else Line_A_A`) is evaluated without error and becomes its own ancestor; `topological_sort` then
raises. -/
theorem eval_selfLoop : ∃ s, Reachable (fun _ => True) s ∧
    (s.eval fun _ => .position).2 = ([0], .ok ()) ∧
    0 ∈ (s.eval fun _ => .position).1.dag.anc 0 ∧
    Graph.topologicalSort 100 (s.eval fun _ => .position).1.dag.desc [0] = .error .notADag := by
  refine ⟨_, Reachable.create ⟨none, .point (.str "A".toList), [], [([.str "A".toList], [], true)]⟩
    (Reachable.init (-1)) ⟨by simp, by simp⟩ trivial, ?_, ?_, ?_⟩ <;> decide +kernel

end Patro.Pattern
