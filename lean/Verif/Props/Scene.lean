import Verif.Proof.Scene
import Mathlib.Algebra.Order.Field.Basic
import Mathlib.Data.List.Count
import Mathlib.Tactic.Linarith
import Mathlib.Data.List.TakeWhile
/-! # C64, C65 and following: scenes -/

namespace Patro.Scene

variable {K S G : Type} [Field K] [LinearOrder K]

/-! ## C64: drawing order -/

/-- The visible items with a given z value. -/
def layer (items : List (Item K S G)) (z : K) : List (Item K S G) := items.filter fun i => i.visible && decide (i.z = z)

theorem groupByZ_spec (items : List (Item K S G)) :
    (groupByZ items).keys.Nodup ∧ ∀ z, (groupByZ items).get? z = if layer items z = [] then none else some (layer items z) := by
  induction items using List.reverseRecOn with
  | nil => exact ⟨List.nodup_nil, fun z => rfl⟩
  | append_singleton l i ih =>
    unfold groupByZ at ih ⊢
    rw [List.foldl_append]
    simp only [List.foldl_cons, List.foldl_nil]
    generalize hm : List.foldl (fun zMap (item : Item K S G) =>
      if item.visible = true then Dict.set zMap item.z ((Dict.get? zMap item.z).getD [] ++ [item]) else zMap) [] l = m at ih
    have hl : ∀ z, layer (l ++ [i]) z = layer l z ++ if i.visible = true ∧ i.z = z then [i] else [] := by
      intro z
      simp only [layer, List.filter_append, List.filter_cons, List.filter_nil, Bool.and_eq_true, decide_eq_true_eq]
    by_cases hv : i.visible = true
    · rw [if_pos hv]
      constructor
      · rw [Dict.keys_set]
        split
        · exact ih.1
        · rename_i hk
          rw [List.nodup_append]
          refine ⟨ih.1, by simp, ?_⟩
          intro a ha b hb
          simp only [List.mem_singleton] at hb
          rw [hb]
          intro e
          exact hk (e ▸ ha)
      · intro z
        rw [Dict.get?_set, hl]
        by_cases hz : i.z = z
        · subst hz
          have e : (if i.visible = true ∧ i.z = i.z then [i] else []) = [i] := if_pos ⟨hv, rfl⟩
          have e2 : ¬layer l i.z ++ [i] = [] := by simp
          rw [if_pos rfl, e, ih.2, if_neg e2]
          by_cases hn : layer l i.z = []
          · rw [if_pos hn, hn]; rfl
          · rw [if_neg hn]; rfl
        · have e : (if i.visible = true ∧ i.z = z then [i] else []) = [] := if_neg (fun h => hz h.2)
          rw [if_neg hz, e, List.append_nil, ih.2]
    · rw [if_neg hv]
      refine ⟨ih.1, fun z => ?_⟩
      have e : (if i.visible = true ∧ i.z = z then [i] else []) = [] := if_neg (fun h => hv h.1)
      rw [hl, e, List.append_nil, ih.2]

theorem layers_filter (items : List (Item K S G)) (c : K) : ∀ ks : List K, ks.Nodup →
    ((ks.map (layer items)).flatten.filter fun i => decide (i.z = c)) = if c ∈ ks then layer items c else []
  | [], _ => by simp
  | k :: ks, h => by
    simp only [List.nodup_cons] at h
    rw [List.map_cons, List.flatten_cons, List.filter_append, layers_filter items c ks h.2]
    have : (layer items k).filter (fun i => decide (i.z = c)) = if k = c then layer items c else [] := by
      unfold layer
      rw [List.filter_filter]
      split
      · rename_i e
        subst e
        congr 1
        funext i
        by_cases hz : i.z = k <;> simp [hz]
      · rename_i e
        rw [List.filter_eq_nil_iff]
        rintro i - hi
        simp only [Bool.and_eq_true, decide_eq_true_eq] at hi
        exact e (hi.2.2.symm.trans hi.1)
    rw [this]
    by_cases hk : k = c
    · subst hk
      rw [if_pos rfl, if_neg h.1, List.append_nil, if_pos List.mem_cons_self]
    · rw [if_neg hk, List.nil_append]
      by_cases hc : c ∈ ks
      · rw [if_pos hc, if_pos (List.mem_cons_of_mem _ hc)]
      · rw [if_neg hc, if_neg]
        simp only [List.mem_cons, not_or]
        exact ⟨fun e => hk e.symm, hc⟩

/-- C64. `z_value_iter` never fails; it yields exactly the visible items, each as many times as it is in the scene, in the order of their z
values, and in the order of insertion among the items with the same z value. -/
theorem z_order (s : Scene K S G) :
    ∃ l, s.zValueIter = .ok l ∧ l.Perm (s.items.values.filter fun i => i.visible) ∧ l.Pairwise (fun i j => i.z ≤ j.z) ∧
      ∀ z, (l.filter fun i => decide (i.z = z)) = s.items.values.filter fun i => i.visible && decide (i.z = z) := by
  obtain ⟨h1, h2⟩ := groupByZ_spec s.items.values
  set ks := (groupByZ s.items.values).keys.mergeSort (fun a b => decide (a ≤ b)) with hks
  have hperm : ks.Perm (groupByZ s.items.values).keys := List.mergeSort_perm _ _
  have hnd : ks.Nodup := hperm.nodup_iff.2 h1
  have hsorted : ks.Pairwise (fun a b => a ≤ b) := by
    have := List.pairwise_mergeSort (le := fun a b : K => decide (a ≤ b)) (by simp only [decide_eq_true_eq]; exact fun a b c => le_trans)
      (by simp only [Bool.or_eq_true, decide_eq_true_eq]; exact fun a b => le_total a b) (groupByZ s.items.values).keys
    simpa only [decide_eq_true_eq] using this
  have hkey : ∀ k, k ∈ ks ↔ layer s.items.values k ≠ [] := by
    intro k
    rw [hperm.mem_iff, ← Dict.get?_isSome_iff, h2]
    split <;> simp_all
  have hgroups : ks.mapM (groupByZ s.items.values).getItem = .ok (ks.map (layer s.items.values)) := by
    apply IterTools.mapM_ok_of_forall
    intro k hk
    apply Dict.getItem_of_get?
    rw [h2, if_neg ((hkey k).1 hk)]
  have hfilter : ∀ z, ((ks.map (layer s.items.values)).flatten.filter fun i => decide (i.z = z)) =
      s.items.values.filter fun i => i.visible && decide (i.z = z) := by
    intro z
    rw [layers_filter _ _ _ hnd]
    split
    · rfl
    · rename_i hz
      rw [hkey, not_not] at hz
      exact hz.symm
  refine ⟨(ks.map (layer s.items.values)).flatten, ?_, ?_, ?_, hfilter⟩
  · unfold Scene.zValueIter
    dsimp only
    rw [hgroups]
    rfl
  · classical
    rw [List.perm_iff_count]
    intro i
    have hc : ∀ l : List (Item K S G), l.count i = (l.filter fun j => decide (j.z = i.z)).count i := fun l => by
      rw [List.count_filter (by simp)]
    refine (hc _).trans ((congrArg (List.count i) ?_).trans (hc _).symm)
    rw [hfilter, List.filter_filter]
    congr 1
    funext j
    exact Bool.and_comm _ _
  · rw [List.pairwise_flatten]
    constructor
    · intro l hl
      obtain ⟨k, -, rfl⟩ := List.mem_map.1 hl
      apply List.pairwise_of_forall_mem_list
      intro a ha b hb
      simp only [layer, List.mem_filter, Bool.and_eq_true, decide_eq_true_eq] at ha hb
      rw [ha.2.2, hb.2.2]
    · rw [List.pairwise_map]
      apply hsorted.imp
      intro k k' hkk a ha b hb
      simp only [layer, List.mem_filter, Bool.and_eq_true, decide_eq_true_eq] at ha hb
      rw [ha.2.2, hb.2.2]
      exact hkk

/-! ## The invariant -/

variable (sh : Shapes K S G)

theorem inBox {s : Scene K S G} (h : Inv sh s) (b : Box K) (hb : b.xInf ≤ b.xSup ∧ b.yInf ≤ b.ySup) :
    ∃ l, s.itemInBoundingBox sh b = .ok l ∧ (l.map Prod.fst).Nodup ∧ (∀ id i, (id, i) ∈ l → s.items.get? id = some i) ∧
      ∀ id, id ∈ l.map Prod.fst ↔ ∃ b', s.boxes.get? id = some b' ∧ b'.Meets b := by
  unfold Scene.itemInBoundingBox
  rw [if_pos hb]
  have hq := sh.query_perm s.rtree b
  have hq2 : (sh.query s.rtree b).Perm ((s.boxes.filter fun e => e.2.Meets b).map Prod.fst) := hq.trans ((h.perm.filter _).map _)
  have hmem : ∀ id, id ∈ sh.query s.rtree b ↔ ∃ b', s.boxes.get? id = some b' ∧ b'.Meets b := by
    intro id
    rw [hq2.mem_iff, List.mem_map]
    constructor
    · rintro ⟨⟨k, b'⟩, he, rfl⟩
      rw [List.mem_filter] at he
      exact ⟨b', (Dict.mem_iff_get? h.boxes_nodup).1 he.1, by simpa using he.2⟩
    · rintro ⟨b', h1, h2⟩
      exact ⟨(id, b'), List.mem_filter.2 ⟨Dict.mem_of_get? h1, by simpa using h2⟩, rfl⟩
  have hnd : (sh.query s.rtree b).Nodup := by
    rw [hq2.nodup_iff]
    exact ((List.filter_sublist (l := s.boxes)).map Prod.fst).nodup h.boxes_nodup
  have hloop : ∀ ids : List Nat, (∀ id ∈ ids, ∃ i, s.items.get? id = some i) →
      ∃ l, (ids.mapM fun id => do return (id, ← s.items.getItem id) : Except PyErr (List (Nat × Item K S G))) = .ok l ∧
        l.map Prod.fst = ids ∧ ∀ id i, (id, i) ∈ l → s.items.get? id = some i := by
    intro ids
    induction ids with
    | nil => exact fun _ => ⟨[], rfl, rfl, by simp⟩
    | cons id ids ih =>
      intro hi
      obtain ⟨i, h1⟩ := hi id List.mem_cons_self
      obtain ⟨l, h2, h3, h4⟩ := ih (fun k hk => hi k (List.mem_cons_of_mem _ hk))
      refine ⟨(id, i) :: l, ?_, by simp [h3], ?_⟩
      · rw [List.mapM_cons, h2, Dict.getItem_of_get? h1]
        rfl
      · intro k j hm
        rcases List.mem_cons.1 hm with e | hm
        · cases e; exact h1
        · exact h4 k j hm
  obtain ⟨l, h1, h2, h3⟩ := hloop (sh.query s.rtree b) (fun id hid => by
    obtain ⟨b', hb', -⟩ := (hmem id).1 hid
    have := h.sub id (Dict.mem_keys_of_get? hb')
    rw [← Dict.get?_isSome_iff, Option.isSome_iff_exists] at this
    exact this)
  exact ⟨l, h1, by rw [h2]; exact hnd, h3, fun id => by rw [h2]; exact hmem id⟩

theorem Inv.unselect {s : Scene K S G} (h : Inv sh s) : ∀ ids : List Nat,
    Inv sh (ids.foldl (init := s) fun s id => s.modify id fun i => { i with selected := false }) := by
  intro ids
  induction ids generalizing s with
  | nil => exact h
  | cons id ids ih => exact ih (h.modify sh id _ (fun i hi => ⟨h.ok id i hi, rfl⟩))

theorem Inv.addItem {s : Scene K S G} (h : Inv sh s) (id : Nat) (shape : S) (ps : List (Position K)) (ud : Option Nat)
    (hid : id ∉ s.items.keys) : Inv sh (s.addItem id shape ps ud) := by
  set item : Item K S G := { shape, positions := ps, userData := ud, z := 0 } with hitem
  have hset : s.items.set id item = s.items ++ [(id, item)] := Dict.set_of_not_mem item hid
  have hwd : ∀ u, withData (s.items.set id item) u = withData s.items u ++ if ud = some u then [id] else [] := by
    intro u
    rw [hset]
    simp only [withData, List.filter_append, List.map_append, List.filter_cons, List.filter_nil, hitem]
    by_cases hu : ud = some u <;> simp [hu]
  have hitems : (s.addItem id shape ps ud).items = s.items.set id item := by
    unfold Scene.addItem
    cases ud <;> rfl
  have hboxes : (s.addItem id shape ps ud).boxes = s.boxes := by
    unfold Scene.addItem
    cases ud <;> rfl
  have hrtree : (s.addItem id shape ps ud).rtree = s.rtree := by
    unfold Scene.addItem
    cases ud <;> rfl
  refine ⟨?_, by rw [hboxes]; exact h.boxes_nodup, by rw [hboxes, hrtree]; exact h.perm, ?_, ?_, ?_⟩
  · rw [hitems, hset]
    simp only [Dict.keys, List.map_append, List.map_cons, List.map_nil]
    rw [List.nodup_append]
    refine ⟨h.items_nodup, by simp, ?_⟩
    intro a ha b hb
    simp only [List.mem_singleton] at hb
    rw [hb]
    rintro rfl
    exact hid ha
  · intro k hk
    rw [hboxes] at hk
    rw [hitems, hset]
    simp only [Dict.keys, List.map_append, List.mem_append]
    exact Or.inl (h.sub k hk)
  · intro k i hm
    rw [hitems, hset, List.mem_append] at hm
    rcases hm with hm | hm
    · exact h.ok k i hm
    · simp only [List.mem_singleton, Prod.mk.injEq] at hm
      rw [hm.2]
      refine ⟨fun b hb => ?_, fun hd => ?_⟩
      · simp [hitem] at hb
      · simp [hitem] at hd
  · intro u
    rw [hitems, hwd]
    unfold Scene.addItem
    cases ud with
    | none => simpa using h.data u
    | some v =>
      dsimp only
      rw [Dict.get?_set, h.data v]
      by_cases hu : v = u
      · subst hu
        rw [if_pos rfl, if_pos rfl]
        split <;> simp_all
      · have e : (if some v = some u then [id] else []) = [] := if_neg (fun e => hu (by cases e; rfl))
        rw [if_neg hu, e, List.append_nil]
        exact h.data u

/-- The invariant holds after any history. -/
theorem inv {s : Scene K S G} (h : Reachable sh s) : Inv sh s := by
  induction h with
  | empty t => exact ⟨List.nodup_nil, List.nodup_nil, List.Perm.nil, fun _ h => by simp [Dict.keys] at h, fun _ _ h => by simp at h, fun u => rfl⟩
  | step h st ih =>
    cases st with
    | addItem id shape ps ud fresh => exact ih.addItem sh id shape ps ud fresh
    | removeItem id => exact ih
    | setZ id z => exact ih.modify sh id _ (fun i hi => ⟨ih.ok id i hi, rfl⟩)
    | setVisible id b => exact ih.modify sh id _ (fun i hi => ⟨ih.ok id i hi, rfl⟩)
    | setSelected id b => exact ih.modify sh id _ (fun i hi => ⟨ih.ok id i hi, rfl⟩)
    | setDirty id b =>
      refine ih.modify sh id _ (fun i hi => ?_)
      have := ih.ok id i hi
      unfold Item.setDirty
      split
      · exact ⟨⟨this.1, fun h => by cases h⟩, rfl⟩
      · exact ⟨⟨fun b h => (by cases h), fun h => by cases h⟩, rfl⟩
    | unselectItems => exact ih.unselect sh _
    | readGeometry id => exact ih.modify sh id _ (fun i hi => ⟨(itemGeometry_ok sh _ i (ih.ok id i hi)).1, (itemGeometry_ok sh _ i (ih.ok id i hi)).2.2.2.1⟩)
    | readBox id => exact ih.modify sh id _ (fun i hi => ⟨(itemBox_ok sh _ i (ih.ok id i hi)).1, (itemBox_ok sh _ i (ih.ok id i hi)).2.1.2.2.1⟩)
    | readDistance id p =>
      exact ih.modify sh id _ (fun i hi => ⟨(itemDistance_ok sh _ i p (ih.ok id i hi)).1, (itemDistance_ok sh _ i p (ih.ok id i hi)).2.2.2.1⟩)
    | addCoordinate n p => exact ⟨ih.1, ih.2, ih.3, ih.4, ih.5, ih.6⟩
    | removeCoordinate _ n h =>
      unfold Scene.removeCoordinate at h
      split at h
      · cases h; exact ⟨ih.1, ih.2, ih.3, ih.4, ih.5, ih.6⟩
      · cases h
    | updateRtree =>
      exact (updateLoop_spec sh _ ih ih.items_nodup (fun id i hm => (Dict.mem_iff_get? ih.items_nodup).1 hm)).1
    | itemAt p r =>
      unfold Scene.itemAt
      cases hb : Scene.itemInBoundingBox sh _ (⟨p.x - r, p.x + r, p.y - r, p.y + r⟩ : Box K) with
      | error e => exact ih
      | ok l =>
        have hv : p.x - r ≤ p.x + r ∧ p.y - r ≤ p.y + r := by
          by_contra hv
          unfold Scene.itemInBoundingBox at hb
          rw [if_neg hv] at hb
          cases hb
        obtain ⟨l', e1, e2, e3, -⟩ := inBox sh ih ⟨p.x - r, p.x + r, p.y - r, p.y + r⟩ hv
        rw [hb] at e1
        cases e1
        have := (pickLoop_spec sh p r l ih e2 e3).1
        dsimp only
        cases hr : Scene.pickLoop sh _ p r l with
        | mk q t =>
          rw [hr] at this
          cases q <;> exact this

/-! ## C65: picking -/

/-- What `itemAt` returns and when it fails, for a scene with the invariant. -/
theorem itemAt_spec {s : Scene K S G} (h : Inv sh s) (p : Vec K) (r : K) (hr : p.x - r ≤ p.x + r ∧ p.y - r ≤ p.y + r) :
    (∀ l s', s.itemAt sh p r = (.ok l, s') → l.Pairwise (fun a b => a.1 ≤ b.1) ∧ (l.map Prod.snd).Nodup ∧
      ∀ d id, (d, id) ∈ l ↔ ∃ b i, (id, b) ∈ s.rtree ∧ b.Meets (square p r) ∧ s.items.get? id = some i ∧
        (s.itemDistance sh i p).1 = .ok (some d) ∧ d ≤ r) ∧
    ((∃ l s', s.itemAt sh p r = (.ok l, s')) ↔ ∀ id b i e, (id, b) ∈ s.rtree → b.Meets (square p r) → s.items.get? id = some i →
      (s.itemDistance sh i p).1 = .error e → e = .notImplementedError) := by
  obtain ⟨c, e1, e2, e3, e4⟩ := inBox sh h (square p r) hr
  obtain ⟨-, -, -, -, q1, q2⟩ := pickLoop_spec sh p r c h e2 e3
  have hat : s.itemAt sh p r = match s.pickLoop sh p r c with
      | (.error e, s) => (.error e, s)
      | (.ok l, s) => (.ok (l.mergeSort fun a b => decide (a.1 ≤ b.1)), s) := by
    unfold Scene.itemAt
    have : s.itemInBoundingBox sh ⟨p.x - r, p.x + r, p.y - r, p.y + r⟩ = .ok c := e1
    rw [this]
    rfl
  have hrt : ∀ id b, (id, b) ∈ s.rtree ↔ s.boxes.get? id = some b := fun id b => by
    rw [h.perm.mem_iff, Dict.mem_iff_get? h.boxes_nodup]
  have hc : ∀ id i, (id, i) ∈ c ↔ ∃ b, (id, b) ∈ s.rtree ∧ b.Meets (square p r) ∧ s.items.get? id = some i := by
    intro id i
    constructor
    · intro hm
      obtain ⟨b, h1, h2⟩ := (e4 id).1 (List.mem_map_of_mem (f := Prod.fst) hm)
      exact ⟨b, (hrt id b).2 h1, h2, e3 id i hm⟩
    · rintro ⟨b, h1, h2, h3⟩
      obtain ⟨⟨k, j⟩, hm, rfl⟩ := List.mem_map.1 ((e4 id).2 ⟨b, (hrt id b).1 h1, h2⟩)
      have := e3 _ _ hm
      rw [this] at h3
      cases h3
      exact hm
  constructor
  · intro l s' hl
    rw [hat] at hl
    cases hp : s.pickLoop sh p r c with
    | mk q t =>
      rw [hp] at hl
      cases q with
      | error e => cases hl
      | ok x =>
        simp only [Prod.mk.injEq, Except.ok.injEq] at hl
        obtain ⟨rfl, -⟩ := hl
        have hx := q1 x (by rw [hp])
        have hperm : (x.mergeSort fun a b => decide (a.1 ≤ b.1)).Perm x := List.mergeSort_perm _ _
        refine ⟨?_, ?_, ?_⟩
        · have := List.pairwise_mergeSort (le := fun a b : K × Nat => decide (a.1 ≤ b.1))
            (by simp only [decide_eq_true_eq]; exact fun a b c => le_trans)
            (by simp only [Bool.or_eq_true, decide_eq_true_eq]; exact fun a b => le_total a.1 b.1) x
          simpa only [decide_eq_true_eq] using this
        · rw [(hperm.map _).nodup_iff, hx]
          have key : ∀ c : List (Nat × Item K S G), List.Sublist ((c.filterMap (picked sh s p r)).map Prod.snd) (c.map Prod.fst) := by
            intro c
            induction c with
            | nil => exact List.Sublist.slnil
            | cons e c ih =>
              rw [List.filterMap_cons]
              cases he : picked sh s p r e with
              | none => exact ih.cons _
              | some y =>
                have : y.2 = e.1 := by
                  unfold picked at he
                  split at he
                  · split at he
                    · cases he; rfl
                    · cases he
                  · cases he
                simp only [List.map_cons, this]
                exact ih.cons_cons _
          exact (key c).nodup e2
        · intro d id
          rw [hperm.mem_iff, hx, List.mem_filterMap]
          constructor
          · rintro ⟨⟨k, i⟩, hm, he⟩
            unfold picked at he
            split at he
            · rename_i d' hd
              split at he
              · rename_i hle
                cases he
                obtain ⟨b, h1, h2, h3⟩ := (hc k i).1 hm
                exact ⟨b, i, h1, h2, h3, hd, hle⟩
              · cases he
            · cases he
          · rintro ⟨b, i, h1, h2, h3, h4, h5⟩
            refine ⟨(id, i), (hc id i).2 ⟨b, h1, h2, h3⟩, ?_⟩
            unfold picked
            rw [h4]
            exact if_pos h5
  · rw [hat]
    have : (∃ l s', (match s.pickLoop sh p r c with
        | (.error e, s) => ((.error e, s) : Except PyErr (List (K × Nat)) × Scene K S G)
        | (.ok l, s) => (.ok (l.mergeSort fun a b => decide (a.1 ≤ b.1)), s)) = (.ok l, s')) ↔ ∃ x, (s.pickLoop sh p r c).1 = .ok x := by
      cases s.pickLoop sh p r c with
      | mk q t => cases q <;> simp
    rw [this, q2]
    constructor
    · intro hh id b i e h1 h2 h3 h4
      exact hh id i ((hc id i).2 ⟨b, h1, h2, h3⟩) e h4
    · intro hh id i hm e he
      obtain ⟨b, h1, h2, h3⟩ := (hc id i).1 hm
      exact hh id b i e h1 h2 h3 he

variable [IsStrictOrderedRing K]

omit [LinearOrder K] [IsStrictOrderedRing K] in
theorem square_eq (p : Vec K) (r : K) : (square p r) = ⟨p.x - r, p.x + r, p.y - r, p.y + r⟩ := rfl

/-- C65. Picking, after any history and for any radius that is not negative: the result is sorted by distance, an item occurs at most once,
and it occurs with its distance exactly if its indexed box meets the square around the position and this distance is at most the radius.
The call succeeds exactly if no candidate raises an exception other than `NotImplementedError`. -/
theorem pick {s : Scene K S G} (h : Reachable sh s) (p : Vec K) (r : K) (hr : 0 ≤ r) :
    (∀ l s', s.itemAt sh p r = (.ok l, s') → l.Pairwise (fun a b => a.1 ≤ b.1) ∧ (l.map Prod.snd).Nodup ∧
      ∀ d id, (d, id) ∈ l ↔ ∃ b i, (id, b) ∈ s.rtree ∧ b.Meets (square p r) ∧ s.items.get? id = some i ∧
        (s.itemDistance sh i p).1 = .ok (some d) ∧ d ≤ r) ∧
    ((∃ l s', s.itemAt sh p r = (.ok l, s')) ↔ ∀ id b i e, (id, b) ∈ s.rtree → b.Meets (square p r) → s.items.get? id = some i →
      (s.itemDistance sh i p).1 = .error e → e = .notImplementedError) :=
  itemAt_spec sh (inv sh h) p r ⟨by linarith, by linarith⟩

/-- C65. A negative radius is rejected. -/
theorem pick_negative (s : Scene K S G) (p : Vec K) (r : K) (hr : r < 0) : s.itemAt sh p r = (.error .rtreeError, s) := by
  unfold Scene.itemAt Scene.itemInBoundingBox
  rw [if_neg (by intro h; have := h.1; dsimp only at this; linarith)]

omit [IsStrictOrderedRing K] in
theorem itemBox_geometry {s : Scene K S G} {i : Item K S G} (h : i.Ok sh) {b : Box K} (hb : (s.itemBox sh i).1 = .ok b) :
    ∃ g, (s.itemGeometry sh i).1 = .ok g ∧ (s.itemBox sh i).2.geometry = some g ∧ sh.boundingBox g = .ok b := by
  obtain ⟨h1, -, h3⟩ := itemBox_ok sh s i h
  obtain ⟨g, h4, h5⟩ := h1.1 b (h3 b hb)
  refine ⟨g, ?_, h4, h5⟩
  unfold Scene.itemBox at hb h4
  cases hib : i.boundingBox with
  | some b' =>
    rw [hib] at h4
    unfold Scene.itemGeometry
    dsimp only at h4
    rw [h4]
  | none =>
    rw [hib] at hb h4
    dsimp only at hb h4
    rcases itemGeometry_cases sh s i with ⟨e, he, -⟩ | ⟨g', i', he, -, hg', -⟩
    · rw [he] at hb; cases hb
    · rw [he] at hb h4 ⊢
      dsimp only at hb h4 ⊢
      cases hbb : sh.boundingBox g' with
      | error e => rw [hbb] at hb; cases hb
      | ok b'' =>
        rw [hbb] at h4
        dsimp only at h4
        rw [hg'] at h4
        cases h4
        rfl

omit [Field K] [IsStrictOrderedRing K] in
/-- C65. Two boxes meet exactly if they have a common point. -/
theorem meets_iff (a b : Box K) (ha : a.xInf ≤ a.xSup ∧ a.yInf ≤ a.ySup) (hb : b.xInf ≤ b.xSup ∧ b.yInf ≤ b.ySup) :
    a.Meets b ↔ ∃ p : Vec K, (a.xInf ≤ p.x ∧ p.x ≤ a.xSup ∧ a.yInf ≤ p.y ∧ p.y ≤ a.ySup) ∧
      b.xInf ≤ p.x ∧ p.x ≤ b.xSup ∧ b.yInf ≤ p.y ∧ p.y ≤ b.ySup := by
  unfold Box.Meets
  constructor
  · rintro ⟨h1, h2, h3, h4⟩
    exact ⟨⟨max a.xInf b.xInf, max a.yInf b.yInf⟩, ⟨le_max_left _ _, max_le ha.1 h2, le_max_left _ _, max_le ha.2 h4⟩,
      le_max_right _ _, max_le h1 hb.1, le_max_right _ _, max_le h3 hb.2⟩
  · rintro ⟨p, ⟨h1, h2, h3, h4⟩, h5, h6, h7, h8⟩
    exact ⟨h1.trans h6, h5.trans h2, h3.trans h8, h7.trans h4⟩

/-- C65. If bounding boxes bound their shapes, picking finds every item within the radius: an item that was dirty when the index was
updated is picked exactly if the distance of its geometry to the position is at most the radius. -/
theorem update_then_pick (hs : Sound sh) {s : Scene K S G} (h : Reachable sh s) (hu : (s.updateRtree sh).1 = .ok ())
    (id : Nat) (i : Item K S G) (hi : s.items.get? id = some i) (hd : i.dirty = true) (p : Vec K) (r : K) (hr : 0 ≤ r)
    (l : List (K × Nat)) (s' : Scene K S G) (hl : (s.updateRtree sh).2.itemAt sh p r = (.ok l, s')) :
    ∃ g, (s.itemGeometry sh i).1 = .ok g ∧ ∀ d, (d, id) ∈ l ↔ sh.distance g p = .ok (some d) ∧ d ≤ r := by
  have hinv := inv sh h
  have hmem : (id, i) ∈ s.items := Dict.mem_of_get? hi
  obtain ⟨u1, u2, -, -, u5⟩ := updateLoop_spec sh s.items hinv hinv.items_nodup (fun k j hm => (Dict.mem_iff_get? hinv.items_nodup).1 hm)
  obtain ⟨v1, b, v2, v3⟩ := (u5 hu id i hmem).1 hd
  obtain ⟨g, g1, g2, g3⟩ := itemBox_geometry sh (hinv.ok id i hmem) v2
  refine ⟨g, g1, fun d => ?_⟩
  have hdist : ((s.updateRtree sh).2.itemDistance sh (s.itemBox sh i).2 p).1 = sh.distance g p := by
    unfold Scene.itemDistance Scene.itemGeometry
    rw [g2]
  have hreach : Reachable sh (s.updateRtree sh).2 := h.step (Step.updateRtree s)
  rw [((pick sh hreach p r hr).1 l s' hl).2.2 d id]
  constructor
  · rintro ⟨b', j, -, -, h3, h4, h5⟩
    have : some (s.itemBox sh i).2 = some j := v1.symm.trans h3
    cases this
    rw [hdist] at h4
    exact ⟨h4, h5⟩
  · rintro ⟨h4, h5⟩
    refine ⟨b, (s.itemBox sh i).2, ?_, hs g b p d r g3 h4 h5, v1, hdist.trans h4, h5⟩
    exact u1.perm.mem_iff.2 ((Dict.mem_iff_get? u1.boxes_nodup).2 v3)

/-! ## C117: the index -/

omit [IsStrictOrderedRing K] in
/-- C117. After any history the index and the table of boxes have the same entries, an item has at most one entry, and only items of the
scene have one. -/
theorem index_consistent {s : Scene K S G} (h : Reachable sh s) :
    s.rtree.Perm s.boxes ∧ (s.rtree.map Prod.fst).Nodup ∧ (∀ id b, (id, b) ∈ s.rtree → ∃ i, s.items.get? id = some i) ∧
      s.items.keys.Nodup := by
  have hinv := inv sh h
  refine ⟨hinv.perm, ((hinv.perm.map _).nodup_iff).2 hinv.boxes_nodup, fun id b hm => ?_, hinv.items_nodup⟩
  have hm' := hinv.perm.mem_iff.1 hm
  have := hinv.sub id (List.mem_map_of_mem (f := Prod.fst) hm')
  rwa [← Dict.get?_isSome_iff, Option.isSome_iff_exists] at this

omit [IsStrictOrderedRing K] in
/-- C117. A successful update leaves exactly one entry for each item that was dirty, with the box of its geometry, and does not change the
entries of the other items. -/
theorem update_index {s : Scene K S G} (h : Reachable sh s) (hu : (s.updateRtree sh).1 = .ok ()) (id : Nat) (i : Item K S G)
    (hi : s.items.get? id = some i) :
    (i.dirty = true → ∃ g b, (s.itemGeometry sh i).1 = .ok g ∧ sh.boundingBox g = .ok b ∧
      ∀ b', (id, b') ∈ (s.updateRtree sh).2.rtree ↔ b' = b) ∧
    (i.dirty = false → ∀ b', (id, b') ∈ (s.updateRtree sh).2.rtree ↔ (id, b') ∈ s.rtree) := by
  have hinv := inv sh h
  have hmem : (id, i) ∈ s.items := Dict.mem_of_get? hi
  obtain ⟨u1, u2, -, -, u5⟩ := updateLoop_spec sh s.items hinv hinv.items_nodup (fun k j hm => (Dict.mem_iff_get? hinv.items_nodup).1 hm)
  have hrt : ∀ b', (id, b') ∈ (s.updateRtree sh).2.rtree ↔ (s.updateRtree sh).2.boxes.get? id = some b' := fun b' => by
    unfold Scene.updateRtree
    rw [u1.perm.mem_iff, Dict.mem_iff_get? u1.boxes_nodup]
  refine ⟨fun hd => ?_, fun hd b' => ?_⟩
  · obtain ⟨v1, b, v2, v3⟩ := (u5 hu id i hmem).1 hd
    obtain ⟨g, g1, g2, g3⟩ := itemBox_geometry sh (hinv.ok id i hmem) v2
    refine ⟨g, b, g1, g3, fun b' => ?_⟩
    rw [hrt]
    constructor
    · intro e
      have : some b = some b' := v3.symm.trans e
      cases this; rfl
    · rintro rfl; exact v3
  · obtain ⟨-, v2⟩ := (u5 hu id i hmem).2 hd
    rw [hrt, hinv.perm.mem_iff, Dict.mem_iff_get? hinv.boxes_nodup]
    unfold Scene.updateRtree
    rw [v2]

omit [IsStrictOrderedRing K] in
theorem updateRtreeItem_frame (s : Scene K S G) (id : Nat) (i : Item K S G) : SameFrame s (s.updateRtreeItem sh id i).2 := by
  unfold Scene.updateRtreeItem
  have h1 : SameFrame s (s.popBox id) := by
    unfold Scene.popBox
    cases s.boxes.get? id <;> exact ⟨rfl, rfl⟩
  refine h1.trans ?_
  generalize s.popBox id = t
  unfold Scene.insertBox
  rcases t.itemBox sh i with ⟨x, i'⟩
  cases x with
  | error e => exact ⟨rfl, rfl⟩
  | ok b => dsimp only; split <;> exact ⟨rfl, rfl⟩

omit [IsStrictOrderedRing K] in
theorem updateRtreeItem_iff (s : Scene K S G) (id : Nat) (i : Item K S G) : (s.updateRtreeItem sh id i).1 = .ok () ↔
    ∃ b, (s.itemBox sh i).1 = .ok b ∧ b.xInf ≤ b.xSup ∧ b.yInf ≤ b.ySup := by
  unfold Scene.updateRtreeItem
  have h1 : SameFrame s (s.popBox id) := by
    unfold Scene.popBox
    cases s.boxes.get? id <;> exact ⟨rfl, rfl⟩
  rw [← h1.box]
  generalize s.popBox id = t
  unfold Scene.insertBox
  rcases t.itemBox sh i with ⟨x, i'⟩
  cases x with
  | error e => simp
  | ok b =>
    dsimp only
    split
    · next h => exact ⟨fun _ => ⟨b, rfl, h⟩, fun _ => rfl⟩
    · next h =>
      constructor
      · intro e; cases e
      · rintro ⟨b', e, hb⟩; cases e; exact absurd hb h

omit [IsStrictOrderedRing K] in
theorem updateLoop_iff : ∀ (l : List (Nat × Item K S G)) (s : Scene K S G), (s.updateLoop sh l).1 = .ok () ↔
    ∀ e ∈ l, e.2.dirty = true → ∃ b, (s.itemBox sh e.2).1 = .ok b ∧ b.xInf ≤ b.xSup ∧ b.yInf ≤ b.ySup
  | [], s => by simp [Scene.updateLoop]
  | (id, i) :: l, s => by
    unfold Scene.updateLoop
    cases hd : i.dirty with
    | false =>
      rw [if_neg (by simp), updateLoop_iff l s]
      simp [hd]
    | true =>
      rw [if_pos rfl, List.forall_mem_cons]
      have h1 := updateRtreeItem_iff sh s id i
      have h2 := updateRtreeItem_frame sh s id i
      generalize s.updateRtreeItem sh id i = r at h1 h2 ⊢
      obtain ⟨x, t⟩ := r
      cases x with
      | error e =>
        dsimp only at h1 ⊢
        constructor
        · intro h; cases h
        · intro h; exact h1.2 (h.1 hd)
      | ok u =>
        dsimp only at h1 h2 ⊢
        rw [updateLoop_iff l t]
        simp only [SameFrame.box sh h2]
        exact ⟨fun h => ⟨fun _ => h1.1 rfl, h⟩, fun h => h.2⟩

omit [IsStrictOrderedRing K] in
/-- C117. An update succeeds exactly if each item that is dirty has a box, whose bounds are in order. -/
theorem update_succeeds (s : Scene K S G) : (s.updateRtree sh).1 = .ok () ↔
    ∀ id i, (id, i) ∈ s.items → i.dirty = true → ∃ b, (s.itemBox sh i).1 = .ok b ∧ b.xInf ≤ b.xSup ∧ b.yInf ≤ b.ySup := by
  unfold Scene.updateRtree
  rw [updateLoop_iff]
  exact ⟨fun h id i hm => h _ hm, fun h e hm => h e.1 e.2 hm⟩

/-! ## C118: dirty items -/

omit [IsStrictOrderedRing K] in
/-- C118. Setting `dirty` to false clears the caches: the geometry is computed again with the current coordinates. -/
theorem dirty_false_recomputes (s : Scene K S G) (i : Item K S G) :
    (i.setDirty false).dirty = true ∧
      (s.itemGeometry sh (i.setDirty false)).1 = (i.positions.mapM s.castPosition >>= sh.geometry i.shape) := by
  refine ⟨rfl, ?_⟩
  unfold Scene.itemGeometry Item.setDirty
  simp only [Bool.false_eq_true, if_false]
  generalize (i.positions.mapM s.castPosition >>= sh.geometry i.shape) = x
  cases x <;> rfl

omit [IsStrictOrderedRing K] in
/-- C118. Setting `dirty` to true does not: whatever the coordinates are now, a geometry that was computed before is used again, and the
item stays dirty for ever. -/
theorem dirty_true_wrong (s : Scene K S G) (i : Item K S G) (g : G) (hg : i.geometry = some g) :
    s.itemGeometry sh (i.setDirty true) = (.ok g, i.setDirty true) ∧ (i.setDirty true).dirty = true := by
  refine ⟨?_, rfl⟩
  unfold Scene.itemGeometry
  have : (i.setDirty true).geometry = some g := hg
  rw [this]

omit [IsStrictOrderedRing K] in
/-- C118. In a scene: an item which is already in the index and is marked as dirty after a coordinate was moved keeps its old box at the
next update, whatever the new position is. -/
theorem moved_item_wrong {s : Scene K S G} (h : Reachable sh s) (id : Nat) (i : Item K S G) (b : Box K) (hi : s.items.get? id = some i)
    (hb : i.boundingBox = some b) (n : String) (q : Vec K) (s' : Scene K S G)
    (hs' : s' = (s.addCoordinate n q).modify id fun i => i.setDirty true) (hu : (s'.updateRtree sh).1 = .ok ()) (b' : Box K) :
    (id, b') ∈ (s'.updateRtree sh).2.rtree ↔ b' = b := by
  have hr : Reachable sh s' := by
    rw [hs']
    exact (h.step (Step.addCoordinate s n q)).step (Step.setDirty _ id true)
  have hi' : s'.items.get? id = some (i.setDirty true) := by
    rw [hs', get?_modify]
    have : (s.addCoordinate n q).items.get? id = some i := hi
    rw [this]
    simp
  obtain ⟨g, b₁, h1, h2, h3⟩ := (update_index sh hr hu id _ hi').1 rfl
  have hok := (inv sh h).ok id i (Dict.mem_of_get? hi)
  obtain ⟨g', h4, h5⟩ := hok.1 b hb
  rw [(dirty_true_wrong sh s' i g' h4).1] at h1
  cases h1
  rw [h2] at h5
  cases h5
  exact h3 b'

omit [IsStrictOrderedRing K] in
/-- C118. The same, with `dirty` set to false: the box is the one of the geometry at the new position. -/
theorem moved_item {s : Scene K S G} (h : Reachable sh s) (id : Nat) (i : Item K S G) (hi : s.items.get? id = some i)
    (n : String) (q : Vec K) (s' : Scene K S G)
    (hs' : s' = (s.addCoordinate n q).modify id fun i => i.setDirty false) (hu : (s'.updateRtree sh).1 = .ok ()) :
    ∃ g b, (i.positions.mapM (s.addCoordinate n q).castPosition >>= sh.geometry i.shape) = .ok g ∧ sh.boundingBox g = .ok b ∧
      ∀ b', (id, b') ∈ (s'.updateRtree sh).2.rtree ↔ b' = b := by
  have hr : Reachable sh s' := by
    rw [hs']
    exact (h.step (Step.addCoordinate s n q)).step (Step.setDirty _ id false)
  have hi' : s'.items.get? id = some (i.setDirty false) := by
    rw [hs', get?_modify]
    have : (s.addCoordinate n q).items.get? id = some i := hi
    rw [this]
    simp
  obtain ⟨g, b₁, h1, h2, h3⟩ := (update_index sh hr hu id _ hi').1 rfl
  refine ⟨g, b₁, ?_, h2, h3⟩
  rw [(dirty_false_recomputes sh s' i).2, hs'] at h1
  exact h1

omit [IsStrictOrderedRing K] in
/-- C118. An item whose geometry was read before it entered the index never enters it: updates skip it, whatever their number. -/
theorem clean_item_skipped_wrong {s : Scene K S G} (h : Reachable sh s) (hu : (s.updateRtree sh).1 = .ok ()) (id : Nat) (i : Item K S G)
    (hi : s.items.get? id = some i) (hd : i.dirty = false) (hb : ∀ b, (id, b) ∉ s.rtree) (b : Box K) :
    (s.updateRtree sh).2.items.get? id = some i ∧ (id, b) ∉ (s.updateRtree sh).2.rtree := by
  have hinv := inv sh h
  have hmem : (id, i) ∈ s.items := Dict.mem_of_get? hi
  obtain ⟨-, -, -, -, u5⟩ := updateLoop_spec sh s.items hinv hinv.items_nodup (fun k j hm => (Dict.mem_iff_get? hinv.items_nodup).1 hm)
  refine ⟨((u5 hu id i hmem).2 hd).1, ?_⟩
  rw [(update_index sh h hu id i hi).2 hd]
  exact hb b

/-- C118. So a new item whose geometry is read before the first update cannot be picked, at any place and with any radius. -/
theorem read_first_wrong (t : Vec K → Vec K) (id : Nat) (shape : S) (ps : List (Position K)) (ud : Option Nat) (g : G) (s s' : Scene K S G)
    (hs : s = Scene.addItem { transformation := t } id shape ps ud)
    (hg : (ps.mapM s.castPosition >>= sh.geometry shape) = .ok g)
    (hs' : s' = s.modify id fun i => (s.itemGeometry sh i).2) :
    s'.updateRtree sh = (.ok (), s') ∧ ∀ p r, 0 ≤ r → s'.itemAt sh p r = (.ok [], s') := by
  have hitems : s.items = [(id, { shape, positions := ps, userData := ud, z := 0 })] := by
    rw [hs]; unfold Scene.addItem; cases ud <;> rfl
  have hrt : s.rtree = [] := by
    rw [hs]; unfold Scene.addItem; cases ud <;> rfl
  have hgeo : s.itemGeometry sh { shape, positions := ps, userData := ud, z := 0 } =
      (.ok g, { shape, positions := ps, userData := ud, z := 0, geometry := some g, dirty := false }) := by
    unfold Scene.itemGeometry
    dsimp only
    rw [hg]
  have hitems' : s'.items = [(id, { shape, positions := ps, userData := ud, z := 0, geometry := some g, dirty := false })] := by
    rw [hs']
    unfold Scene.modify
    rw [hitems]
    simp [hgeo]
  have hrt' : s'.rtree = [] := by rw [hs']; exact hrt
  constructor
  · unfold Scene.updateRtree
    rw [hitems']
    rfl
  · intro p r hr
    unfold Scene.itemAt Scene.itemInBoundingBox
    rw [if_pos ⟨by dsimp only; linarith, by dsimp only; linarith⟩, hrt']
    have : ∀ b, sh.query [] b = [] := fun b => List.Perm.eq_nil (sh.query_perm [] b)
    rw [this, List.mapM_nil]
    simp [pure, Except.pure, Scene.pickLoop]

/-! ## C119: user data, selection and removal -/

omit [IsStrictOrderedRing K] in
/-- C119. After any history `item_for_user_data` gives the items made with this user data, in the order of insertion, or nothing if there
is none. -/
theorem user_data {s : Scene K S G} (h : Reachable sh s) (u : Nat) :
    ∃ l, l = (s.items.filter fun e => e.2.userData = some u).map Prod.fst ∧ s.itemForUserData u = if l = [] then none else some l :=
  ⟨_, rfl, (inv sh h).data u⟩

omit [IsStrictOrderedRing K] in
theorem unselect_fold (ids : List Nat) (s : Scene K S G) :
    (ids.foldl (init := s) fun s id => s.modify id fun i => { i with selected := false }).items =
      s.items.map fun e => if e.1 ∈ ids then (e.1, { e.2 with selected := false }) else e := by
  induction ids generalizing s with
  | nil => simp
  | cons id ids ih =>
    rw [List.foldl_cons, ih]
    unfold Scene.modify
    dsimp only
    rw [List.map_map]
    apply List.map_congr_left
    rintro ⟨k, i⟩ -
    simp only [Function.comp_apply, List.mem_cons]
    by_cases h1 : k = id
    · by_cases h2 : k ∈ ids <;> simp [h1, h2]
    · by_cases h2 : k ∈ ids <;> simp [h1, h2]

omit [IsStrictOrderedRing K] in
/-- C119. `unselect_items` unselects every item and changes nothing else of them; `selected_items` is then empty. -/
theorem unselect_all (s : Scene K S G) :
    s.unselectItems.items = s.items.map (fun e => (e.1, { e.2 with selected := false })) ∧ s.unselectItems.selectedItems = [] := by
  have h1 : s.unselectItems.items = s.items.map (fun e => (e.1, { e.2 with selected := false })) := by
    unfold Scene.unselectItems
    rw [unselect_fold]
    apply List.map_congr_left
    rintro ⟨k, i⟩ hm
    split
    · rfl
    · rename_i hk
      have : i.selected = false := by
        cases hsel : i.selected with
        | false => rfl
        | true => exact absurd (List.mem_map.2 ⟨(k, i), List.mem_filter.2 ⟨hm, hsel⟩, rfl⟩) hk
      cases i
      simp only at this
      subst this
      rfl
  refine ⟨h1, ?_⟩
  unfold Scene.selectedItems
  rw [h1, List.map_eq_nil_iff, List.filter_eq_nil_iff]
  intro e he
  obtain ⟨x, -, rfl⟩ := List.mem_map.1 he
  simp

omit [IsStrictOrderedRing K] in
/-- C119. `remove_item` does not remove anything: it always raises `TypeError`, before any change. -/
theorem remove_item_wrong (s : Scene K S G) (id : Nat) : (s.removeItem id).1 = .error .typeError ∧ (s.removeItem id).2.items = s.items :=
  ⟨rfl, rfl⟩

/-! ## C120: chains of Bézier curves -/

/-- C120. For a degree of two or three and `degree * n + 1` points, `bezier_path` makes `n` items; the control points of item `k` are the
points of index `degree * k` to `degree * k + degree`, so that an item starts at the end of the previous one. -/
theorem bezier_path {P : Type} (points : List P) (degree n : Nat) (hd : degree = 2 ∨ degree = 3) (hn : points.length = degree * n + 1) :
    (bezierPath points degree).2 = .ok () ∧ (bezierPath points degree).1.length = n ∧
      ∀ k < n, ∃ c, (bezierPath points degree).1[k]? = some c ∧ c.length = degree + 1 ∧ ∀ j ≤ degree, c[j]? = points[degree * k + j]? := by
  have hlen : points.length / degree = n := by rcases hd with rfl | rfl <;> omega
  have hmod : ((points.length : Int) - 1) % degree = 0 := by rcases hd with rfl | rfl <;> omega
  have hgood : (bezierChunks points degree n).takeWhile (fun c => decide (c.length = degree + 1)) = bezierChunks points degree n := by
    apply List.takeWhile_eq_self_iff.2
    intro c hc
    unfold bezierChunks at hc
    obtain ⟨k, hk, rfl⟩ := List.mem_map.1 hc
    rw [List.mem_range] at hk
    simp only [List.length_take, List.length_drop, decide_eq_true_eq]
    rcases hd with rfl | rfl <;> omega
  have hb : bezierPath points degree = (bezierChunks points degree n, .ok ()) := by
    unfold bezierPath
    rw [if_pos (by omega), if_neg (by rw [hmod]; simp), hlen]
    dsimp only
    rw [hgood, if_pos rfl]
  rw [hb]
  refine ⟨rfl, by simp [bezierChunks], fun k hk => ?_⟩
  refine ⟨(points.drop (degree * k)).take (degree + 1), ?_, ?_, ?_⟩
  · simp [bezierChunks, List.getElem?_map, List.getElem?_range hk]
  · simp only [List.length_take, List.length_drop]
    rcases hd with rfl | rfl <;> omega
  · intro j hj
    rw [List.getElem?_take, if_pos (by omega), List.getElem?_drop]

/-- C120. Any other degree above one, or number of points, is rejected with `ValueError` and no item is made. -/
theorem bezier_path_rejected {P : Type} (points : List P) (degree : Nat) (hd : degree ≠ 1)
    (h : ¬ ((degree = 2 ∨ degree = 3) ∧ ∃ n, points.length = degree * n + 1)) : bezierPath points degree = ([], .error .valueError) := by
  unfold bezierPath
  split
  · rename_i hd'
    have hd2 : degree = 2 ∨ degree = 3 := by omega
    rw [if_pos]
    intro hm
    apply h
    refine ⟨hd2, points.length / degree, ?_⟩
    rcases hd2 with rfl | rfl <;> omega
  · rfl

/-- C120. A chain of segments (degree one), which the code allows, never succeeds: the segments are made, then `TypeError` is raised. -/
theorem bezier_path_segments_wrong {P : Type} (points : List P) (hp : points ≠ []) :
    (bezierPath points 1).2 = .error .typeError ∧ (bezierPath points 1).1.length = points.length - 1 := by
  have hpos : 0 < points.length := List.length_pos_iff.2 hp
  have hsplit : bezierChunks points 1 points.length = bezierChunks points 1 (points.length - 1) ++ [[points.getLast hp]] := by
    obtain ⟨m, hm⟩ : ∃ m, points.length = m + 1 := ⟨points.length - 1, by omega⟩
    unfold bezierChunks
    rw [hm, List.range_succ, List.map_append]
    simp only [Nat.add_sub_cancel, List.map_cons, List.map_nil, one_mul]
    congr 2
    have : points.drop m = [points.getLast hp] := by
      have := List.drop_length_sub_one hp
      rwa [hm, Nat.add_sub_cancel] at this
    rw [this]
    rfl
  have hgood : (bezierChunks points 1 points.length).takeWhile (fun c => decide (c.length = 1 + 1)) =
      bezierChunks points 1 (points.length - 1) := by
    rw [hsplit, List.takeWhile_append_of_pos]
    · simp
    · intro c hc
      unfold bezierChunks at hc
      obtain ⟨k, hk, rfl⟩ := List.mem_map.1 hc
      rw [List.mem_range] at hk
      simp only [List.length_take, List.length_drop, decide_eq_true_eq]
      omega
  unfold bezierPath
  rw [if_pos (by omega), if_neg (by simp)]
  dsimp only
  rw [Nat.div_one, hgood]
  have hl : (bezierChunks points 1 (points.length - 1)).length = points.length - 1 := by simp [bezierChunks]
  have hl2 : (bezierChunks points 1 points.length).length = points.length := by simp [bezierChunks]
  refine ⟨?_, hl⟩
  rw [if_neg (by rw [hl, hl2]; omega)]

/-! ## Coordinates -/

omit [IsStrictOrderedRing K] in
/-- C121. A name gives the last position added with it, through the transformation of the scene; the other names are not changed. -/
theorem coordinate_cast (s : Scene K S G) (n m : String) (p : Vec K) :
    (s.addCoordinate n p).castPosition (.name m) = if n = m then .ok (s.transformation p) else s.castPosition (.name m) := by
  unfold Scene.castPosition Scene.addCoordinate Dict.getItem
  dsimp only
  rw [Dict.get?_set]
  by_cases h : n = m
  · rw [if_pos h, if_pos h]; rfl
  · rw [if_neg h, if_neg h]

omit [IsStrictOrderedRing K] in
/-- C121. The position of an unknown name, and the removal of an unknown name, raise `KeyError`. -/
theorem coordinate_unknown (s : Scene K S G) (n : String) (h : n ∉ s.coordinates.keys) :
    s.castPosition (.name n) = .error .keyError ∧ s.removeCoordinate n = .error .keyError := by
  have hg : s.coordinates.get? n = none := by
    cases hc : s.coordinates.get? n with
    | none => rfl
    | some v => exact absurd (Dict.mem_keys_of_get? hc) h
  unfold Scene.castPosition Scene.removeCoordinate Dict.getItem
  constructor
  · dsimp only
    rw [hg]; rfl
  · rw [if_neg]
    simp [Dict.contains, hg]

/-! ## Examples

Items which are points, with the distance of the largest coordinate. -/

/-- Points. -/
def points : Shapes ℚ Unit (Vec ℚ) where
  geometry _ ps := match ps with
    | [p] => .ok p
    | _ => .error .typeError
  boundingBox p := .ok ⟨p.x, p.x, p.y, p.y⟩
  distance q p := .ok (some (max |q.x - p.x| |q.y - p.y|))
  query t b := (t.filter fun e => e.2.Meets b).map Prod.fst
  query_perm _ _ := List.Perm.refl _

example : Sound points := by
  intro g b p d r hb hd hr
  simp only [points, Except.ok.injEq, Option.some.injEq] at hb hd
  subst hb hd
  obtain ⟨h1, h2⟩ := max_le_iff.1 hr
  rw [abs_le] at h1 h2
  exact ⟨by simp only [square]; linarith, by simp only [square]; linarith, by simp only [square]; linarith, by simp only [square]; linarith⟩

/-- Two items, one of them at a named position, with z values one and zero. -/
def demo : Scene ℚ Unit (Vec ℚ) :=
  let s : Scene ℚ Unit (Vec ℚ) := { transformation := fun v => v }
  ((((s.addCoordinate "A" ⟨1, 1⟩).addItem 7 () [.name "A"] (some 3)).addItem 8 () [.vector ⟨2, 1⟩] (some 3)).modify 7
    fun i => { i with z := 1 }).modify 8 fun i => { i with selected := true }

theorem demo_reachable : Reachable points demo :=
  ((((Reachable.empty fun v => v).step (Step.addCoordinate _ "A" ⟨1, 1⟩)).step (Step.addItem _ 7 () [.name "A"] (some 3) (by decide))).step
    (Step.addItem _ 8 () [.vector ⟨2, 1⟩] (some 3) (by decide +kernel))).step (Step.setZ _ 7 1) |>.step (Step.setSelected _ 8 true)

example : demo.items.values.map (fun i => (i.z, i.visible)) = [(1, true), (0, true)] := by decide +kernel

example : (demo.updateRtree points).1 = .ok () := by decide +kernel

example : ((demo.updateRtree points).2.itemAt points ⟨0, 1⟩ 1).1 = .ok [(1, 7)] := by decide +kernel

example : (demo.itemAt points ⟨1, 1⟩ (-1)).1 = .error .rtreeError := by decide +kernel

example : demo.itemForUserData 3 = some [7, 8] ∧ demo.itemForUserData 4 = none ∧ demo.selectedItems = [8] := by decide +kernel

/-- The coordinate is moved and the item is marked as dirty: the old place is picked, not the new one. -/
example : (((((demo.updateRtree points).2.addCoordinate "A" ⟨5, 5⟩).modify 7 fun i => i.setDirty true).updateRtree points).2.itemAt points
    ⟨5, 5⟩ 1).1 = .ok [] := by decide +kernel

example : (((((demo.updateRtree points).2.addCoordinate "A" ⟨5, 5⟩).modify 7 fun i => i.setDirty false).updateRtree points).2.itemAt points
    ⟨5, 5⟩ 1).1 = .ok [(0, 7)] := by decide +kernel

/-- An item of the example whose geometry is read first is not indexed. -/
example : ((((demo.modify 7 fun i => (demo.itemGeometry points i).2).updateRtree points).2).rtree.map Prod.fst) = [8] := by decide +kernel

example : bezierPath [0, 1, 2, 3, 4] 2 = ([[0, 1, 2], [2, 3, 4]], .ok ()) := by decide

example : bezierPath [0, 1, 2, 3] 2 = ([], .error .valueError) := by decide

example : bezierPath [0, 1, 2] 1 = ([[0, 1], [1, 2]], .error .typeError) := by decide

end Patro.Scene
