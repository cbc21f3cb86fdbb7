import Verif.Spec.Scene
import Verif.Proof.IterTools
import Mathlib.Data.List.Nodup
import Mathlib.Data.List.Perm.Basic
/-! # Lemmas for scenes -/

namespace Patro

namespace Dict

variable {κ : Type _} {β : Type _} [DecidableEq κ]

theorem mem_iff_get? {d : Dict κ β} (hn : d.keys.Nodup) {k : κ} {v : β} : (k, v) ∈ d ↔ d.get? k = some v := by
  induction d with
  | nil => simp
  | cons hd tl ih =>
    obtain ⟨k₀, v₀⟩ := hd
    simp only [keys, List.map_cons, List.nodup_cons] at hn
    by_cases h : k₀ = k
    · subst h
      simp only [get?, if_true, List.mem_cons, Prod.mk.injEq, true_and, Option.some.injEq]
      constructor
      · rintro (h | h)
        · exact h.symm
        · exact absurd (List.mem_map_of_mem (f := Prod.fst) h) hn.1
      · intro h; exact Or.inl h.symm
    · simp only [get?, if_neg h, List.mem_cons, Prod.mk.injEq]
      rw [← ih hn.2]
      constructor
      · rintro (h' | h')
        · exact absurd h'.1.symm h
        · exact h'
      · exact Or.inr

theorem mem_keys_of_get? {d : Dict κ β} {k : κ} {v : β} (h : d.get? k = some v) : k ∈ d.keys :=
  List.mem_map_of_mem (f := Prod.fst) (mem_of_get? h)

theorem perm_cons_erase {d : Dict κ β} {k : κ} {v : β} (h : d.get? k = some v) : d.Perm ((k, v) :: Dict.erase d k) := by
  induction d with
  | nil => simp at h
  | cons hd tl ih =>
    obtain ⟨k₀, v₀⟩ := hd
    by_cases h' : k₀ = k
    · subst h'
      simp only [get?, if_true, Option.some.injEq] at h
      subst h
      simp [Dict.erase]
    · simp only [get?, if_neg h'] at h
      simp only [Dict.erase, if_neg h']
      exact ((ih h).cons _).trans (List.Perm.swap _ _ _)

theorem erase_sublist (d : Dict κ β) (k : κ) : List.Sublist (Dict.erase d k) d := by
  induction d with
  | nil => exact List.Sublist.slnil
  | cons hd tl ih =>
    obtain ⟨k₀, v₀⟩ := hd
    unfold Dict.erase
    split
    · exact List.sublist_cons_self _ _
    · exact ih.cons_cons _

theorem not_mem_keys_erase {d : Dict κ β} (hn : d.keys.Nodup) (k : κ) : k ∉ Dict.keys (Dict.erase d k) := by
  induction d with
  | nil => simp [Dict.erase, keys]
  | cons hd tl ih =>
    obtain ⟨k₀, v₀⟩ := hd
    simp only [keys, List.map_cons, List.nodup_cons] at hn
    unfold Dict.erase
    split
    · rename_i h; subst h; exact hn.1
    · rename_i h
      simp only [keys, List.map_cons, List.mem_cons, not_or]
      exact ⟨fun e => h e.symm, ih hn.2⟩

theorem get?_erase_ne {d : Dict κ β} {k k' : κ} (h : k ≠ k') : (Dict.erase d k).get? k' = d.get? k' := by
  induction d with
  | nil => rfl
  | cons hd tl ih =>
    obtain ⟨k₀, v₀⟩ := hd
    unfold Dict.erase
    by_cases h0 : k₀ = k
    · subst h0
      simp [get?, h]
    · simp only [if_neg h0, get?, ih]

theorem getItem_of_get? {d : Dict κ β} {k : κ} {v : β} (h : d.get? k = some v) : d.getItem k = .ok v := by
  unfold getItem; rw [h]

end Dict

namespace Scene

variable {K S G : Type} [Field K] [LinearOrder K] (sh : Shapes K S G)

/-- What stays true of an item. -/
def Item.Ok (i : Item K S G) : Prop :=
  (∀ b, i.boundingBox = some b → ∃ g, i.geometry = some g ∧ sh.boundingBox g = .ok b) ∧ (i.dirty = false → i.geometry.isSome)

/-- The attributes that reading an item does not change. -/
def Item.Same (i j : Item K S G) : Prop :=
  j.shape = i.shape ∧ j.positions = i.positions ∧ j.userData = i.userData ∧ j.z = i.z ∧ j.visible = i.visible ∧ j.selected = i.selected

theorem Item.Same.rfl (i : Item K S G) : i.Same i := ⟨_root_.rfl, _root_.rfl, _root_.rfl, _root_.rfl, _root_.rfl, _root_.rfl⟩

theorem itemGeometry_cases (s : Scene K S G) (i : Item K S G) :
    (∃ e, s.itemGeometry sh i = (.error e, i) ∧ i.geometry = none) ∨
      ∃ g i', s.itemGeometry sh i = (.ok g, i') ∧ i.Same i' ∧ i'.geometry = some g ∧ i'.boundingBox = i.boundingBox ∧
        ((i.geometry = some g ∧ i' = i) ∨
          (i.geometry = none ∧ i'.dirty = false ∧ (i.positions.mapM s.castPosition >>= sh.geometry i.shape) = .ok g)) := by
  unfold Scene.itemGeometry
  cases hg : i.geometry with
  | some g => exact Or.inr ⟨g, i, rfl, Item.Same.rfl i, hg, rfl, Or.inl ⟨rfl, rfl⟩⟩
  | none =>
    dsimp only
    cases hm : (i.positions.mapM s.castPosition >>= sh.geometry i.shape) with
    | error e => exact Or.inl ⟨e, rfl, rfl⟩
    | ok g => exact Or.inr ⟨g, _, rfl, Item.Same.rfl i, rfl, rfl, Or.inr ⟨rfl, rfl, rfl⟩⟩

theorem itemGeometry_ok (s : Scene K S G) (i : Item K S G) (h : i.Ok sh) :
    (s.itemGeometry sh i).2.Ok sh ∧ i.Same (s.itemGeometry sh i).2 := by
  rcases itemGeometry_cases sh s i with ⟨e, he, hn⟩ | ⟨g, i', he, hs, hg, hb, h'⟩
  · rw [he]; exact ⟨h, Item.Same.rfl i⟩
  · rw [he]
    refine ⟨⟨fun b hb' => ⟨g, hg, ?_⟩, fun _ => by simp [hg]⟩, hs⟩
    rcases h' with ⟨h1, h2⟩ | ⟨h1, h2, h3⟩
    · obtain ⟨g', e1, e2⟩ := h.1 b (by rw [← hb]; exact hb')
      rw [h1] at e1
      cases e1
      exact e2
    · obtain ⟨g', e1, e2⟩ := h.1 b (by rw [← hb]; exact hb')
      rw [h1] at e1
      cases e1

theorem itemBox_ok (s : Scene K S G) (i : Item K S G) (h : i.Ok sh) : (s.itemBox sh i).2.Ok sh ∧ i.Same (s.itemBox sh i).2 ∧
    ∀ b, (s.itemBox sh i).1 = .ok b → (s.itemBox sh i).2.boundingBox = some b := by
  unfold Scene.itemBox
  cases hb : i.boundingBox with
  | some b => exact ⟨h, Item.Same.rfl i, fun b' hb' => by cases hb'; exact hb⟩
  | none =>
    dsimp only
    have hg := itemGeometry_ok sh s i h
    rcases itemGeometry_cases sh s i with ⟨e, he, hn⟩ | ⟨g, i', he, hs, hg', hb', h'⟩
    · rw [he]; exact ⟨h, Item.Same.rfl i, fun b' hb' => by cases hb'⟩
    · rw [he] at hg ⊢
      dsimp only at hg ⊢
      cases hbb : sh.boundingBox g with
      | error e => exact ⟨hg.1, hg.2, fun b' hb' => by cases hb'⟩
      | ok b =>
        refine ⟨⟨fun b' hb' => ⟨g, hg', ?_⟩, hg.1.2⟩, hg.2, fun b' hb' => by cases hb'; rfl⟩
        cases hb'
        exact hbb

theorem itemDistance_ok (s : Scene K S G) (i : Item K S G) (p : Vec K) (h : i.Ok sh) :
    (s.itemDistance sh i p).2.Ok sh ∧ i.Same (s.itemDistance sh i p).2 := by
  have := itemGeometry_ok sh s i h
  unfold Scene.itemDistance
  cases hg : s.itemGeometry sh i with
  | mk r i' =>
    rw [hg] at this
    cases r <;> exact this

/-- The identities of the items with given user data, in the order of their creation. -/
def withData (items : Dict Nat (Item K S G)) (u : Nat) : List Nat := (items.filter fun e => e.2.userData = some u).map Prod.fst

/-- The invariant of a scene. -/
structure Inv (s : Scene K S G) : Prop where
  items_nodup : s.items.keys.Nodup
  boxes_nodup : s.boxes.keys.Nodup
  perm : s.rtree.Perm s.boxes
  sub : ∀ id ∈ s.boxes.keys, id ∈ s.items.keys
  ok : ∀ id i, (id, i) ∈ s.items → i.Ok sh
  data : ∀ u, s.userDataMap.get? u = if withData s.items u = [] then none else some (withData s.items u)

theorem modify_keys (s : Scene K S G) (id : Nat) (f : Item K S G → Item K S G) : (s.modify id f).items.keys = s.items.keys := by
  simp only [Scene.modify, Dict.keys, List.map_map]
  apply List.map_congr_left
  rintro ⟨k, v⟩ -
  simp only [Function.comp_apply]
  split <;> rfl

theorem mem_modify (s : Scene K S G) (id : Nat) (f : Item K S G → Item K S G) (k : Nat) (j : Item K S G) :
    (k, j) ∈ (s.modify id f).items ↔ ∃ i, (k, i) ∈ s.items ∧ j = if k = id then f i else i := by
  simp only [Scene.modify, List.mem_map, Prod.exists]
  constructor
  · rintro ⟨k', i, hm, e⟩
    by_cases h : k' = id
    · rw [if_pos h] at e; cases e; exact ⟨i, hm, by rw [if_pos h]⟩
    · rw [if_neg h] at e; cases e; exact ⟨j, hm, by rw [if_neg h]⟩
  · rintro ⟨i, hm, e⟩
    refine ⟨k, i, hm, ?_⟩
    by_cases h : k = id
    · rw [if_pos h] at e ⊢; rw [e]
    · rw [if_neg h] at e ⊢; rw [e]

theorem get?_modify (s : Scene K S G) (id : Nat) (f : Item K S G → Item K S G) (k : Nat) :
    (s.modify id f).items.get? k = (s.items.get? k).map fun i => if k = id then f i else i := by
  unfold Scene.modify
  dsimp only
  induction s.items with
  | nil => rfl
  | cons hd tl ih =>
    obtain ⟨k₀, v₀⟩ := hd
    simp only [List.map_cons]
    by_cases h : k₀ = id
    · rw [if_pos h]
      by_cases h' : k₀ = k
      · simp [Dict.get?, h', ← h]
      · simp [Dict.get?, h', ih]
    · rw [if_neg h]
      by_cases h' : k₀ = k
      · subst h'; simp [Dict.get?, h]
      · simp [Dict.get?, h', ih]

theorem withData_modify (s : Scene K S G) (id : Nat) (f : Item K S G → Item K S G)
    (hf : ∀ i, (id, i) ∈ s.items → (f i).userData = i.userData) (u : Nat) :
    withData (s.modify id f).items u = withData s.items u := by
  unfold withData Scene.modify
  dsimp only
  induction hs : s.items generalizing s with
  | nil => rfl
  | cons hd tl ih =>
    obtain ⟨k₀, v₀⟩ := hd
    have ih := ih { s with items := tl } (fun i hi => hf i (by rw [hs]; exact List.mem_cons_of_mem _ hi)) rfl
    simp only [List.map_cons, List.filter_cons]
    by_cases h : k₀ = id
    · subst h
      have := hf v₀ (by rw [hs]; exact List.mem_cons_self)
      simp only [if_true, this]
      by_cases hu : v₀.userData = some u
      · simp only [hu, decide_true, if_true, List.map_cons, ih]
      · simp only [hu, decide_false, Bool.false_eq_true, if_false, ih]
    · simp only [if_neg h]
      by_cases hu : v₀.userData = some u
      · simp only [hu, decide_true, if_true, List.map_cons, ih]
      · simp only [hu, decide_false, Bool.false_eq_true, if_false, ih]

theorem Inv.modify {s : Scene K S G} (h : Inv sh s) (id : Nat) (f : Item K S G → Item K S G)
    (hf : ∀ i, (id, i) ∈ s.items → (f i).Ok sh ∧ (f i).userData = i.userData) : Inv sh (s.modify id f) where
  items_nodup := by rw [modify_keys]; exact h.items_nodup
  boxes_nodup := h.boxes_nodup
  perm := h.perm
  sub := fun k hk => by rw [modify_keys]; exact h.sub k hk
  ok := fun k j hj => by
    obtain ⟨i, hm, e⟩ := (mem_modify s id f k j).1 hj
    by_cases hk : k = id
    · subst hk; rw [if_pos rfl] at e; rw [e]; exact (hf i hm).1
    · rw [if_neg hk] at e; rw [e]; exact h.ok k i hm
  data := fun u => by rw [withData_modify s id f (fun i hi => (hf i hi).2)]; exact h.data u

theorem Inv.popBox {s : Scene K S G} (h : Inv sh s) (id : Nat) : Inv sh (s.popBox id) ∧ (s.popBox id).boxes.get? id = none ∧
    (s.popBox id).items = s.items ∧ (∀ k, k ≠ id → (s.popBox id).boxes.get? k = s.boxes.get? k) ∧
    (s.popBox id).coordinates = s.coordinates ∧ (s.popBox id).transformation = s.transformation := by
  unfold Scene.popBox
  cases hb : s.boxes.get? id with
  | none => exact ⟨h, hb, rfl, fun _ _ => rfl, rfl, rfl⟩
  | some old =>
    have hsub := Dict.erase_sublist s.boxes id
    refine ⟨⟨h.items_nodup, (hsub.map Prod.fst).nodup h.boxes_nodup, ?_, fun k hk => h.sub k ((hsub.map Prod.fst).subset hk), h.ok, h.data⟩,
      (Dict.get?_eq_none_iff _ _).2 (Dict.not_mem_keys_erase h.boxes_nodup id), rfl, fun k hk => Dict.get?_erase_ne (Ne.symm hk), rfl, rfl⟩
    have h1 := h.perm.trans (Dict.perm_cons_erase hb)
    have h2 := h1.erase (id, old)
    simpa [rtreeDelete] using h2

/-- What an item of the scene can change in other items: nothing but the coordinates matters. -/
structure SameFrame (s t : Scene K S G) : Prop where
  coordinates : t.coordinates = s.coordinates
  transformation : t.transformation = s.transformation

theorem SameFrame.cast {s t : Scene K S G} (h : SameFrame s t) : t.castPosition = s.castPosition := by
  funext p
  cases p <;> simp [Scene.castPosition, h.coordinates, h.transformation]

theorem SameFrame.geometry {s t : Scene K S G} (h : SameFrame s t) (i : Item K S G) : t.itemGeometry sh i = s.itemGeometry sh i := by
  unfold Scene.itemGeometry
  rw [h.cast]

theorem SameFrame.box {s t : Scene K S G} (h : SameFrame s t) (i : Item K S G) : t.itemBox sh i = s.itemBox sh i := by
  unfold Scene.itemBox
  rw [h.geometry]

theorem SameFrame.distance {s t : Scene K S G} (h : SameFrame s t) (i : Item K S G) (p : Vec K) :
    t.itemDistance sh i p = s.itemDistance sh i p := by
  unfold Scene.itemDistance
  rw [h.geometry]

theorem SameFrame.rfl (s : Scene K S G) : SameFrame s s := ⟨_root_.rfl, _root_.rfl⟩

theorem SameFrame.trans {s t u : Scene K S G} (h : SameFrame s t) (h' : SameFrame t u) : SameFrame s u :=
  ⟨h'.1.trans h.1, h'.2.trans h.2⟩

theorem insertBox_spec {s : Scene K S G} (h : Inv sh s) (id : Nat) (i : Item K S G) (hn : s.boxes.get? id = none)
    (hi : s.items.get? id = some i) :
    Inv sh (s.insertBox sh id i).2 ∧ SameFrame s (s.insertBox sh id i).2 ∧ (s.insertBox sh id i).2.items.keys = s.items.keys ∧
      (∀ k, k ≠ id → (s.insertBox sh id i).2.items.get? k = s.items.get? k ∧ (s.insertBox sh id i).2.boxes.get? k = s.boxes.get? k) ∧
      (s.insertBox sh id i).2.items.get? id = some (s.itemBox sh i).2 ∧
      ((s.insertBox sh id i).1 = .ok () → ∃ b, (s.itemBox sh i).1 = .ok b ∧ (s.insertBox sh id i).2.boxes.get? id = some b) := by
  have hm : (id, i) ∈ s.items := Dict.mem_of_get? hi
  have hok := itemBox_ok sh s i (h.ok id i hm)
  have hsame : ∀ j, (id, j) ∈ s.items → (s.itemBox sh i).2.Ok sh ∧ (s.itemBox sh i).2.userData = j.userData := by
    intro j hj
    rw [Dict.mem_iff_get? h.items_nodup, hi] at hj
    cases hj
    exact ⟨hok.1, hok.2.1.2.2.1⟩
  have hne : ∀ k, k ≠ id → (s.modify id fun _ => (s.itemBox sh i).2).items.get? k = s.items.get? k := by
    intro k hk
    rw [get?_modify]
    cases s.items.get? k with
    | none => rfl
    | some j => simp only [Option.map_some, if_neg hk]
  have heq : (s.modify id fun _ => (s.itemBox sh i).2).items.get? id = some (s.itemBox sh i).2 := by
    rw [get?_modify, hi]; simp only [Option.map_some, if_true]
  have hmod := h.modify sh id (fun _ => (s.itemBox sh i).2) hsame
  have hframe : SameFrame s (s.modify id fun _ => (s.itemBox sh i).2) := ⟨rfl, rfl⟩
  have hk := modify_keys s id (fun _ => (s.itemBox sh i).2)
  unfold Scene.insertBox
  cases hr : s.itemBox sh i with
  | mk r i' =>
    rw [hr] at hmod hframe heq hk
    simp only [hr] at hne
    cases r with
    | error e => exact ⟨hmod, hframe, hk, fun k hk => ⟨hne k hk, rfl⟩, heq, fun h => by cases h⟩
    | ok b =>
      dsimp only
      split
      · have hid : id ∉ s.boxes.keys := (Dict.get?_eq_none_iff _ _).1 hn
        have hset : s.boxes.set id b = s.boxes ++ [(id, b)] := Dict.set_of_not_mem b hid
        refine ⟨⟨hmod.items_nodup, ?_, ?_, ?_, hmod.ok, hmod.data⟩, ⟨rfl, rfl⟩, hk, fun k hk => ⟨hne k hk, Dict.get?_set_ne _ _ (Ne.symm hk)⟩, heq,
          fun _ => ⟨b, rfl, Dict.get?_set_self _ _ _⟩⟩
        · show (Dict.keys (s.boxes.set id b)).Nodup
          rw [hset]
          simp only [Dict.keys, List.map_append, List.map_cons, List.map_nil]
          rw [List.nodup_append]
          refine ⟨h.boxes_nodup, by simp, ?_⟩
          intro a ha c hc
          simp only [List.mem_singleton] at hc
          rw [hc]
          intro e; rw [e] at ha; exact hid ha
        · show (s.rtree ++ [(id, b)]).Perm (s.boxes.set id b)
          rw [hset]
          exact h.perm.append_right _
        · intro k hk'
          rw [show (s.modify id fun _ => i').boxes.set id b = s.boxes ++ [(id, b)] from hset] at hk'
          show k ∈ (s.modify id fun _ => i').items.keys
          rw [hk]
          simp only [Dict.keys, List.map_append, List.map_cons, List.map_nil, List.mem_append, List.mem_singleton] at hk'
          rcases hk' with h' | rfl
          · exact h.sub k h'
          · exact Dict.mem_keys_of_get? hi
      · exact ⟨hmod, hframe, hk, fun k hk => ⟨hne k hk, rfl⟩, heq, fun h => by cases h⟩

theorem updateRtreeItem_spec {s : Scene K S G} (h : Inv sh s) (id : Nat) (i : Item K S G) (hi : s.items.get? id = some i) :
    Inv sh (s.updateRtreeItem sh id i).2 ∧ SameFrame s (s.updateRtreeItem sh id i).2 ∧
      (s.updateRtreeItem sh id i).2.items.keys = s.items.keys ∧
      (∀ k, k ≠ id → (s.updateRtreeItem sh id i).2.items.get? k = s.items.get? k ∧
        (s.updateRtreeItem sh id i).2.boxes.get? k = s.boxes.get? k) ∧
      (s.updateRtreeItem sh id i).2.items.get? id = some (s.itemBox sh i).2 ∧
      ((s.updateRtreeItem sh id i).1 = .ok () →
        ∃ b, (s.itemBox sh i).1 = .ok b ∧ (s.updateRtreeItem sh id i).2.boxes.get? id = some b) := by
  obtain ⟨p1, p2, p3, p4, p5, p6⟩ := h.popBox sh id
  obtain ⟨q1, q2, q3, q4, q5, q6⟩ := insertBox_spec sh p1 id i p2 (by rw [p3]; exact hi)
  have hf : SameFrame s (s.popBox id) := ⟨p5, p6⟩
  unfold Scene.updateRtreeItem
  refine ⟨q1, hf.trans q2, by rw [q3, p3], fun k hk => ?_, ?_, ?_⟩
  · rw [(q4 k hk).1, (q4 k hk).2, p3, p4 k hk]; exact ⟨rfl, rfl⟩
  · rw [q5, hf.box]
  · intro h'
    obtain ⟨b, e1, e2⟩ := q6 h'
    rw [hf.box] at e1
    exact ⟨b, e1, e2⟩

theorem updateLoop_spec : ∀ (l : List (Nat × Item K S G)) {s : Scene K S G} (_ : Inv sh s) (_ : (l.map Prod.fst).Nodup)
    (_ : ∀ id i, (id, i) ∈ l → s.items.get? id = some i),
    Inv sh (s.updateLoop sh l).2 ∧ SameFrame s (s.updateLoop sh l).2 ∧ (s.updateLoop sh l).2.items.keys = s.items.keys ∧
      (∀ k, k ∉ l.map Prod.fst → (s.updateLoop sh l).2.items.get? k = s.items.get? k ∧
        (s.updateLoop sh l).2.boxes.get? k = s.boxes.get? k) ∧
      ((s.updateLoop sh l).1 = .ok () → ∀ id i, (id, i) ∈ l →
        (i.dirty = true → (s.updateLoop sh l).2.items.get? id = some (s.itemBox sh i).2 ∧
          ∃ b, (s.itemBox sh i).1 = .ok b ∧ (s.updateLoop sh l).2.boxes.get? id = some b) ∧
        (i.dirty = false → (s.updateLoop sh l).2.items.get? id = some i ∧
          (s.updateLoop sh l).2.boxes.get? id = s.boxes.get? id))
  | [], s, h, _, _ => ⟨h, SameFrame.rfl s, rfl, fun _ _ => ⟨rfl, rfl⟩, fun _ _ _ hm => by simp at hm⟩
  | (id, i) :: rest, s, h, hn, hi => by
    simp only [List.map_cons, List.nodup_cons] at hn
    have hid := hi id i List.mem_cons_self
    have hrest : ∀ k j, (k, j) ∈ rest → k ≠ id := by
      rintro k j hm rfl
      exact hn.1 (List.mem_map_of_mem (f := Prod.fst) hm)
    unfold Scene.updateLoop
    by_cases hd : i.dirty = true
    · rw [if_pos hd]
      obtain ⟨u1, u2, u3, u4, u5, u6⟩ := updateRtreeItem_spec sh h id i hid
      cases hr : s.updateRtreeItem sh id i with
      | mk r t =>
        rw [hr] at u1 u2 u3 u4 u5 u6
        dsimp only at u1 u2 u3 u4 u5 u6
        cases r with
        | error e =>
          refine ⟨u1, u2, u3, fun k hk => ?_, fun h => by cases h⟩
          simp only [List.map_cons, List.mem_cons, not_or] at hk
          exact u4 k hk.1
        | ok x =>
          cases x
          obtain ⟨v1, v2, v3, v4, v5⟩ := updateLoop_spec rest u1 hn.2 (fun k j hm => by
            rw [(u4 k (hrest k j hm)).1]; exact hi k j (List.mem_cons_of_mem _ hm))
          dsimp only
          refine ⟨v1, u2.trans v2, by rw [v3, u3], fun k hk => ?_, fun hok k j hm => ?_⟩
          · simp only [List.map_cons, List.mem_cons, not_or] at hk
            rw [(v4 k hk.2).1, (v4 k hk.2).2]
            exact u4 k hk.1
          · rcases List.mem_cons.1 hm with e | hm
            · cases e
              refine ⟨fun _ => ?_, fun hd' => by rw [hd] at hd'; cases hd'⟩
              rw [(v4 _ hn.1).1, (v4 _ hn.1).2]
              exact ⟨u5, u6 rfl⟩
            · have := v5 hok k j hm
              rw [u2.box, (u4 k (hrest k j hm)).2] at this
              exact this
    · rw [if_neg hd]
      obtain ⟨v1, v2, v3, v4, v5⟩ := updateLoop_spec rest h hn.2 (fun k j hm => hi k j (List.mem_cons_of_mem _ hm))
      refine ⟨v1, v2, v3, fun k hk => ?_, fun hok k j hm => ?_⟩
      · simp only [List.map_cons, List.mem_cons, not_or] at hk
        exact v4 k hk.2
      · rcases List.mem_cons.1 hm with e | hm
        · cases e
          refine ⟨fun hd' => absurd hd' hd, fun _ => ?_⟩
          rw [(v4 _ hn.1).1, (v4 _ hn.1).2]
          exact ⟨hid, rfl⟩
        · exact v5 hok k j hm

theorem modify_self_get? {s : Scene K S G} (id : Nat) (j : Item K S G) (k : Nat) (hk : k ≠ id) :
    (s.modify id fun _ => j).items.get? k = s.items.get? k := by
  rw [get?_modify]
  cases s.items.get? k with
  | none => rfl
  | some x => simp only [Option.map_some, if_neg hk]

/-- What is picked of an item. -/
def picked (s : Scene K S G) (p : Vec K) (r : K) (e : Nat × Item K S G) : Option (K × Nat) :=
  match (s.itemDistance sh e.2 p).1 with
  | .ok (some d) => if d ≤ r then some (d, e.1) else none
  | _ => none

theorem pickLoop_spec (p : Vec K) (r : K) : ∀ (l : List (Nat × Item K S G)) {s : Scene K S G} (_ : Inv sh s) (_ : (l.map Prod.fst).Nodup)
    (_ : ∀ id i, (id, i) ∈ l → s.items.get? id = some i),
    Inv sh (s.pickLoop sh p r l).2 ∧ SameFrame s (s.pickLoop sh p r l).2 ∧ (s.pickLoop sh p r l).2.boxes = s.boxes ∧
      (s.pickLoop sh p r l).2.items.keys = s.items.keys ∧
      (∀ x, (s.pickLoop sh p r l).1 = .ok x → x = l.filterMap (picked sh s p r)) ∧
      ((∃ x, (s.pickLoop sh p r l).1 = .ok x) ↔
        ∀ id i, (id, i) ∈ l → ∀ e, (s.itemDistance sh i p).1 = .error e → e = .notImplementedError)
  | [], s, h, _, _ => ⟨h, SameFrame.rfl s, rfl, rfl, fun x hx => by cases hx; rfl, by simp [Scene.pickLoop]⟩
  | (id, i) :: rest, s, h, hn, hi => by
    simp only [List.map_cons, List.nodup_cons] at hn
    have hid := hi id i List.mem_cons_self
    have hrest : ∀ k j, (k, j) ∈ rest → k ≠ id := by
      rintro k j hm rfl
      exact hn.1 (List.mem_map_of_mem (f := Prod.fst) hm)
    have hd := itemDistance_ok sh s i p (h.ok id i (Dict.mem_of_get? hid))
    have hinv := h.modify sh id (fun _ => (s.itemDistance sh i p).2) (by
      intro j hj
      rw [Dict.mem_iff_get? h.items_nodup, hid] at hj
      cases hj
      exact ⟨hd.1, hd.2.2.2.1⟩)
    have hf : SameFrame s (s.modify id fun _ => (s.itemDistance sh i p).2) := ⟨rfl, rfl⟩
    have hk := modify_keys s id (fun _ => (s.itemDistance sh i p).2)
    obtain ⟨v1, v2, v3, v4, v5, v6⟩ := pickLoop_spec p r rest hinv hn.2 (fun k j hm => by
      rw [modify_self_get? id _ k (hrest k j hm)]; exact hi k j (List.mem_cons_of_mem _ hm))
    have hpk : rest.filterMap (picked sh (s.modify id fun _ => (s.itemDistance sh i p).2) p r) = rest.filterMap (picked sh s p r) := by
      apply congrFun
      apply congrArg
      funext e
      unfold picked
      rw [hf.distance]
    rw [hpk] at v5
    simp only [hf.distance] at v6
    unfold Scene.pickLoop
    cases hr : s.itemDistance sh i p with
    | mk o i' =>
      rw [hr] at hinv hf hk v1 v2 v3 v4
      simp only [hr] at v5 v6
      cases o with
      | error e =>
        dsimp only
        by_cases he : e = .notImplementedError
        · rw [if_pos he]
          refine ⟨v1, hf.trans v2, v3.trans rfl, by rw [v4, hk], fun x hx => ?_, ?_⟩
          · rw [List.filterMap_cons]
            have : picked sh s p r (id, i) = none := by unfold picked; rw [hr]
            rw [this]
            exact v5 x hx
          · rw [v6]
            constructor
            · intro H k j hm e' he'
              rcases List.mem_cons.1 hm with e1 | hm
              · cases e1
                rw [hr] at he'
                cases he'
                exact he
              · exact H k j hm e' he'
            · intro H k j hm
              exact H k j (List.mem_cons_of_mem _ hm)
        · rw [if_neg he]
          refine ⟨hinv, hf, rfl, hk, fun x hx => (by cases hx), ⟨fun hx => (by obtain ⟨x, hx⟩ := hx; cases hx), fun H => ?_⟩⟩
          exact absurd (H id i List.mem_cons_self e (by rw [hr])) he
      | ok d =>
        dsimp only
        cases hp : (s.modify id fun _ => i').pickLoop sh p r rest with
        | mk q t =>
          rw [hp] at v1 v2 v3 v4
          simp only [hp] at v5 v6
          have hall : (∃ x, q = .ok x) ↔ ∀ k j, (k, j) ∈ (id, i) :: rest → ∀ e, (s.itemDistance sh j p).1 = .error e → e = .notImplementedError := by
            rw [v6]
            constructor
            · intro H k j hm e' he'
              rcases List.mem_cons.1 hm with e1 | hm
              · cases e1
                rw [hr] at he'
                cases he'
              · exact H k j hm e' he'
            · intro H k j hm
              exact H k j (List.mem_cons_of_mem _ hm)
          cases q with
          | error e =>
            exact ⟨v1, hf.trans v2, v3.trans rfl, by rw [v4, hk], fun x hx => (by cases hx), hall⟩
          | ok lst =>
            have hlst := v5 lst rfl
            have hex : (∃ x : List (K × Nat), (Except.ok lst : Except PyErr (List (K × Nat))) = .ok x) := ⟨lst, rfl⟩
            cases d with
            | none =>
              have hpi : picked sh s p r (id, i) = none := by unfold picked; rw [hr]
              refine ⟨v1, hf.trans v2, v3.trans rfl, by rw [v4, hk], fun x hx => ?_, hall⟩
              cases hx
              rw [List.filterMap_cons, hpi]
              exact hlst
            | some d =>
              have hpi : picked sh s p r (id, i) = if d ≤ r then some (d, id) else none := by unfold picked; rw [hr]
              dsimp only
              by_cases hdr : d ≤ r
              · rw [if_pos hdr] at hpi ⊢
                refine ⟨v1, hf.trans v2, v3.trans rfl, by rw [v4, hk], fun x hx => ?_, ⟨fun _ => hall.1 hex, fun _ => ⟨_, rfl⟩⟩⟩
                cases hx
                rw [List.filterMap_cons, hpi, hlst]
              · rw [if_neg hdr] at hpi ⊢
                refine ⟨v1, hf.trans v2, v3.trans rfl, by rw [v4, hk], fun x hx => ?_, hall⟩
                cases hx
                rw [List.filterMap_cons, hpi]
                exact hlst

end Scene

end Patro
