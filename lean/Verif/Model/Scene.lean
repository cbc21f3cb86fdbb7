import Verif.Model.Py
import Verif.Model.Shapes
/-!
# Model of `Patro/GraphicEngine/GraphicScene/Scene.py`, and of the items of `GraphicItemMixin.py`

At this commit `Scene.py` has a syntax error (line 403) and `GraphicItemMixin.py` imports a module which does not exist: the bodies of the
functions are modelled as if the modules could be imported.

The class of an item and its own parameters (radius, angles, style, text…) are a value of an abstract type `S`, the geometric object made
by `get_geometry` is a value of an abstract type `G`. The functions on them are given by `Shapes`, as well as the answers of the spatial
index of the `rtree` package, which is not part of the repository. The identity of a Python object, `id(object)`, is a natural number.
-/

namespace Patro.Scene

/-- A position: the name of a coordinate or a vector (GraphicItemMixin.py:200-202). -/
inductive Position (K : Type _) where
  | name (n : String)
  | vector (v : Vec K)
deriving DecidableEq, Repr

/-- Two closed boxes with a common point. -/
def _root_.Patro.Box.Meets {K : Type _} [LE K] (a b : Box K) : Prop :=
  a.xInf ≤ b.xSup ∧ b.xInf ≤ a.xSup ∧ a.yInf ≤ b.ySup ∧ b.yInf ≤ a.ySup

instance {K : Type _} [LinearOrder K] (a b : Box K) : Decidable (a.Meets b) := by unfold Box.Meets; infer_instance

/-- What the scene uses of the items and of the `rtree` package: `get_geometry` for the cast positions (GraphicItem.py), `bounding_box` and
`distance_to_point` of the geometric objects, and `rtree.index.Index.intersection`, which is assumed to give, in any order, the identifiers
of the entries whose box meets the given one. -/
structure Shapes (K S G : Type) [LinearOrder K] where
  geometry : S → List (Vec K) → Except PyErr G
  boundingBox : G → Except PyErr (Box K)
  distance : G → Vec K → Except PyErr (Option K)
  query : List (Nat × Box K) → Box K → List Nat
  query_perm : ∀ t b, (query t b).Perm ((t.filter fun e => e.2.Meets b).map Prod.fst)

/-- The attributes of `GraphicItem` (GraphicItemMixin.py:62-73), with its shape, its positions, and the identity of the user data. -/
structure Item (K S G : Type) where
  shape : S
  positions : List (Position K)
  userData : Option Nat
  z : K
  visible : Bool := true
  selected : Bool := false
  dirty : Bool := true
  geometry : Option G := none
  boundingBox : Option (Box K) := none

/-- The attributes of `GraphicSceneScope` (Scene.py:86-98): `rtree` lists the entries of the index. -/
structure Scene (K S G : Type) where
  transformation : Vec K → Vec K
  coordinates : Dict String (Vec K) := []
  items : Dict Nat (Item K S G) := []
  userDataMap : Dict Nat (List Nat) := []
  rtree : List (Nat × Box K) := []
  boxes : Dict Nat (Box K) := []

variable {K S G : Type} [Field K] [LinearOrder K]

/-- `add_coordinate(name, position)` (Scene.py:154-157). The coordinate has a vector as position. -/
def Scene.addCoordinate (s : Scene K S G) (name : String) (position : Vec K) : Scene K S G :=
  { s with coordinates := s.coordinates.set name position }

/-- `remove_coordinate(name)` (Scene.py:161-162). -/
def Scene.removeCoordinate (s : Scene K S G) (name : String) : Except PyErr (Scene K S G) :=
  if s.coordinates.contains name then .ok { s with coordinates := s.coordinates.erase name } else .error .keyError

/-- `coordinate(name).position` (Scene.py:166-167). -/
def Scene.coordinate (s : Scene K S G) (name : String) : Except PyErr (Vec K) := s.coordinates.getItem name

/-- `cast_position(position)` (Scene.py:171-181). -/
def Scene.castPosition (s : Scene K S G) : Position K → Except PyErr (Vec K)
  | .name n => (s.coordinates.getItem n).map s.transformation
  | .vector v => .ok (s.transformation v)

/-- `add_item(cls, *args, **kwargs)` (Scene.py:185-200) and `GraphicItem.__init__` (GraphicItemMixin.py:62-73): `id` is the identity of the
new object. -/
def Scene.addItem (s : Scene K S G) (id : Nat) (shape : S) (positions : List (Position K)) (userData : Option Nat) : Scene K S G :=
  let item : Item K S G := { shape, positions, userData, z := 0 }
  let s := { s with items := s.items.set id item }
  match userData with
  | none => s
  | some u => { s with userDataMap := s.userDataMap.set u ((s.userDataMap.get? u).getD [] ++ [id]) }

/-- `remove_item(item)` (Scene.py:204-211): `update_rtree` has no argument, so that its call raises `TypeError` at once. -/
def Scene.removeItem (s : Scene K S G) (_ : Nat) : Except PyErr Unit × Scene K S G := (.error .typeError, s)

/-- `item_for_user_data(user_data)` (Scene.py:215-217). -/
def Scene.itemForUserData (s : Scene K S G) (userData : Nat) : Option (List Nat) := s.userDataMap.get? userData

/-- The grouping loop of `z_value_iter` (Scene.py:130-134). -/
def groupByZ (items : List (Item K S G)) : Dict K (List (Item K S G)) :=
  items.foldl (init := []) fun zMap item => if item.visible then zMap.set item.z ((zMap.get? item.z).getD [] ++ [item]) else zMap

/-- `z_value_iter()` (Scene.py:127-137). -/
def Scene.zValueIter (s : Scene K S G) : Except PyErr (List (Item K S G)) := do
  let zMap := groupByZ s.items.values
  let groups ← (zMap.keys.mergeSort (fun a b => decide (a ≤ b))).mapM zMap.getItem
  return groups.flatten

/-- `selected_items` (Scene.py:141-144), as identities. -/
def Scene.selectedItems (s : Scene K S G) : List Nat := (s.items.filter fun e => e.2.selected).map Prod.fst

/-- An attribute of an item of the scene is set. -/
def Scene.modify (s : Scene K S G) (id : Nat) (f : Item K S G → Item K S G) : Scene K S G :=
  { s with items := s.items.map fun e => if e.1 = id then (e.1, f e.2) else e }

/-- `unselect_items()` (Scene.py:148-150). -/
def Scene.unselectItems (s : Scene K S G) : Scene K S G :=
  s.selectedItems.foldl (init := s) fun s id => s.modify id fun i => { i with selected := false }

/-- The setter of `dirty` (GraphicItemMixin.py:135-142). -/
def Item.setDirty (i : Item K S G) (value : Bool) : Item K S G :=
  if value then { i with dirty := true } else { i with dirty := true, geometry := none, boundingBox := none }

variable (sh : Shapes K S G)

/-- `geometry` (GraphicItemMixin.py:152-157), and the item afterwards. -/
def Scene.itemGeometry (s : Scene K S G) (i : Item K S G) : Except PyErr G × Item K S G :=
  match i.geometry with
  | some g => (.ok g, i)
  | none =>
    match i.positions.mapM s.castPosition >>= sh.geometry i.shape with
    | .error e => (.error e, i)
    | .ok g => (.ok g, { i with geometry := some g, dirty := false })

/-- `bounding_box` (GraphicItemMixin.py:146-150) with `get_bounding_box` (166-167), and the item afterwards. -/
def Scene.itemBox (s : Scene K S G) (i : Item K S G) : Except PyErr (Box K) × Item K S G :=
  match i.boundingBox with
  | some b => (.ok b, i)
  | none =>
    match s.itemGeometry sh i with
    | (.error e, i) => (.error e, i)
    | (.ok g, i) =>
      match sh.boundingBox g with
      | .error e => (.error e, i)
      | .ok b => (.ok b, { i with boundingBox := some b })

/-- `distance_to_point(point)` (GraphicItemMixin.py:171-172), and the item afterwards. -/
def Scene.itemDistance (s : Scene K S G) (i : Item K S G) (point : Vec K) : Except PyErr (Option K) × Item K S G :=
  match s.itemGeometry sh i with
  | (.error e, i) => (.error e, i)
  | (.ok g, i) => (sh.distance g point, i)

/-- `rtree.delete(item_id, bounding_box)`: an entry with this identifier and this box is removed, if any. -/
def rtreeDelete (t : List (Nat × Box K)) (id : Nat) (b : Box K) : List (Nat × Box K) := t.erase (id, b)

/-- The first part of `update_rtree_item(item)` (Scene.py:229-232): the old box leaves the cache and the index. -/
def Scene.popBox (s : Scene K S G) (id : Nat) : Scene K S G :=
  match s.boxes.get? id with
  | some old => { s with boxes := s.boxes.erase id, rtree := rtreeDelete s.rtree id old }
  | none => s

/-- The second part of `update_rtree_item(item)` (Scene.py:233-238). The `rtree` package rejects a box whose minimum exceeds the maximum. -/
def Scene.insertBox (s : Scene K S G) (id : Nat) (i : Item K S G) : Except PyErr Unit × Scene K S G :=
  match s.itemBox sh i with
  | (.error e, i') => (.error e, s.modify id fun _ => i')
  | (.ok b, i') =>
    let s := s.modify id fun _ => i'
    if b.xInf ≤ b.xSup ∧ b.yInf ≤ b.ySup then (.ok (), { s with rtree := s.rtree ++ [(id, b)], boxes := s.boxes.set id b })
    else (.error .rtreeError, s)

/-- `update_rtree_item(item)` (Scene.py:228-238). -/
def Scene.updateRtreeItem (s : Scene K S G) (id : Nat) (i : Item K S G) : Except PyErr Unit × Scene K S G :=
  (s.popBox id).insertBox sh id i

/-- The loop of `update_rtree` (Scene.py:221-224) on the remaining items. An item only changes when it is its turn. -/
def Scene.updateLoop (s : Scene K S G) : List (Nat × Item K S G) → Except PyErr Unit × Scene K S G
  | [] => (.ok (), s)
  | (id, i) :: rest =>
    if i.dirty then
      match s.updateRtreeItem sh id i with
      | (.error e, s) => (.error e, s)
      | (.ok (), s) => s.updateLoop rest
    else s.updateLoop rest

/-- `update_rtree()` (Scene.py:221-224). -/
def Scene.updateRtree (s : Scene K S G) : Except PyErr Unit × Scene K S G := s.updateLoop sh s.items

/-- `item_in_bounding_box(bounding_box)` (Scene.py:245-252): `intersection` gives a generator, which is always true. -/
def Scene.itemInBoundingBox (s : Scene K S G) (b : Box K) : Except PyErr (List (Nat × Item K S G)) :=
  if b.xInf ≤ b.xSup ∧ b.yInf ≤ b.ySup then
    (sh.query s.rtree b).mapM fun id => do return (id, ← s.items.getItem id)
  else .error .rtreeError

/-- The loop of `item_at` (Scene.py:263-271) on the remaining items: an item with `NotImplementedError` is skipped. The identifiers of the
index are distinct (proved), so that an item only changes when it is its turn. -/
def Scene.pickLoop (s : Scene K S G) (position : Vec K) (radius : K) :
    List (Nat × Item K S G) → Except PyErr (List (K × Nat)) × Scene K S G
  | [] => (.ok [], s)
  | (id, i) :: rest =>
    match s.itemDistance sh i position with
    | (.error e, i') =>
      let s := s.modify id fun _ => i'
      if e = .notImplementedError then s.pickLoop position radius rest else (.error e, s)
    | (.ok d, i') =>
      match (s.modify id fun _ => i').pickLoop position radius rest with
      | (.error e, s) => (.error e, s)
      | (.ok l, s) =>
        match d with
        | some d => if d ≤ radius then (.ok ((d, id) :: l), s) else (.ok l, s)
        | none => (.ok l, s)

/-- `item_at(position, radius)` (Scene.py:256-272): the distances and the identities of the items, and the scene afterwards. -/
def Scene.itemAt (s : Scene K S G) (position : Vec K) (radius : K) : Except PyErr (List (K × Nat)) × Scene K S G :=
  match s.itemInBoundingBox sh ⟨position.x - radius, position.x + radius, position.y - radius, position.y + radius⟩ with
  | .error e => (.error e, s)
  | .ok items =>
    match s.pickLoop sh position radius items with
    | (.error e, s) => (.error e, s)
    | (.ok l, s) => (.ok (l.mergeSort fun a b => decide (a.1 ≤ b.1)), s)

/-! ## `bezier_path` -/

/-- The loop of `bezier_path` (Scene.py:542-546): the lists of points given to the method for `i` in `range(n)`. -/
def bezierChunks {P : Type _} (points : List P) (degree n : Nat) : List (List P) :=
  (List.range n).map fun i => (points.drop (degree * i)).take (degree + 1)

/-- `bezier_path(points, degree)` (Scene.py:521-548): the control points of the items, and the exception raised if any. The methods take
`degree + 1` points: with less points an argument is missing, `TypeError`, and the items already added stay in the scene. -/
def bezierPath {P : Type _} (points : List P) (degree : Nat) : List (List P) × Except PyErr Unit :=
  if degree = 1 ∨ degree = 2 ∨ degree = 3 then
    if ((points.length : Int) - 1) % degree ≠ 0 then ([], .error .valueError)
    else
      let chunks := bezierChunks points degree (points.length / degree)
      let good := chunks.takeWhile fun c => c.length = degree + 1
      (good, if good.length = chunks.length then .ok () else .error .typeError)
  else ([], .error .valueError)

end Patro.Scene
