import Verif.Spec.Viewer
import Verif.Props.Paper
import Mathlib.Data.Rat.Floor
import Mathlib.Tactic.Ring
import Mathlib.Tactic.FieldSimp
import Mathlib.Tactic.Linarith
import Mathlib.Tactic.Positivity
import Mathlib.Tactic.NormNum
/-!
# C239 to C241: the viewer and its window
-/

namespace Patro.Viewer

open Paper (Viewport computeScale axisScale)
open Xml (Text)

variable {K : Type} [Field K] [LinearOrder K]

section

variable [IsStrictOrderedRing K]

theorem update_shows (v : Viewport K) (size center : Vec K) (hsize : v.size = some size) (hc : v.center = some center) (hs : v.scale ≠ 0) :
    ∃ v', update v = (.ok (), v') ∧ Shows v' size center v.scale ∧ v'.scene = v.scene := by
  have h2 : (2 : K) ≠ 0 := two_ne_zero
  let offset := (size.sdiv 2).smul (1 / v.scale)
  let area : Box K := ⟨center.x - offset.x, center.x + offset.x, center.y - offset.y, center.y + offset.y⟩
  refine ⟨{ v with area := some area, translation := some (-⟨area.xInf, area.ySup⟩) }, ?_, ⟨hsize, hc, rfl, ?_, ?_, area, rfl, ?_, ?_⟩, rfl⟩
  · unfold update
    simp only [hsize, hc, if_neg hs]
    rfl
  · intro p
    simp only [Viewport.sceneToViewport, picture, Except.ok.injEq, Vec.ext_iff, Vec.add_x, Vec.add_y, Vec.neg_x, Vec.neg_y, Vec.smul_x,
      Vec.smul_y, Vec.sdiv_x, Vec.sdiv_y, area, offset]
    constructor <;> field_simp <;> ring
  · intro p
    simp only [Viewport.viewportToScene, picture, Except.ok.injEq, Vec.ext_iff, Vec.sub_x, Vec.sub_y, Vec.neg_x, Vec.neg_y, Vec.smul_x,
      Vec.smul_y, Vec.sdiv_x, Vec.sdiv_y, area, offset]
    constructor <;> field_simp <;> ring
  · simp only [picture, Vec.ext_iff, Vec.smul_x, Vec.smul_y, Vec.sdiv_x, Vec.sdiv_y, area, offset]
    constructor <;> field_simp <;> ring
  · simp only [picture, Vec.ext_iff, Vec.smul_x, Vec.smul_y, Vec.sdiv_x, Vec.sdiv_y, area, offset]
    constructor <;> field_simp <;> ring

theorem zoomTo_shows (v : Viewport K) (size center : Vec K) (scale : K) (hsize : v.size = some size) (hs : scale ≠ 0) :
    ∃ v', zoomTo v (some center) scale = (.ok (), v') ∧ Shows v' size center scale ∧ v'.scene = v.scene :=
  update_shows { v with center := some center, scale := scale } size center hsize rfl hs

/-- The scale that fits a proper box is positive. -/
theorem computeScale_pos (size : Vec K) (hx : 0 < size.x) (hy : 0 < size.y) (box : Box K) (h : Proper box) :
    ∃ s, computeScale size box = some s ∧ 0 < s := by
  have hax : ∀ a b : K, 0 < a → 0 ≤ b → (axisScale a b = none ∧ b = 0) ∨ ∃ s, axisScale a b = some s ∧ 0 < s := by
    intro a b ha hb
    unfold axisScale
    split
    · rename_i h0
      left
      refine ⟨rfl, ?_⟩
      rcases mul_eq_zero.1 h0 with h | h
      · exact h
      · norm_num at h
    · rename_i h0
      right
      refine ⟨_, rfl, div_pos ha (lt_of_le_of_ne (mul_nonneg hb (by norm_num)) (Ne.symm h0))⟩
  obtain ⟨h1, h2, h3⟩ := h
  unfold computeScale
  rcases hax size.x (box.xSup - box.xInf) hx (by linarith) with ⟨ea, ha⟩ | ⟨a, ea, ha⟩ <;>
    rcases hax size.y (box.ySup - box.yInf) hy (by linarith) with ⟨eb, hb⟩ | ⟨b, eb, hb⟩ <;> rw [ea, eb] <;> dsimp only
  · rcases h3 with h3 | h3 <;> linarith
  · exact ⟨b, rfl, hb⟩
  · exact ⟨a, rfl, ha⟩
  · refine ⟨_, rfl, ?_⟩
    split <;> assumption

/-! ## The invariant -/

theorem blank_iff (v : Viewport K) : Blank v ↔ v.center = none ∧ v.area = none ∧ v.translation = none := by
  unfold Blank
  refine and_congr_right fun _ => and_congr_right fun _ => ⟨fun h => ?_, fun h p => ?_⟩
  · cases ht : v.translation with
    | none => rfl
    | some t => exact absurd (h ⟨0, 0⟩).1 (by simp [Viewport.sceneToViewport, ht])
  · simp [Viewport.sceneToViewport, Viewport.viewportToScene, h]

theorem not_blank {v : Viewport K} {size center : Vec K} {scale : K} (h : Shows v size center scale) : ¬Blank v := fun hb => by
  have h1 := h.2.1
  rw [hb.1] at h1
  cases h1

/-- What holds of the viewport at every moment. -/
structure Good (v : Viewport K) : Prop where
  scale : 0 < v.scale
  size : ∀ s, v.size = some s → 0 < s.x ∧ 0 < s.y
  box : ∀ b, v.scene = some (some b) → Proper b
  empty : v.scene = none → Blank v
  state : Blank v ∨ ∃ size center, Shows v size center v.scale

/-- What a step does, but a change of size. -/
def Next (v v' : Viewport K) : Prop := Good v' ∧ v'.size = v.size ∧ (¬Blank v → ¬Blank v')

omit [IsStrictOrderedRing K] in
theorem next_refl {v : Viewport K} (h : Good v) : Next v v := ⟨h, rfl, id⟩

theorem good_scene {v : Viewport K} (h : Good v) (box : Option (Box K)) (hb : ∀ b, box = some b → Proper b) :
    Good { v with scene := some box } where
  scale := h.scale
  size := h.size
  box := fun b e => hb b (Option.some.inj e)
  empty := fun e => absurd e (by simp)
  state := h.state

theorem next_zoomTo {v : Viewport K} (h : Good v) (center : Vec K) {scale : K} (hs : 0 < scale) (hsize : v.size ≠ none) (hscene : v.scene ≠ none) :
    Next v (zoomTo v (some center) scale).2 := by
  obtain ⟨size, e⟩ := Option.ne_none_iff_exists'.1 hsize
  obtain ⟨v', e', hv, hsc⟩ := zoomTo_shows v size center scale e hs.ne'
  rw [e']
  dsimp only
  have hscale : v'.scale = scale := hv.2.2.1
  refine ⟨⟨hscale ▸ hs, ?_, ?_, ?_, Or.inr ⟨size, center, hscale.symm ▸ hv⟩⟩, ?_, fun _ => not_blank hv⟩
  · intro s hs'
    exact h.size s (by rw [e, ← hv.1]; exact hs')
  · intro b hb
    exact h.box b (by rw [← hsc]; exact hb)
  · intro hn
    exact absurd (hsc ▸ hn) hscene
  · rw [hv.1, e]

theorem next_center {v : Viewport K} (h : Good v) {scale : K} (hs : 0 < scale) : Next v (zoomTo v v.center scale).2 := by
  rcases h.state with hb | ⟨size, center, hv⟩
  · have hb' := (blank_iff v).1 hb
    have hu : (zoomTo v v.center scale).2 = { v with scale := scale } := by
      unfold zoomTo update
      rw [hb'.1]
      dsimp only
      cases hsz : v.size with
      | none => dsimp only
      | some s =>
        dsimp only
        rw [if_neg hs.ne']
    rw [hu]
    have hbl : Blank { v with scale := scale } := (blank_iff _).2 hb'
    exact ⟨⟨hs, h.size, h.box, fun _ => hbl, Or.inl hbl⟩, rfl, fun hn => absurd hb hn⟩
  · rw [hv.2.1]
    exact next_zoomTo h center hs (by rw [hv.1]; simp) (fun e => not_blank hv (h.empty e))

theorem next_fit {v : Viewport K} (h : Good v) : Next v (fitScene v).2 := by
  unfold fitScene
  cases hsc : v.scene with
  | none => exact next_refl h
  | some ob =>
    cases ob with
    | none => exact next_refl h
    | some box =>
      dsimp only
      cases hsz : v.size with
      | none => exact next_refl h
      | some size =>
        dsimp only
        obtain ⟨s, es, hs⟩ := computeScale_pos size (h.size _ hsz).1 (h.size _ hsz).2 box (h.box _ hsc)
        rw [es]
        exact next_zoomTo h _ hs (by rw [hsz]; simp) (by rw [hsc]; simp)

theorem good_setSize {v : Viewport K} (h : Good v) (size : Vec K) (hx : 0 < size.x) (hy : 0 < size.y) :
    Good (setSize v size).2 ∧ (setSize v size).2.size = some size ∧ (¬Blank v → ¬Blank (setSize v size).2) := by
  unfold setSize
  dsimp only
  have hpos : ∀ s, (some size : Option (Vec K)) = some s → 0 < s.x ∧ 0 < s.y := fun s e => Option.some.inj e ▸ ⟨hx, hy⟩
  rcases h.state with hb | ⟨sz, center, hv⟩
  · have hb' := (blank_iff v).1 hb
    have hbl : Blank { v with size := some size } := (blank_iff _).2 hb'
    have hg : Good { v with size := some size } := ⟨h.scale, hpos, h.box, fun _ => hbl, Or.inl hbl⟩
    split
    · have hu : (update { v with size := some size }).2 = { v with size := some size } := by
        unfold update
        dsimp only
        rw [hb'.1, if_neg h.scale.ne']
      rw [hu]
      exact ⟨hg, rfl, fun hn => absurd hb hn⟩
    · exact ⟨hg, rfl, fun hn => absurd hb hn⟩
  · have hscene : v.scene ≠ none := fun e => not_blank hv (h.empty e)
    rw [if_pos (Option.isSome_iff_ne_none.2 hscene)]
    obtain ⟨v', e', hv', hsc⟩ := update_shows { v with size := some size } size center rfl hv.2.1 h.scale.ne'
    rw [e']
    dsimp only
    have hscale : v'.scale = v.scale := hv'.2.2.1
    refine ⟨⟨hscale ▸ h.scale, hv'.1 ▸ hpos, fun b hb => h.box b (by rw [← hb, hsc]), fun hn => absurd (hsc ▸ hn) hscene,
      Or.inr ⟨size, center, hscale.symm ▸ hv'⟩⟩, hv'.1, fun _ => not_blank hv'⟩

theorem next_item {q : Item K} (h : Good q.viewport) :
    (∀ z, 0 < z → Next q.viewport (q.zoomAtCenter z).2.viewport) ∧ (∀ p z, 0 < z → Next q.viewport (q.zoomAt p z).2.viewport) ∧
      Next q.viewport q.fit.2.viewport ∧ ∀ d, Next q.viewport (q.pan d).2.viewport := by
  refine ⟨fun z hz => ?_, fun p z hz => ?_, ?_, fun d => ?_⟩
  · unfold Item.zoomAtCenter
    split
    · exact next_center h hz
    · exact next_refl h
  · unfold Item.zoomAt
    split
    · rcases h.state with hb | ⟨size, center, hv⟩
      · rw [(hb.2.2 p).2]
        exact next_refl h
      · split
        · exact next_refl h
        · exact next_zoomTo h _ hz (by rw [hv.1]; simp) (fun e => not_blank hv (h.empty e))
    · exact next_refl h
  · unfold Item.fit
    split
    · exact next_fit h
    · exact next_refl h
  · unfold Item.pan
    split
    · rw [if_neg h.scale.ne']
      rcases h.state with hb | ⟨size, center, hv⟩
      · rw [hb.1]
        exact next_refl h
      · rw [hv.2.1]
        exact next_zoomTo h _ h.scale (by rw [hv.1]; simp) (fun e => not_blank hv (h.empty e))
    · exact next_refl h

theorem next_setScene {q : Item K} (h : Good q.viewport) (scene : Option Nat) (filled : Bool) (box : Option (Box K))
    (hb : ∀ b, box = some b → Proper b) : Next q.viewport (q.setScene scene filled box).2.viewport := by
  unfold Item.setScene
  split
  · exact next_refl h
  · dsimp only
    split
    · exact next_refl h
    · exact next_fit (good_scene h box hb)

theorem factors_pos : (0 : K) < zoomInFactor ∧ (0 : K) < zoomOutFactor := by
  unfold zoomInFactor zoomOutFactor
  constructor <;> norm_num

/-- A step keeps the invariant, and the size is the one of the event if it has one. -/
theorem step_good (fixed : K → Text) {w : Window K} (h : Good w.item.viewport) (e : Event K) (he : e.Fair) :
    Good (w.step fixed e).item.viewport ∧ (w.step fixed e).item.viewport.size = e.size.or w.item.viewport.size ∧
      (¬Blank w.item.viewport → ¬Blank (w.step fixed e).item.viewport) := by
  obtain ⟨h1, h2, h3, h4⟩ := next_item h
  cases e with
  | resize size =>
    have := good_setSize h size he.1 he.2
    exact this
  | setScene scene filled box => exact next_setScene h scene filled box he
  | edit filled box =>
    show Next w.item.viewport (w.item.edit filled box).viewport
    unfold Item.edit
    split
    · exact ⟨good_scene h box he, rfl, id⟩
    · exact next_refl h
  | fitButton => exact h3
  | zoomIn => exact h1 _ (mul_pos h.scale factors_pos.1)
  | zoomOut => exact h1 _ (mul_pos h.scale factors_pos.2)
  | key k => exact h4 _
  | press b p => cases b <;> exact next_refl h
  | release => exact next_refl h
  | move p =>
    unfold Window.step
    cases w.mouseStart with
    | none =>
      dsimp only
      split <;> exact next_refl h
    | some start => exact h4 _
  | wheel p a =>
    refine h2 p _ ?_
    split
    · exact mul_pos h.scale two_pos
    · exact half_pos h.scale

theorem run_good (fixed : K → Text) (events : List (Event K)) : ∀ {w : Window K}, Good w.item.viewport → (∀ e ∈ events, e.Fair) →
    Good (w.run fixed events).item.viewport ∧ (w.run fixed events).item.viewport.size = (lastSize events).or w.item.viewport.size ∧
      (¬Blank w.item.viewport → ¬Blank (w.run fixed events).item.viewport) := by
  induction events with
  | nil => exact fun h _ => ⟨h, rfl, id⟩
  | cons e events ih =>
    intro w h he
    obtain ⟨h1, h2, h3⟩ := step_good fixed h e (he e List.mem_cons_self)
    obtain ⟨h4, h5, h6⟩ := ih h1 fun e' h' => he e' (List.mem_cons_of_mem e h')
    refine ⟨h4, ?_, h6 ∘ h3⟩
    show ((w.step fixed e).run fixed events).item.viewport.size = _
    rw [h5, h2]
    unfold lastSize
    cases hsz : e.size with
    | none => simp [List.filterMap_cons, hsz]
    | some s =>
      rw [List.filterMap_cons, hsz]
      dsimp only
      cases hl : (events.filterMap Event.size).getLast? with
      | none =>
        rw [List.getLast?_eq_none_iff] at hl
        simp [hl]
      | some l => simp [List.getLast?_cons, hl]

theorem good_new : Good (Window.new : Window K).item.viewport := by
  have hb : Blank (Window.new : Window K).item.viewport := (blank_iff _).2 ⟨rfl, rfl, rfl⟩
  exact ⟨one_pos, (fun s e => by cases e), (fun b e => by cases e), fun _ => hb, Or.inl hb⟩

/-! ## C239: what is seen at every moment -/

/-- C239. Whatever happens to a window, the scale is positive, the size is the last one that was given, and either no point was ever converted or
the viewport shows a picture. -/
theorem session_mapping (fixed : K → Text) (events : List (Event K)) (h : ∀ e ∈ events, e.Fair) :
    let v := (Window.new.run fixed events).item.viewport
    0 < v.scale ∧ v.size = lastSize events ∧ (Blank v ∨ ∃ size center, Shows v size center v.scale) := by
  obtain ⟨h1, h2, _⟩ := run_good fixed events good_new h
  refine ⟨h1.scale, ?_, h1.state⟩
  rw [h2]
  exact Option.or_none

theorem run_append (fixed : K → Text) (w : Window K) (before after : List (Event K)) :
    w.run fixed (before ++ after) = (w.run fixed before).run fixed after := List.foldl_append

/-- C239. Once a picture is shown, there is always one. -/
theorem stays_shown (fixed : K → Text) (before after : List (Event K)) (hb : ∀ e ∈ before, e.Fair) (ha : ∀ e ∈ after, e.Fair)
    {size center : Vec K} {scale : K} (h : Shows (Window.new.run fixed before).item.viewport size center scale) :
    ∃ size' center' scale', 0 < scale' ∧ Shows (Window.new.run fixed (before ++ after)).item.viewport size' center' scale' := by
  obtain ⟨h1, _, _⟩ := run_good fixed before good_new hb
  rw [run_append]
  obtain ⟨h4, _, h6⟩ := run_good fixed after h1 ha
  rcases h4.state with hbl | ⟨size', center', hv⟩
  · exact absurd hbl (h6 (not_blank h))
  · exact ⟨size', center', _, h4.scale, hv⟩

/-- The middle of a box. -/
def middle (b : Box K) : Vec K := ⟨(b.xInf + b.xSup) / 2, (b.yInf + b.ySup) / 2⟩

theorem fit_shows [FloorRing K] (v : Viewport K) (size : Vec K) (box : Box K) (hsize : v.size = some size) (hscene : v.scene = some (some box))
    (hx : 0 < size.x) (hy : 0 < size.y) (hb : Proper box) :
    ∃ scale v', computeScale size box = some scale ∧ 0 < scale ∧ fitScene v = (.ok (), v') ∧ Shows v' size (middle box) scale ∧
      v'.scene = v.scene ∧ ∀ p, Paper.Within p box → Paper.Inside (picture size (middle box) scale p) ⟨0, size.x, 0, size.y⟩ := by
  obtain ⟨scale, es, hs⟩ := computeScale_pos size hx hy box hb
  obtain ⟨v', e', hv, hsc⟩ := zoomTo_shows v size (middle box) scale hsize hs.ne'
  refine ⟨scale, v', es, hs, ?_, hv, hsc, ?_⟩
  · unfold fitScene
    rw [hscene, hsize]
    dsimp only
    rw [es]
    exact e'
  · obtain ⟨v₁, h1, _, h3, _, _⟩ := Paper.fit v size box hsize hscene hx hy hb.1 hb.2.1 hb.2.2
    have h4 : v.fitScene = v.zoomAt (middle box) scale := by
      unfold Viewport.fitScene
      rw [hscene, hsize]
      dsimp only
      rw [es]
      rfl
    obtain ⟨v₂, h5, _, _, _, _, h6⟩ := Paper.zoom_mapping v size (middle box) scale hsize hs.ne'
    rw [h4, h5] at h1
    cases h1
    intro p hp
    obtain ⟨q, hq, hi⟩ := h3 p hp
    rw [h6 p] at hq
    cases hq
    exact hi

/-- C239. In a window that has a size, a new scene with a bounding box is shown, at the middle of the viewport and entirely. -/
theorem scene_shown [FloorRing K] (fixed : K → Text) (events : List (Event K)) (h : ∀ e ∈ events, e.Fair) (size : Vec K)
    (hsize : lastSize events = some size) (id : Nat) (hid : (Window.new.run fixed events).item.scene ≠ some id) (filled : Bool) (box : Box K)
    (hb : Proper box) :
    ∃ scale, 0 < scale ∧ Shows (Window.new.run fixed (events ++ [.setScene (some id) filled (some box)])).item.viewport size (middle box) scale ∧
      ∀ p, Paper.Within p box → Paper.Inside (picture size (middle box) scale p) ⟨0, size.x, 0, size.y⟩ := by
  obtain ⟨h1, h2, _⟩ := run_good fixed events good_new h
  rw [run_append]
  generalize Window.new.run fixed events = w at h1 h2 hid
  rw [hsize] at h2
  replace h2 : w.item.viewport.size = some size := h2
  obtain ⟨scale, v', _, hs, e', hv, _, hin⟩ := fit_shows { w.item.viewport with scene := some (some box) } size box h2 rfl (h1.size _ h2).1
    (h1.size _ h2).2 hb
  refine ⟨scale, hs, ?_, hin⟩
  show Shows (w.item.setScene (some id) filled (some box)).2.viewport _ _ _
  unfold Item.setScene
  rw [if_neg hid]
  simp only [Option.isNone_some, Bool.false_eq_true, if_false]
  rw [e']
  exact hv

/-- C239. When the application fills the scene that is set and assigns its bounding box, the button which fits shows the whole of it. -/
theorem edit_then_fit [FloorRing K] (fixed : K → Text) (events : List (Event K)) (h : ∀ e ∈ events, e.Fair) (size : Vec K)
    (hsize : lastSize events = some size) (hid : (Window.new.run fixed events).item.scene.isSome) (box : Box K) (hb : Proper box) :
    ∃ scale, 0 < scale ∧ Shows (Window.new.run fixed (events ++ [.edit true (some box), .fitButton])).item.viewport size (middle box) scale ∧
      ∀ p, Paper.Within p box → Paper.Inside (picture size (middle box) scale p) ⟨0, size.x, 0, size.y⟩ := by
  obtain ⟨h1, h2, _⟩ := run_good fixed events good_new h
  rw [run_append]
  generalize Window.new.run fixed events = w at h1 h2 hid
  rw [hsize] at h2
  replace h2 : w.item.viewport.size = some size := h2
  obtain ⟨scale, v', _, hs, e', hv, _, hin⟩ := fit_shows { w.item.viewport with scene := some (some box) } size box h2 rfl (h1.size _ h2).1
    (h1.size _ h2).2 hb
  refine ⟨scale, hs, ?_, hin⟩
  show Shows (w.item.edit true (some box)).fit.2.viewport _ _ _
  unfold Item.edit Item.fit Item.shows
  simp only [hid, if_true, Bool.and_self]
  rw [e']
  exact hv

omit [IsStrictOrderedRing K] in
/-- C239. Without a scene, or with a scene without items, the slots do nothing and no coordinates are displayed. -/
theorem no_scene (q : Item K) (h : q.scene = none ∨ q.filled = false) :
    (∀ z, q.zoomAtCenter z = (.ok (), q)) ∧ (∀ p z, q.zoomAt p z = (.ok (), q)) ∧ q.fit = (.ok (), q) ∧ (∀ d, q.pan d = (.ok (), q)) ∧
      ∀ fixed p, q.formatCoordinate fixed p = .ok [] := by
  have hs : q.shows = false := by
    unfold Item.shows
    rcases h with h | h <;> simp [h]
  refine ⟨fun z => ?_, fun p z => ?_, ?_, fun d => ?_, fun f p => ?_⟩ <;>
    simp [Item.zoomAtCenter, Item.zoomAt, Item.fit, Item.pan, Item.formatCoordinate, hs]

/-- C239. When a picture is shown, the slots do not raise, but for a fit to a scene which has lost its bounding box. -/
theorem slots_succeed (q : Item K) {size center : Vec K} {scale : K} (h : Shows q.viewport size center scale) (hs : scale ≠ 0)
    (hx : 0 < size.x) (hy : 0 < size.y) (hb : ∀ b, q.viewport.scene = some (some b) → Proper b) :
    (∀ s, (q.resize s).1 = .ok ()) ∧ (∀ z, z ≠ 0 → (q.zoomAtCenter z).1 = .ok ()) ∧ (∀ p z, z ≠ 0 → (q.zoomAt p z).1 = .ok ()) ∧
      (∀ d, (q.pan d).1 = .ok ()) ∧
      (q.fit.1 = .error .attributeError ↔ q.scene.isSome ∧ q.filled = true ∧ q.viewport.scene = some none) ∧
      (q.fit.1 ≠ .error .attributeError → q.fit.1 = .ok ()) := by
  have hsc : q.viewport.scale = scale := h.2.2.1
  refine ⟨fun s => ?_, fun z hz => ?_, fun p z hz => ?_, fun d => ?_, ?_⟩
  · unfold Item.resize setSize
    dsimp only
    split
    · obtain ⟨v', e', _⟩ := update_shows { q.viewport with size := some s } s center rfl h.2.1 (by rw [← hsc] at hs; exact hs)
      rw [e']
    · rfl
  · unfold Item.zoomAtCenter
    split
    · obtain ⟨v', e', _⟩ := zoomTo_shows q.viewport size center z h.1 hz
      rw [h.2.1, e']
    · rfl
  · unfold Item.zoomAt
    split
    · cases hp : q.viewport.viewportToScene p with
      | error e =>
        have h1 := h.2.2.2.2.1 center
        unfold Viewport.viewportToScene at hp h1
        split at hp <;> simp_all
      | ok c =>
        obtain ⟨v', e', _⟩ := zoomTo_shows q.viewport size c z h.1 hz
        dsimp only
        rw [e']
    · rfl
  · unfold Item.pan
    split
    · rw [hsc, if_neg hs, h.2.1]
      dsimp only
      obtain ⟨v', e', _⟩ := zoomTo_shows q.viewport size (center + d.smul (1 / scale)) scale h.1 hs
      rw [e']
    · rfl
  · have key : q.fit.1 = if q.shows = true ∧ q.viewport.scene = some none then .error .attributeError else .ok () := by
      unfold Item.fit
      cases hsh : q.shows with
      | false => simp
      | true =>
        simp only [if_true, true_and]
        unfold fitScene
        cases hvs : q.viewport.scene with
        | none => rfl
        | some ob =>
          cases ob with
          | none => simp
          | some b =>
            rw [h.1]
            dsimp only
            obtain ⟨s, es, hs'⟩ := computeScale_pos size hx hy b (hb b hvs)
            rw [es]
            dsimp only
            obtain ⟨v', e', _⟩ := zoomTo_shows q.viewport size ⟨(b.xInf + b.xSup) / 2, (b.yInf + b.ySup) / 2⟩ s h.1 hs'.ne'
            rw [e']
            simp
    rw [key]
    unfold Item.shows
    constructor
    · split <;> simp_all
    · split <;> simp_all

omit [IsStrictOrderedRing K] in
/-- C239. A null zoom raises `ZeroDivisionError` and is kept: then the viewport can neither be panned nor resized, until another zoom. -/
theorem null_zoom (q : Item K) {size center : Vec K} {scale : K} (h : Shows q.viewport size center scale) (hq : q.shows = true)
    (hscene : q.viewport.scene.isSome) :
    ∃ q', q.zoomAtCenter 0 = (.error .zeroDivisionError, q') ∧ q'.viewport.scale = 0 ∧ (∀ d, q'.pan d = (.error .zeroDivisionError, q')) ∧
      (∀ s, (q'.resize s).1 = .error .zeroDivisionError) ∧ ∀ z, z ≠ 0 → (q'.zoomAtCenter z).2 = (q.zoomAtCenter z).2 := by
  refine ⟨{ q with viewport := { q.viewport with scale := 0 } }, ?_, rfl, fun d => ?_, fun s => ?_, fun z hz => ?_⟩
  · unfold Item.zoomAtCenter zoomTo update
    rw [if_pos hq]
    simp [h.1]
  · have hq' : Item.shows { q with viewport := { q.viewport with scale := 0 } } = true := hq
    unfold Item.pan
    rw [if_pos hq']
    simp
  · unfold Item.resize setSize
    dsimp only
    rw [if_pos hscene]
    unfold update
    simp
  · unfold Item.zoomAtCenter
    have hq' : Item.shows { q with viewport := { q.viewport with scale := 0 } } = true := hq
    rw [if_pos hq, if_pos hq']
    rfl

/-! ## C240: the tool bar and the keyboard -/

theorem pan_shows (q : Item K) {size center : Vec K} {scale : K} (h : Shows q.viewport size center scale) (hs : scale ≠ 0) (hq : q.shows = true)
    (d : Vec K) : ∃ q', q.pan d = (.ok (), q') ∧ q'.shows = true ∧
      Shows q'.viewport size ⟨center.x + d.x / scale, center.y + d.y / scale⟩ scale := by
  have hsc : q.viewport.scale = scale := h.2.2.1
  obtain ⟨v', e', hv, _⟩ := zoomTo_shows q.viewport size (center + d.smul (1 / scale)) scale h.1 hs
  refine ⟨{ q with viewport := v' }, ?_, hq, ?_⟩
  · unfold Item.pan
    rw [if_pos hq, hsc, if_neg hs, h.2.1]
    dsimp only
    rw [e']
  · have hc : center + d.smul (1 / scale) = ⟨center.x + d.x / scale, center.y + d.y / scale⟩ := by
      simp only [Vec.ext_iff, Vec.add_x, Vec.add_y, Vec.smul_x, Vec.smul_y]
      constructor <;> ring
    rw [← hc]
    exact hv

theorem zoom_shows (q : Item K) {size center : Vec K} {scale : K} (h : Shows q.viewport size center scale) (hq : q.shows = true)
    (z : K) (hz : z ≠ 0) : ∃ q', q.zoomAtCenter z = (.ok (), q') ∧ q'.shows = true ∧ Shows q'.viewport size center z := by
  obtain ⟨v', e', hv, _⟩ := zoomTo_shows q.viewport size center z h.1 hz
  refine ⟨{ q with viewport := v' }, ?_, hq, hv⟩
  unfold Item.zoomAtCenter
  rw [if_pos hq, h.2.1]
  dsimp only
  rw [e']

/-- C240. Whatever the arrow keys that are pressed, the view moves by ten pixels for each of them: what is at the middle is moved to the right as
many times as the right key is pressed more than the left key, and so on; the scale is kept. -/
theorem keys (fixed : K → Text) (ks : List Key) : ∀ (w : Window K) {size center : Vec K} {scale : K}, Shows w.item.viewport size center scale →
    scale ≠ 0 → w.item.shows = true →
    Shows (w.run fixed (ks.map .key)).item.viewport size
      ⟨center.x + 10 * ((ks.count .right : K) - ks.count .left) / scale, center.y + 10 * ((ks.count .up : K) - ks.count .down) / scale⟩ scale := by
  induction ks with
  | nil =>
    intro w size center scale h hs hq
    simpa [Window.run] using h
  | cons k ks ih =>
    intro w size center scale h hs hq
    obtain ⟨q', e', hq', hv⟩ := pan_shows w.item h hs hq k.delta
    have hstep : (w.step fixed (.key k)).item = q' := by
      show (w.item.pan k.delta).2 = q'
      rw [e']
    have := ih (w.step fixed (.key k)) (hstep ▸ hv) hs (hstep ▸ hq')
    show Shows ((w.step fixed (.key k)).run fixed (ks.map .key)).item.viewport _ _ _
    convert this using 2
    · cases k <;> simp [Key.delta] <;> field_simp <;> ring
    · cases k <;> simp [Key.delta] <;> field_simp <;> ring

/-- The buttons of the tool bar, `true` to zoom in. -/
def zoomButton (zoomIn : Bool) : Event K := if zoomIn then .zoomIn else .zoomOut

/-- C240, what holds: the buttons keep the middle of the view, and multiply the scale by 1.1 or by 0.9, whatever their order. -/
theorem zoom_buttons_partial (fixed : K → Text) (bs : List Bool) : ∀ (w : Window K) {size center : Vec K} {scale : K},
    Shows w.item.viewport size center scale → scale ≠ 0 → w.item.shows = true →
    Shows (w.run fixed (bs.map zoomButton)).item.viewport size center (scale * (11 / 10) ^ bs.count true * (9 / 10) ^ bs.count false) := by
  induction bs with
  | nil =>
    intro w size center scale h hs hq
    simpa [Window.run] using h
  | cons b bs ih =>
    intro w size center scale h hs hq
    have hsc : w.item.viewport.scale = scale := h.2.2.1
    have hf : (if b then (11 / 10 : K) else 9 / 10) ≠ 0 := by split <;> norm_num
    obtain ⟨q', e', hq', hv⟩ := zoom_shows w.item h hq (scale * if b then (11 / 10 : K) else 9 / 10) (mul_ne_zero hs hf)
    have hstep : (w.step fixed (zoomButton b)).item = q' := by
      cases b with
      | true =>
        show (w.item.zoomAtCenter (w.item.viewport.scale * zoomInFactor)).2 = q'
        have : (zoomInFactor : K) = 11 / 10 := by unfold zoomInFactor; norm_num
        rw [hsc, this]
        simp only [if_true] at e'
        rw [e']
      | false =>
        show (w.item.zoomAtCenter (w.item.viewport.scale * zoomOutFactor)).2 = q'
        have : (zoomOutFactor : K) = 9 / 10 := by unfold zoomOutFactor; norm_num
        rw [hsc, this]
        simp only [Bool.false_eq_true, if_false] at e'
        rw [e']
    have := ih (w.step fixed (zoomButton b)) (hstep ▸ hv) (mul_ne_zero hs hf) (hstep ▸ hq')
    show Shows ((w.step fixed (zoomButton b)).run fixed (bs.map zoomButton)).item.viewport _ _ _
    convert this using 1
    cases b <;> simp <;> ring

theorem factors_ne (a b : Nat) (h : 0 < a + b) : ((11 / 10 : K) ^ a * (9 / 10) ^ b) ≠ 1 := by
  intro e
  have e1 : (11 : K) ^ a * 9 ^ b = 10 ^ (a + b) := by
    rw [div_pow, div_pow] at e
    have h10 : (10 : K) ^ a ≠ 0 := pow_ne_zero _ (by norm_num)
    have h10' : (10 : K) ^ b ≠ 0 := pow_ne_zero _ (by norm_num)
    field_simp at e
    rw [pow_add]
    exact e
  have e2 : 11 ^ a * 9 ^ b = 10 ^ (a + b) := by exact_mod_cast e1
  have h1 : Odd (11 ^ a * 9 ^ b) := (Odd.pow (by decide)).mul (Odd.pow (by decide))
  have h2 : Even (10 ^ (a + b)) := Even.pow_of_ne_zero (by decide) (by omega)
  rw [e2] at h1
  exact (Nat.not_even_iff_odd.2 h1) h2

/-- C240 is false of the buttons: to zoom out does not undo to zoom in. No sequence of the two buttons brings back the scale. -/
theorem zoom_buttons_wrong (fixed : K → Text) (bs : List Bool) (hbs : bs ≠ []) (w : Window K) {size center : Vec K} {scale : K}
    (h : Shows w.item.viewport size center scale) (hs : scale ≠ 0) (hq : w.item.shows = true) :
    (w.run fixed (bs.map zoomButton)).item.viewport.scale ≠ scale := by
  rw [(zoom_buttons_partial fixed bs w h hs hq).2.2.1, mul_assoc]
  intro e
  refine factors_ne (K := K) (bs.count true) (bs.count false) ?_ (mul_left_cancel₀ hs (e.trans (mul_one _).symm))
  cases bs with
  | nil => exact absurd rfl hbs
  | cons b bs => cases b <;> simp

/-- C240. The button that fits the scene forgets all that was done: the picture depends only on the size of the viewport and on the box of the
scene, which is entirely in the viewport. -/
theorem fit_button [FloorRing K] (fixed : K → Text) (size : Vec K) (box : Box K) (hx : 0 < size.x) (hy : 0 < size.y) (hb : Proper box) :
    ∃ scale, 0 < scale ∧ (∀ p, Paper.Within p box → Paper.Inside (picture size (middle box) scale p) ⟨0, size.x, 0, size.y⟩) ∧
      ∀ w : Window K, w.item.shows = true → w.item.viewport.size = some size → w.item.viewport.scene = some (some box) →
        Shows (w.step fixed .fitButton).item.viewport size (middle box) scale := by
  obtain ⟨scale, v₀, es, hs, _, _, _, hin⟩ := fit_shows { scale := 1, size := some size, scene := some (some box) } size box rfl rfl hx hy hb
  refine ⟨scale, hs, hin, fun w hq hsize hscene => ?_⟩
  obtain ⟨scale', v', es', _, e', hv, _⟩ := fit_shows w.item.viewport size box hsize hscene hx hy hb
  rw [es] at es'
  cases es'
  show Shows w.item.fit.2.viewport _ _ _
  unfold Item.fit
  rw [if_pos hq, e']
  exact hv

/-! ## C241: the mouse -/

theorem moves (fixed : K → Text) (ps : List (Vec K)) : ∀ (w : Window K) {size center : Vec K} {scale : K} {start : Vec K},
    w.mouseStart = some start → Shows w.item.viewport size center scale → scale ≠ 0 → w.item.shows = true →
    let stop := ps.getLast?.getD start
    Shows (w.run fixed (ps.map .move)).item.viewport size
      ⟨center.x + 3 / 2 * (stop.x - start.x) / scale, center.y - 3 / 2 * (stop.y - start.y) / scale⟩ scale ∧
      (w.run fixed (ps.map .move)).mouseStart = some stop ∧ (w.run fixed (ps.map .move)).label = w.label := by
  induction ps with
  | nil =>
    intro w size center scale start hm h hs hq
    refine ⟨?_, hm, rfl⟩
    simpa [Window.run] using h
  | cons p ps ih =>
    intro w size center scale start hm h hs hq
    obtain ⟨q', e', hq', hv⟩ := pan_shows w.item h hs hq ⟨(p.x - start.x) * panSpeed, (start.y - p.y) * panSpeed⟩
    have hstep : w.step fixed (.move p) = { w with item := q', mouseStart := some p } := by
      unfold Window.step
      dsimp only
      rw [hm]
      dsimp only
      rw [e']
    obtain ⟨h1, h2, h3⟩ := ih (w.step fixed (.move p)) (start := p) (by rw [hstep]) (by rw [hstep]; exact hv) hs (by rw [hstep]; exact hq')
    have hl : (p :: ps).getLast?.getD start = ps.getLast?.getD p := by
      rw [List.getLast?_cons]
      rfl
    dsimp only
    rw [hl]
    refine ⟨?_, h2, by rw [show w.label = (w.step fixed (.move p)).label by rw [hstep]]; exact h3⟩
    show Shows ((w.step fixed (.move p)).run fixed (ps.map .move)).item.viewport _ _ _
    convert h1 using 2
    · unfold panSpeed
      field_simp
      ring
    · unfold panSpeed
      field_simp
      ring

/-- C241, what holds: when the user presses the middle button, moves the mouse by any way and releases the button, the picture is moved by a
displacement which depends only on the first and the last positions: it is the opposite of the displacement of the mouse, multiplied by 1.5. -/
theorem drag_partial (fixed : K → Text) (w : Window K) {size center : Vec K} {scale : K} (h : Shows w.item.viewport size center scale)
    (hs : scale ≠ 0) (hq : w.item.shows = true) (start : Vec K) (ps : List (Vec K)) (stop : Vec K) :
    let w' := w.run fixed ([.press .middle start] ++ (ps ++ [stop]).map .move ++ [.release])
    w'.mouseStart = none ∧ w'.label = w.label ∧ w'.item.viewport.scale = scale ∧
      ∀ p, w'.item.viewport.sceneToViewport p = .ok ⟨(picture size center scale p).x - 3 / 2 * (stop.x - start.x),
        (picture size center scale p).y - 3 / 2 * (stop.y - start.y)⟩ := by
  dsimp only
  rw [run_append, run_append]
  obtain ⟨h1, h2, h3⟩ := moves fixed (ps ++ [stop]) (w.run fixed [.press .middle start]) (start := start) rfl h hs hq
  have hl : (ps ++ [stop]).getLast?.getD start = stop := by simp
  rw [hl] at h1 h2
  refine ⟨rfl, h3, h1.2.2.1, fun p => ?_⟩
  refine (h1.2.2.2.1 p).trans ?_
  simp only [picture, Except.ok.injEq, Vec.ext_iff]
  constructor
  · field_simp
    ring
  · field_simp
    ring

/-- C241 is false of a drag: the picture does not follow the mouse. The point of the scene which was under the mouse is never under it at the end
of a drag that goes to another place. -/
theorem drag_wrong (fixed : K → Text) (w : Window K) {size center : Vec K} {scale : K} (h : Shows w.item.viewport size center scale)
    (hs : scale ≠ 0) (hq : w.item.shows = true) (start : Vec K) (ps : List (Vec K)) (stop : Vec K) (hne : stop ≠ start) (p : Vec K)
    (hp : w.item.viewport.sceneToViewport p = .ok start) :
    (w.run fixed ([.press .middle start] ++ (ps ++ [stop]).map .move ++ [.release])).item.viewport.sceneToViewport p ≠ .ok stop := by
  rw [(drag_partial fixed w h hs hq start ps stop).2.2.2 p]
  rw [h.2.2.2.1 p] at hp
  injection hp with hp
  rw [hp]
  intro e
  injection e with e
  rw [Vec.ext_iff] at e
  apply hne
  rw [Vec.ext_iff]
  obtain ⟨e1, e2⟩ := e
  simp only at e1 e2
  constructor <;> linarith

theorem wheel_shows (fixed : K → Text) (w : Window K) {size center : Vec K} {scale : K} (h : Shows w.item.viewport size center scale)
    (hs : scale ≠ 0) (hq : w.item.shows = true) (p : Vec K) (angle : K) :
    let w' := w.step fixed (.wheel (picture size center scale p) angle)
    w'.item.shows = true ∧ w'.label = w.label ∧ Shows w'.item.viewport size p (if 0 < angle then scale * 2 else scale / 2) := by
  have hsc : w.item.viewport.scale = scale := h.2.2.1
  have hz : (if 0 < angle then scale * 2 else scale / 2) ≠ 0 := by
    split
    · exact mul_ne_zero hs two_ne_zero
    · exact div_ne_zero hs two_ne_zero
  obtain ⟨v', e', hv, _⟩ := zoomTo_shows w.item.viewport size p _ h.1 hz
  have hstep : w.step fixed (.wheel (picture size center scale p) angle) = { w with item := { w.item with viewport := v' } } := by
    unfold Window.step Item.zoomAt
    dsimp only
    rw [if_pos hq, h.2.2.2.2.1 p, hsc]
    dsimp only
    rw [e']
  dsimp only
  rw [hstep]
  exact ⟨hq, rfl, hv⟩

/-- C241, what holds: the wheel doubles or halves the scale, and brings to the middle of the viewport the point of the scene that was under the
mouse. -/
theorem wheel_partial (fixed : K → Text) (w : Window K) {size center : Vec K} {scale : K} (h : Shows w.item.viewport size center scale)
    (hs : scale ≠ 0) (hq : w.item.shows = true) (position p : Vec K) (hp : w.item.viewport.sceneToViewport p = .ok position) (angle : K) :
    let v' := (w.step fixed (.wheel position angle)).item.viewport
    v'.scale = (if 0 < angle then scale * 2 else scale / 2) ∧ v'.sceneToViewport p = .ok ⟨size.x / 2, size.y / 2⟩ := by
  rw [h.2.2.2.1 p] at hp
  injection hp with hp
  subst hp
  obtain ⟨_, _, hv⟩ := wheel_shows fixed w h hs hq p angle
  refine ⟨hv.2.2.1, ?_⟩
  rw [hv.2.2.2.1 p]
  simp [picture]

/-- C241 is false of the wheel: the point of the scene under the mouse stays there only if the mouse is at the middle of the viewport, and then
only a wheel turned back at this place brings back the view. -/
theorem wheel_wrong (fixed : K → Text) (w : Window K) {size center : Vec K} {scale : K} (h : Shows w.item.viewport size center scale)
    (hs : scale ≠ 0) (hq : w.item.shows = true) (position p : Vec K) (hp : w.item.viewport.sceneToViewport p = .ok position) (angle : K)
    (ha : 0 < angle) :
    ((w.step fixed (.wheel position angle)).item.viewport.sceneToViewport p = .ok position ↔ position = ⟨size.x / 2, size.y / 2⟩) ∧
      ∃ center', Shows (w.run fixed [.wheel position angle, .wheel position (-angle)]).item.viewport size center' scale ∧
        (center' = center ↔ position = ⟨size.x / 2, size.y / 2⟩) := by
  have hp0 := hp
  rw [h.2.2.2.1 p] at hp
  injection hp with hp
  constructor
  · rw [(wheel_partial fixed w h hs hq position p hp0 angle).2]
    constructor
    · intro e
      injection e with e
      exact e.symm
    · intro e
      rw [e]
  · subst hp
    obtain ⟨hq', _, hv⟩ := wheel_shows fixed w h hs hq p angle
    rw [if_pos ha] at hv
    have h2 : scale * 2 ≠ 0 := mul_ne_zero hs two_ne_zero
    let p' : Vec K := ⟨p.x + (p.x - center.x) / 2, p.y + (p.y - center.y) / 2⟩
    have e : picture size center scale p = picture size p (scale * 2) p' := by
      simp only [picture, Vec.ext_iff, p']
      constructor <;> field_simp <;> ring
    obtain ⟨_, _, hv'⟩ := wheel_shows fixed _ hv h2 hq' p' (-angle)
    rw [← e, if_neg (by linarith), mul_div_cancel_right₀ scale two_ne_zero] at hv'
    refine ⟨p', hv', ?_⟩
    simp only [Vec.ext_iff, p', picture]
    have hz : ∀ a b : K, a + (a - b) / 2 = b ↔ a = b := fun a b => ⟨fun e => by linarith, fun e => by rw [e]; ring⟩
    rw [hz, hz]
    refine and_congr ⟨fun e => by rw [e]; ring, fun e => ?_⟩ ⟨fun e => by rw [e]; ring, fun e => ?_⟩
    · have : scale * (p.x - center.x) = 0 := by linarith
      rcases mul_eq_zero.1 this with h | h
      · exact absurd h hs
      · linarith
    · have : scale * (p.y - center.y) = 0 := by linarith
      rcases mul_eq_zero.1 this with h | h
      · exact absurd h hs
      · linarith

/-- C241, what holds: when the mouse moves and the middle button is not pressed, the view is kept and the label gives the coordinates of the point
of the scene which is under the mouse. -/
theorem label_partial (fixed : K → Text) (w : Window K) {size center : Vec K} {scale : K} (h : Shows w.item.viewport size center scale)
    (hq : w.item.shows = true) (hm : w.mouseStart = none) (position p : Vec K) (hp : w.item.viewport.sceneToViewport p = .ok position) :
    w.step fixed (.move position) = { w with label := fixed p.x ++ [',', ' '] ++ fixed p.y } := by
  rw [h.2.2.2.1 p] at hp
  injection hp with hp
  subst hp
  unfold Window.step Item.formatCoordinate
  dsimp only
  rw [hm, if_pos hq, h.2.2.2.2.1 p]

/-- C241 is false of the label: when the wheel is turned, the point of the scene under the mouse changes, unless it is at the middle of the
viewport, and the label still gives the old coordinates. -/
theorem label_wrong (fixed : K → Text) (w : Window K) {size center : Vec K} {scale : K} (h : Shows w.item.viewport size center scale)
    (hs : scale ≠ 0) (hq : w.item.shows = true) (hm : w.mouseStart = none) (position p : Vec K)
    (hp : w.item.viewport.sceneToViewport p = .ok position) (hne : position ≠ ⟨size.x / 2, size.y / 2⟩) (angle : K) :
    let w' := w.run fixed [.move position, .wheel position angle]
    w'.label = fixed p.x ++ [',', ' '] ++ fixed p.y ∧ w'.item.viewport.viewportToScene position ≠ .ok p := by
  have hl := label_partial fixed w h hq hm position p hp
  have hrun : w.run fixed [.move position, .wheel position angle] = (w.step fixed (.move position)).step fixed (.wheel position angle) := rfl
  dsimp only
  rw [hrun, hl]
  rw [h.2.2.2.1 p] at hp
  injection hp with hp
  obtain ⟨_, h2, hv⟩ := wheel_shows fixed { w with label := fixed p.x ++ [',', ' '] ++ fixed p.y } h hs hq p angle
  rw [hp] at h2 hv
  refine ⟨h2, fun e => ?_⟩
  have hz : (if 0 < angle then scale * 2 else scale / 2) ≠ 0 := by
    split
    · exact mul_ne_zero hs two_ne_zero
    · exact div_ne_zero hs two_ne_zero
  have hsc := hv.2.2.1
  have := (Paper.viewport_round_trip _ (by rw [hsc]; exact hz) p position).2 e
  rw [hv.2.2.2.1 p] at this
  injection this with this
  apply hne
  rw [← this]
  simp [picture]

omit [IsStrictOrderedRing K] in
/-- C241. A press of another button and a release do not change the view nor the label. -/
theorem other_buttons (fixed : K → Text) (w : Window K) (position : Vec K) (b : Button) (hb : b ≠ .middle) :
    w.step fixed (.press b position) = w ∧ w.step fixed .release = { w with mouseStart := none } := by
  cases b
  · exact ⟨rfl, rfl⟩
  · exact absurd rfl hb
  · exact ⟨rfl, rfl⟩

end

/-! ## Examples -/

/-- A session of two sizes, a scene, a zoom, keys, a drag and the wheel. -/
def exampleSession : List (Event ℚ) :=
  [.zoomIn, .resize ⟨1000, 500⟩, .setScene (some 1) true (some ⟨0, 100, 0, 200⟩), .zoomIn, .zoomOut, .key .left, .press .middle ⟨10, 10⟩,
    .move ⟨20, 30⟩, .release, .wheel ⟨100, 100⟩ 120, .resize ⟨800, 600⟩, .move ⟨5, 5⟩]

/-- The events of the session are fair, and a picture is shown at its end. -/
example : (∀ e ∈ exampleSession, e.Fair) ∧
    ∃ center scale, Shows (Window.new.run (fun _ => []) exampleSession).item.viewport ⟨800, 600⟩ center scale := by
  have hf : ∀ e ∈ exampleSession, e.Fair := by
    intro e he
    simp only [exampleSession, List.mem_cons, List.not_mem_nil, or_false] at he
    rcases he with h | h | h | h | h | h | h | h | h | h | h | h <;> subst h <;> simp [Event.Fair, Proper]
  refine ⟨hf, ?_⟩
  obtain ⟨_, h2, h3⟩ := session_mapping (fun _ => []) exampleSession hf
  rcases h3 with h3 | ⟨size, center, h3⟩
  · refine absurd h3 ?_
    have he : exampleSession = exampleSession.take 2 ++ ([.setScene (some 1) true (some ⟨0, 100, 0, 200⟩)] ++ exampleSession.drop 3) := rfl
    have hf2 : ∀ e ∈ exampleSession.take 2, e.Fair := fun e he => hf e (List.mem_of_mem_take he)
    obtain ⟨s, _, hv, _⟩ := scene_shown (fun _ => []) (exampleSession.take 2) hf2 ⟨1000, 500⟩ rfl 1 (by decide +kernel) true ⟨0, 100, 0, 200⟩
      ⟨by norm_num, by norm_num, Or.inl (by norm_num)⟩
    rw [he, ← List.append_assoc]
    obtain ⟨_, _, _, _, h⟩ := stays_shown (fun _ => []) (exampleSession.take 2 ++ [.setScene (some 1) true (some ⟨0, 100, 0, 200⟩)])
      (exampleSession.drop 3) (fun e he => hf e (by revert he; simp [exampleSession]; tauto)) (fun e he => hf e (List.mem_of_mem_drop he)) hv
    exact not_blank h
  · have h4 := h3.1
    rw [h2] at h4
    cases h4
    exact ⟨center, _, h3⟩

/-- A window that shows a scene, for the theorems on the tool bar, the keyboard and the mouse. -/
example : ∃ w : Window ℚ, w.item.shows = true ∧ w.mouseStart = none ∧ ∃ size center scale, scale ≠ 0 ∧ Shows w.item.viewport size center scale ∧
    0 < size.x ∧ 0 < size.y ∧ w.item.viewport.scene = some (some ⟨0, 100, 0, 200⟩) := by
  obtain ⟨v, _, hv, hsc⟩ := zoomTo_shows (K := ℚ) { scale := 1, size := some ⟨1000, 500⟩, scene := some (some ⟨0, 100, 0, 200⟩) } ⟨1000, 500⟩ ⟨50, 100⟩ 2
    rfl (by norm_num)
  exact ⟨⟨⟨some 1, true, v⟩, none, []⟩, rfl, rfl, ⟨1000, 500⟩, ⟨50, 100⟩, 2, by norm_num, hv, by norm_num, by norm_num, hsc⟩

end Patro.Viewer
