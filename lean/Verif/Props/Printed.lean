import Verif.Spec.Printed
import Verif.Props.Detail
import Verif.Props.Painters
/-! # Properties of the way from a sketch to a file: C209 -/

namespace Patro.Printed

open Detail (Mark Drawn Sc allMarks detailScene)
open SketchGeometry (St Op evalSketch)
open Style (SketchStyle)
open Painters (PdfOp Entity Artist Points Placed PaintOrder)
open Xml (Text)

/-! ## The items of the scene have the default z value and are visible -/

/-- Every item is visible, with the z value 0. -/
def Plain {S : Type} (s : Scene.Scene ℝ S Unit) : Prop := ∀ e ∈ s.items, e.2.z = 0 ∧ e.2.visible = true

theorem mem_set {κ ν : Type} [DecidableEq κ] (d : Dict κ ν) (k : κ) (v : ν) (e : κ × ν) (h : e ∈ d.set k v) : e ∈ d ∨ e = (k, v) := by
  induction d with
  | nil => exact .inr (List.mem_singleton.1 h)
  | cons a d ih =>
    unfold Dict.set at h
    split at h
    · rename_i hk
      rcases List.mem_cons.1 h with rfl | h
      · exact .inr (by rw [hk])
      · exact .inl (List.mem_cons_of_mem _ h)
    · rcases List.mem_cons.1 h with rfl | h
      · exact .inl (by simp)
      · rcases ih h with h | h
        · exact .inl (List.mem_cons_of_mem _ h)
        · exact .inr h

theorem plain_add {s : Sc} (h : Plain s) (sh : Detail.Shape) (ps : List (Scene.Position ℝ)) (u : Nat) : Plain (Detail.add s sh ps u) := by
  intro e he
  rcases mem_set _ _ _ _ (show e ∈ s.items.set s.items.length _ from he) with he | rfl
  · exact h e he
  · exact ⟨rfl, rfl⟩

theorem plain_extend {s : Sc} (h : Plain s) (cs : List (String × Vec ℝ)) (l : List Detail.Raw) : Plain (Detail.Sc.extend s cs l) := by
  have h1 : Plain (cs.foldl (fun s c => s.addCoordinate c.1 c.2) s) := by
    unfold Plain
    rw [(Detail.coords_spec cs s).1]
    exact h
  unfold Detail.Sc.extend
  revert h1
  generalize cs.foldl (fun s c => s.addCoordinate c.1 c.2) s = t
  induction l generalizing t with
  | nil => exact id
  | cons m l ih => exact fun h1 => ih _ (plain_add h1 _ _ _)

section

variable (colors : Colour.DataBase) (floatText : Text → Except PyErr ℚ)

theorem plain_drawLoop {black : Colour.Color} (hb : colors.getItem "black".toList = .ok black) (style : SketchStyle) {ops : List Drawn} {st : St}
    (hr : Detail.Refs ops) (he : Detail.Evaluated ops st) (hs : Detail.Styled ops) (rest : List Drawn) :
    ∀ (i : Nat) (s t : Sc), Plain s → (∀ k d, rest[k]? = some d → ops[i + k]? = some d) →
      Detail.drawLoop colors floatText style ops st i rest s = .ok t → Plain t := by
  induction rest with
  | nil => intro i s t h _ ht; cases ht; exact h
  | cons d rest ih =>
    intro i s t h hops ht
    have hd := hops 0 d rfl
    rw [Nat.add_zero] at hd
    have hdraw := Detail.draw_ok colors floatText hb style hr he hd (hs d (List.mem_of_getElem? hd)) s
    simp only [Detail.drawLoop, hdraw, bind, Except.bind] at ht
    refine ih (i + 1) _ t (plain_extend h _ _) ?_ ht
    intro k e hk
    have := hops (k + 1) e (by simpa using hk)
    rwa [show i + 1 + k = i + (k + 1) by omega]

/-- The scene of a sketch ready to be drawn. -/
theorem scene_marks {black : Colour.Color} (hb : colors.getItem "black".toList = .ok black) (style : SketchStyle) {ops : List Drawn} {st : St}
    (h : Ready ops st) :
    ∃ scene box, detailScene colors floatText (some style) ops st = .ok (scene, box) ∧ Detail.boundingBox ops st = .ok box ∧ Plain scene ∧
      List.Forall₂ (fun it (m : Mark) => it.shape = m.shape ∧ it.positions.mapM scene.castPosition = .ok m.points)
        scene.items.values (allMarks black style st 0 ops) := by
  obtain ⟨scene, box, h1, h2, h3⟩ := Detail.detail_scene colors floatText hb style h.refs h.evaluated h.styled h.names
  refine ⟨scene, box, h1, h2, ?_, ?_⟩
  · simp only [detailScene, h2, bind, Except.bind] at h1
    split at h1
    · cases h1
    · rename_i t ht
      cases h1
      exact plain_drawLoop colors floatText hb style h.refs h.evaluated h.styled ops 0 _ _ (by intro e he; simp at he)
        (by intro k d hk; simpa using hk) ht
  · generalize scene.items.values = l at h3
    generalize allMarks black style st 0 ops = ms at h3
    induction l generalizing ms with
    | nil => cases ms with
      | nil => exact .nil
      | cons m ms => simp at h3
    | cons i l ih => cases ms with
      | nil => simp at h3
      | cons m ms =>
        simp only [List.map_cons, List.cons.injEq, Prod.mk.injEq] at h3
        exact .cons ⟨h3.1.1, h3.1.2.1⟩ (ih ms h3.2)

end

/-! ## The scene seen by a painter -/

theorem painterScene_values (str : Style.Value → Text) (s : Sc) : (painterScene str s).items.values = s.items.values.map (painterItem str) := by
  unfold painterScene Dict.values
  rw [List.map_map, List.map_map]
  rfl

theorem painterScene_cast (str : Style.Value → Text) (s : Sc) (p : Scene.Position ℝ) : (painterScene str s).castPosition p = s.castPosition p := by
  cases p <;> rfl

theorem points_of_mapM {s : Sc} (str : Style.Value → Text) {i : Scene.Item ℝ Detail.Shape Unit} {ps : List (Vec ℝ)}
    (h : i.positions.mapM s.castPosition = .ok ps) : Points (painterScene str s) (painterItem str i) ps := by
  unfold Points
  show List.Forall₂ _ i.positions ps
  generalize i.positions = l at h
  induction l generalizing ps with
  | nil => cases h; exact .nil
  | cons p l ih =>
    rw [List.mapM_cons] at h
    cases hp : s.castPosition p with
    | error e => rw [hp] at h; cases h
    | ok v =>
      cases hl : l.mapM s.castPosition with
      | error e => rw [hp, hl] at h; cases h
      | ok vs =>
        rw [hp, hl] at h
        cases h
        exact .cons (by rw [painterScene_cast, hp]) (ih hl)

theorem points_unique {s : Scene.Scene ℝ (Painters.Shape ℝ) Unit} {i : Scene.Item ℝ (Painters.Shape ℝ) Unit} {ps qs : List (Vec ℝ)}
    (h : Points s i ps) (h' : Points s i qs) : ps = qs := by
  unfold Points at h h'
  generalize i.positions = l at h h'
  induction h generalizing qs with
  | nil => cases h'; rfl
  | cons h1 _ ih =>
    cases h' with
    | cons h2 h3 =>
      rw [h1] at h2
      cases h2
      rw [ih h3]

theorem order_plain {s : Sc} (str : Style.Value → Text) (h : Plain s) {l : List (Scene.Item ℝ (Painters.Shape ℝ) Unit)}
    (ho : PaintOrder (painterScene str s) l) : l = s.items.values.map (painterItem str) := by
  obtain ⟨h1, _, h3⟩ := ho
  rw [painterScene_values] at h1 h3
  have hall : ∀ i ∈ s.items.values.map (painterItem str), i.z = 0 ∧ i.visible = true := by
    intro i hi
    obtain ⟨j, hj, rfl⟩ := List.mem_map.1 hi
    obtain ⟨e, he, rfl⟩ := List.mem_map.1 hj
    exact h e he
  have h4 := h3 0
  rw [List.filter_eq_self.2 ?_, List.filter_eq_self.2 ?_] at h4
  · exact h4
  · intro i hi
    simp [hall i hi]
  · intro i hi
    have := (List.mem_filter.1 (h1.mem_iff.1 hi)).1
    simp [(hall i this).1]

/-- The number of points of a mark is the one of its shape. -/
def Shaped (m : Mark) : Prop :=
  match m.shape, m.points with
  | .circle _ _, [_] => True
  | .segment _, [_, _] => True
  | .text _ _, [_] => True
  | .cubic _, [_, _, _, _] => True
  | _, _ => False

theorem marks_shaped (black : Colour.Color) (style : SketchStyle) (st : St) (i : Nat) (d : Drawn) :
    ∀ m ∈ Detail.marks black style st i d, Shaped m := by
  intro m hm
  have hp : ∀ name v, m ∈ Detail.pointMarks black style st i d name v → Shaped m := by
    intro name v h
    unfold Detail.pointMarks at h
    rcases List.mem_append.1 h with h | h
    · simp only [List.mem_cons, List.not_mem_nil, or_false] at h
      rcases h with rfl | rfl | rfl <;> trivial
    · split at h
      · rw [List.mem_singleton.1 h]; trivial
      · simp at h
  unfold Detail.marks at hm
  split at hm
  · rw [List.mem_singleton.1 hm]; trivial
  · rw [List.mem_singleton.1 hm]; trivial
  · split at hm
    · exact hp _ _ hm
    · simp at hm

theorem allMarks_shaped (black : Colour.Color) (style : SketchStyle) (st : St) (rest : List Drawn) :
    ∀ i, ∀ m ∈ allMarks black style st i rest, Shaped m := by
  induction rest with
  | nil => intro i m h; simp [allMarks] at h
  | cons d rest ih =>
    intro i m h
    rcases List.mem_append.1 h with h | h
    · exact marks_shaped black style st i d m h
    · exact ih (i + 1) m h

/-- A mark whose item has its shape is placed. -/
theorem placed {s : Sc} (str : Style.Value → Text) {i : Scene.Item ℝ Detail.Shape Unit} {m : Mark} (hs : Shaped m) (h1 : i.shape = m.shape)
    (h2 : i.positions.mapM s.castPosition = .ok m.points) : Placed (painterScene str s) (painterItem str i) := by
  have hp := points_of_mapM str h2
  unfold Shaped at hs
  split at hs
  · rename_i h h'; rw [h'] at hp; exact .circle _ (by simp [painterItem, h1, h, painterShape]) hp
  · rename_i h h'; rw [h'] at hp; exact .segment _ _ (by simp [painterItem, h1, h, painterShape]) hp
  · rename_i h h'; rw [h'] at hp; exact .text _ (by simp [painterItem, h1, h, painterShape]) hp
  · rename_i h h'; rw [h'] at hp; exact .cubic _ _ _ _ (by simp [painterItem, h1, h, painterShape]) hp
  · cases hs

/-- What is shown for the items is what the marks give. -/
theorem flatten_marks {α : Type} {s : Sc} (str : Style.Value → Text) {R : Scene.Item ℝ (Painters.Shape ℝ) Unit → List α → Prop} {f : Mark → List α}
    {items : List (Scene.Item ℝ Detail.Shape Unit)} {ms : List Mark} {outs : List (List α)}
    (h : List.Forall₂ (fun it (m : Mark) => it.shape = m.shape ∧ it.positions.mapM s.castPosition = .ok m.points) items ms)
    (ho : List.Forall₂ R (items.map (painterItem str)) outs)
    (hR : ∀ it m out, m ∈ ms → it.shape = m.shape → it.positions.mapM s.castPosition = .ok m.points → R (painterItem str it) out → out = f m) :
    outs.flatten = ms.flatMap f := by
  induction h generalizing outs with
  | nil => cases ho; rfl
  | cons h1 _ ih =>
    cases ho with
    | cons h2 h3 =>
      rw [List.flatten_cons, List.flatMap_cons, hR _ _ _ (by simp) h1.1 h1.2 h2, ih h3 fun it m out hm => hR it m out (List.mem_cons_of_mem _ hm)]

theorem forall₂_left {α β : Type} {R : α → β → Prop} {l : List α} {l' : List β} (h : List.Forall₂ R l l') : ∀ a ∈ l, ∃ b ∈ l', R a b := by
  induction h with
  | nil => intro a ha; simp at ha
  | cons h1 _ ih =>
    intro a ha
    rcases List.mem_cons.1 ha with rfl | ha
    · exact ⟨_, by simp, h1⟩
    · obtain ⟨b, hb, hab⟩ := ih a ha
      exact ⟨b, List.mem_cons_of_mem _ hb, hab⟩

/-! ## PDF -/

theorem pdf_mark {s : Sc} (str : Style.Value → Text) {i : Scene.Item ℝ Detail.Shape Unit} {m : Mark} {out : List (PdfOp ℝ)} (h1 : i.shape = m.shape)
    (h2 : i.positions.mapM s.castPosition = .ok m.points) (h : Painters.PdfShows (painterScene str s) (painterItem str i) out) :
    out = pdfMark m := by
  have hp := points_of_mapM str h2
  have hu : (7 / 10 * (72 / 2.54) : ℝ) = Painters.cm * (7 / 10) := by unfold Painters.cm; norm_num
  have hm : (7.2 / 2.54 : ℝ) = Painters.mm := by unfold Painters.mm Painters.cm; norm_num
  have hk : (painterItem str i).shape = painterShape str m.shape := by simp [painterItem, h1]
  unfold Painters.PdfShows at h
  unfold pdfMark
  rw [hu, hm]
  simp only [hk] at h
  cases hs : m.shape <;> rw [hs] at h <;> simp only [painterShape, reduceCtorEq, false_and, false_or, or_false, true_and] at h
  · obtain ⟨p, h3, rfl⟩ := h
    rw [points_unique hp h3]
  · obtain ⟨p, q, h3, rfl⟩ := h
    rw [points_unique hp h3]
  · obtain ⟨p, h3, rfl⟩ := h
    rw [points_unique hp h3]
  · obtain ⟨p, q, r, t, h3, rfl⟩ := h
    rw [points_unique hp h3]

section

variable (colors : Colour.DataBase) (floatText : Text → Except PyErr ℚ) (str : Style.Value → Text)

/-- C209. An evaluated sketch drawn with `detail_scene` and printed by the PDF painter: the page has the size of the paper, the origin is moved
to the lower left corner of the bounding box of the sketch and then by one centimetre, and the marks of the operations are drawn in their order
at the positions computed by the evaluation, at 0.7 cm for a unit of the sketch. -/
theorem sketch_to_pdf {black : Colour.Color} (hb : colors.getItem "black".toList = .ok black) (style : SketchStyle) {ops : List Drawn} {st : St}
    (h : Ready ops st) (hne : ops ≠ []) (width height : ℝ) :
    ∃ scene box, detailScene colors floatText (some style) ops st = .ok (scene, some box) ∧ Detail.boundingBox ops st = .ok (some box) ∧
      Painters.pdfPainter (painterScene str scene) (some (some box)) width height (some "reportlab") =
        .ok ([width * (7.2 / 2.54), height * (7.2 / 2.54)],
          [.translate (-box.xInf * (72 / 2.54)) (-box.yInf * (72 / 2.54)), .translate (72 / 2.54) (72 / 2.54),
            .setFont "Times-Roman".toList 20] ++ (allMarks black style st 0 ops).flatMap pdfMark) := by
  obtain ⟨scene, box, h1, h2, h3, h4⟩ := scene_marks colors floatText hb style h
  obtain ⟨b, h5, _⟩ := (Detail.sketch_box h.refs h.evaluated).2 hne
  rw [h5] at h2
  cases h2
  refine ⟨scene, b, h1, h5, ?_⟩
  have hplaced : ∀ i ∈ (painterScene str scene).items.values, i.visible = true → Placed (painterScene str scene) i := by
    intro i hi _
    rw [painterScene_values] at hi
    obtain ⟨j, hj, rfl⟩ := List.mem_map.1 hi
    obtain ⟨m, hm, hm1, hm2⟩ := forall₂_left h4 j hj
    exact placed str (allMarks_shaped black style st ops 0 m hm) hm1 hm2
  obtain ⟨l, outs, ho, hsh, hops⟩ := Painters.pdf_items_partial (painterScene str scene) b hplaced
  rw [order_plain str h3 ho] at hsh
  have hfl := flatten_marks (f := pdfMark) str h4 hsh fun it m out _ e1 e2 e3 => pdf_mark str e1 e2 e3
  have hcm : (Painters.cm : ℝ) = 72 / 2.54 := by unfold Painters.cm; norm_num
  have hmm : (Painters.mm : ℝ) = 7.2 / 2.54 := by unfold Painters.mm; rw [hcm]; norm_num
  show Painters.reportlabPainter _ _ _ _ = _
  unfold Painters.reportlabPainter
  simp only [Painters.sceneBoundingBox, hops, bind, Except.bind, hfl, (Painters.pdf_page width height).2, hcm, hmm, one_mul]
  rfl

/-- C209. Every line and every curve of the sketch is in the PDF file between the positions computed for its ends, and every point is labelled
with its name. -/
theorem sketch_to_pdf_operation (black : Colour.Color) (style : SketchStyle) {ops : List Drawn} {st : St} (h : Ready ops st)
    (i : Nat) (d : Drawn) (hd : ops[i]? = some d) :
    (∀ f g p q, d.op = .line f g → st.vec f = some p → st.vec g = some q → ∀ u : ℝ, u = 7 / 10 * (72 / 2.54) →
      .line (u * p.x) (u * p.y) (u * q.x) (u * q.y) ∈ (allMarks black style st 0 ops).flatMap pdfMark) ∧
    (∀ f g a1 l1 a2 l2 p q c1 c2, d.op = .spline f g a1 l1 a2 l2 → st.vec f = some p → st.vec g = some q → st.ctrl i = some (c1, c2) →
      ∀ u : ℝ, u = 7 / 10 * (72 / 2.54) →
      .bezier (u * p.x) (u * p.y) (u * c1.x) (u * c1.y) (u * c2.x) (u * c2.y) (u * q.x) (u * q.y) ∈
        (allMarks black style st 0 ops).flatMap pdfMark) ∧
    (∀ n p, d.op.name = some n → st.vec i = some p → ∀ u : ℝ, u = 7 / 10 * (72 / 2.54) →
      .drawString (u * (p.x + d.labelOffset.x)) (u * (p.y - d.labelOffset.y)) n.toList ∈ (allMarks black style st 0 ops).flatMap pdfMark) := by
  have hall : ∀ (rest : List Drawn) (k j : Nat) (e : Drawn) (m : Mark), rest[j]? = some e → m ∈ Detail.marks black style st (k + j) e →
      m ∈ allMarks black style st k rest := by
    intro rest
    induction rest with
    | nil => intro k j e m he; simp at he
    | cons x rest ih =>
      intro k j e m he hm
      rw [allMarks, List.mem_append]
      cases j with
      | zero =>
        simp only [List.getElem?_cons_zero, Option.some.injEq] at he
        subst he
        exact .inl hm
      | succ j => exact .inr (ih (k + 1) j e m (by simpa using he) (by rwa [show k + 1 + j = k + (j + 1) by omega]))
  have hmem : ∀ m ∈ Detail.marks black style st i d, m ∈ allMarks black style st 0 ops := by
    intro m hm
    exact hall ops 0 i d m hd (by rwa [Nat.zero_add])
  have hpen := h.styled d (List.mem_of_getElem? hd)
  refine ⟨?_, ?_, ?_⟩
  · rintro f g p q hop hp hq u rfl
    obtain ⟨pen, hpn⟩ := Option.isSome_iff_exists.1 (hpen (by rw [hop]; rfl))
    refine List.mem_flatMap.2 ⟨_, hmem ⟨.segment (Detail.lineOf pen style.lineWidth), [p, q], i⟩ ?_, ?_⟩
    · simp [Detail.marks, hop, hpn, hp, hq]
    · simp [pdfMark]
  · rintro f g a1 l1 a2 l2 p q c1 c2 hop hp hq hc u rfl
    obtain ⟨pen, hpn⟩ := Option.isSome_iff_exists.1 (hpen (by rw [hop]; rfl))
    refine List.mem_flatMap.2 ⟨_, hmem ⟨.cubic (Detail.lineOf pen style.lineWidth), [p, c1, c2, q], i⟩ ?_, ?_⟩
    · simp [Detail.marks, hop, hpn, hp, hq, hc]
    · simp [pdfMark]
  · rintro n p hn hp u rfl
    refine List.mem_flatMap.2 ⟨_, hmem ⟨.text n style.fontSize, [Detail.labelPosition p d], i⟩ ?_, ?_⟩
    · unfold Detail.marks
      cases hop : d.op with
      | line f g => rw [hop] at hn; cases hn
      | spline f g a1 l1 a2 l2 => rw [hop] at hn; cases hn
      | _ => rw [hop] at hn; cases hn; simp [Op.name, Detail.pointMarks, hp]
    · simp [pdfMark, Detail.labelPosition]

/-! ## DXF -/

/-- The colours of the lines of the sketch are those the DXF painter knows: none, black, or a colour without name. -/
def Monochrome (ops : List Drawn) : Prop :=
  ∀ d ∈ ops, ∀ s c, Detail.penOf d = some (s, some c) → Detail.usesLine d.op = true → c.name = none ∨ c.name = some "black".toList

/-- The lines of a mark can be written. -/
def Written (m : Mark) : Prop :=
  ∀ s, m.shape = .segment s ∨ m.shape = .cubic s → ∀ c, s.strokeColor = some c → c.name = none ∨ c.name = some "black".toList

theorem marks_written {black : Colour.Color} (hbn : black.name = some "black".toList) (style : SketchStyle) (st : St) {ops : List Drawn}
    (hm : Monochrome ops) (rest : List Drawn) (hrest : ∀ d ∈ rest, d ∈ ops) :
    ∀ i, ∀ m ∈ allMarks black style st i rest, Written m := by
  induction rest with
  | nil => intro i m h; simp [allMarks] at h
  | cons d rest ih =>
    intro i m h
    rcases List.mem_append.1 h with h | h
    swap
    · exact ih (fun e he => hrest e (List.mem_cons_of_mem _ he)) (i + 1) m h
    have hd := hm d (hrest d (by simp))
    have hl : ∀ pen w, Detail.penOf d = some pen → Detail.usesLine d.op = true → ∀ c, (Detail.lineOf pen w).strokeColor = some c →
        c.name = none ∨ c.name = some "black".toList := by
      rintro ⟨s, pc⟩ w hp hu c hc
      cases (show pc = some c from hc)
      exact hd s c hp hu
    have hp : ∀ name v, m ∈ Detail.pointMarks black style st i d name v → Written m := by
      intro name v h
      unfold Detail.pointMarks at h
      rcases List.mem_append.1 h with h | h
      · simp only [List.mem_cons, List.not_mem_nil, or_false] at h
        rcases h with rfl | rfl | rfl
        · rintro s (hs | hs) <;> cases hs
        · rintro s (hs | hs) c hc
          · cases hs; cases hc; exact .inr hbn
          · cases hs
        · rintro s (hs | hs) <;> cases hs
      · split at h
        · rename_i f pen hf hpen
          rw [List.mem_singleton.1 h]
          rintro s (hs | hs) c hc
          · cases hs
            refine hl pen _ hpen ?_ c hc
            cases hop : d.op <;> rw [hop] at hf <;> first | rfl | cases hf
          · cases hs
        · simp at h
    unfold Detail.marks at h
    split at h
    · rename_i f g pen hop hpen
      rw [List.mem_singleton.1 h]
      rintro s (hs | hs) c hc
      · cases hs; exact hl pen _ hpen (by rw [hop]; rfl) c hc
      · cases hs
    · rename_i hop hpen
      rw [List.mem_singleton.1 h]
      rintro s (hs | hs) c hc
      · cases hs
      · cases hs; exact hl _ _ hpen (by rw [hop]; rfl) c hc
    · split at h
      · exact hp _ _ h
      · simp at h

theorem dxfStyled_unique {style : Style.PathStyle} (hw : ∀ c, style.strokeColor = some c → c.name = none ∨ c.name = some "black".toList) :
    (∃ d, Painters.DxfStyled (painterStyle str style) d) ∧ ∀ d, Painters.DxfStyled (painterStyle str style) d → d = dxfPen style := by
  unfold Painters.DxfStyled dxfPen
  simp only [painterStyle]
  cases hc : style.strokeColor with
  | none => simp
  | some c =>
    rcases hw c hc with h | h <;> simp [h]

theorem dxf_mark {s : Sc} {i : Scene.Item ℝ Detail.Shape Unit} {m : Mark} {out : List (Entity ℝ)} (hw : Written m) (h1 : i.shape = m.shape)
    (h2 : i.positions.mapM s.castPosition = .ok m.points) (h : Painters.DxfShows (painterScene str s) (painterItem str i) out) :
    out = dxfMark m := by
  have hp := points_of_mapM str h2
  have hk : (painterItem str i).shape = painterShape str m.shape := by simp [painterItem, h1]
  unfold Painters.DxfShows at h
  unfold dxfMark
  simp only [hk] at h
  cases hs : m.shape <;> rw [hs] at h <;> simp only [painterShape, reduceCtorEq, false_and, false_or, or_false, true_and] at h
  · rw [h]
  · obtain ⟨p, q, d, h3, h4, rfl⟩ := h
    rw [points_unique hp h3, (dxfStyled_unique str (hw _ (.inl hs))).2 d h4]
  · obtain ⟨p, h3, rfl⟩ := h
    rw [points_unique hp h3]
  · obtain ⟨p, q, r, t, d, h3, h4, rfl⟩ := h
    rw [points_unique hp h3, (dxfStyled_unique str (hw _ (.inr hs))).2 d h4]

/-- C209, what holds: an evaluated sketch whose lines are black, without colour or of a colour without name is saved in a DXF file with the marks of
its operations, in their order, but for the discs of the points, at the positions computed by the evaluation, at ten units for a unit of the
sketch. -/
theorem sketch_to_dxf_partial {black : Colour.Color} (hb : colors.getItem "black".toList = .ok black) (hbn : black.name = some "black".toList)
    (style : SketchStyle) {ops : List Drawn} {st : St} (h : Ready ops st) (hm : Monochrome ops) :
    ∃ scene box, detailScene colors floatText (some style) ops st = .ok (scene, box) ∧
      Painters.dxfPainter (painterScene str scene) none = .ok ((allMarks black style st 0 ops).flatMap dxfMark) := by
  obtain ⟨scene, box, h1, h2, h3, h4⟩ := scene_marks colors floatText hb style h
  refine ⟨scene, box, h1, ?_⟩
  have hw := marks_written hbn style st hm ops (fun d hd => hd) 0
  have hready : ∀ i ∈ (painterScene str scene).items.values, i.visible = true → Painters.DxfReady (painterScene str scene) i := by
    intro i hi _
    rw [painterScene_values] at hi
    obtain ⟨j, hj, rfl⟩ := List.mem_map.1 hi
    obtain ⟨m, hmm, hm1, hm2⟩ := forall₂_left h4 j hj
    refine ⟨placed str (allMarks_shaped black style st ops 0 m hmm) hm1 hm2, ?_⟩
    have hk : (painterItem str j).shape = painterShape str m.shape := by simp [painterItem, hm1]
    rw [hk]
    cases hs : m.shape with
    | circle r p => rintro (h | h) <;> cases h
    | segment p => exact fun _ => (dxfStyled_unique str (hw m hmm p (.inl hs))).1
    | text t f => rintro (h | h) <;> cases h
    | cubic p => exact fun _ => (dxfStyled_unique str (hw m hmm p (.inr hs))).1
  obtain ⟨l, outs, ho, hsh, hent⟩ := Painters.dxf_items_partial (painterScene str scene) hready
  rw [order_plain str h3 ho] at hsh
  have hfl := flatten_marks (f := dxfMark) str h4 hsh fun it m out hmm e1 e2 e3 => dxf_mark str (hw m hmm) e1 e2 e3
  show Painters.ezdxfPainter _ = _
  rw [hent, hfl]

theorem forall₂_right {α β : Type} {R : α → β → Prop} {l : List α} {l' : List β} (h : List.Forall₂ R l l') : ∀ b ∈ l', ∃ a ∈ l, R a b := by
  induction h with
  | nil => intro a ha; simp at ha
  | cons h1 _ ih =>
    intro a ha
    rcases List.mem_cons.1 ha with rfl | ha
    · exact ⟨_, by simp, h1⟩
    · obtain ⟨b, hb, hab⟩ := ih a ha
      exact ⟨b, List.mem_cons_of_mem _ hb, hab⟩

theorem mark_of_line (black : Colour.Color) (style : SketchStyle) (st : St) (ops : List Drawn) {d : Drawn} (hd : d ∈ ops)
    (hop : (∃ f g, d.op = .line f g) ∨ ∃ f g a1 l1 a2 l2, d.op = .spline f g a1 l1 a2 l2) {s : Tex.StrokeStyle} {c : Option Colour.Color}
    (hp : Detail.penOf d = some (s, c)) :
    ∃ m ∈ allMarks black style st 0 ops, ∃ p, (m.shape = .segment p ∨ m.shape = .cubic p) ∧ p.strokeColor = c := by
  have hall : ∀ (rest : List Drawn) (k : Nat), d ∈ rest → ∃ i, ∀ m ∈ Detail.marks black style st i d, m ∈ allMarks black style st k rest := by
    intro rest
    induction rest with
    | nil => intro k hk; simp at hk
    | cons x rest ih =>
      intro k hk
      rcases List.mem_cons.1 hk with rfl | hk
      · exact ⟨k, fun m hm => List.mem_append_left _ hm⟩
      · obtain ⟨i, hi⟩ := ih (k + 1) hk
        exact ⟨i, fun m hm => List.mem_append_right _ (hi m hm)⟩
  obtain ⟨i, hi⟩ := hall ops 0 hd
  rcases hop with ⟨f, g, ho⟩ | ⟨f, g, a1, l1, a2, l2, ho⟩
  · exact ⟨_, hi _ (by simp only [Detail.marks, ho, hp, List.mem_singleton]; rfl), _, .inl rfl, rfl⟩
  · exact ⟨_, hi _ (by simp only [Detail.marks, ho, hp, List.mem_singleton]; rfl), _, .inr rfl, rfl⟩

/-- C209 fails for the DXF painter: a sketch with a line or a curve of a named colour other than black, as most files of Valentina have, is not
saved at all. -/
theorem sketch_to_dxf_wrong {black : Colour.Color} (hb : colors.getItem "black".toList = .ok black) (style : SketchStyle) {ops : List Drawn}
    {st : St} (h : Ready ops st) (d : Drawn) (hd : d ∈ ops)
    (hop : (∃ f g, d.op = .line f g) ∨ ∃ f g a1 l1 a2 l2, d.op = .spline f g a1 l1 a2 l2) (s : Tex.StrokeStyle) (c : Colour.Color) (name : Text)
    (hp : Detail.penOf d = some (s, some c)) (hn : c.name = some name) (hnb : name ≠ "black".toList) :
    ∃ scene box e, detailScene colors floatText (some style) ops st = .ok (scene, box) ∧
      Painters.dxfPainter (painterScene str scene) none = .error e := by
  obtain ⟨scene, box, h1, h2, h3, h4⟩ := scene_marks colors floatText hb style h
  obtain ⟨m, hmm, p, hs, hc⟩ := mark_of_line black style st ops hd hop hp
  obtain ⟨it, hit, e1, e2⟩ := forall₂_right h4 m hmm
  have hk : (painterItem str it).shape = painterShape str m.shape := by simp [painterItem, e1]
  obtain ⟨e, he⟩ := Painters.dxf_colour_wrong (painterScene str scene) (painterItem str it)
    (by rw [painterScene_values]; exact List.mem_map_of_mem hit)
    (by
      obtain ⟨x, hx, rfl⟩ := List.mem_map.1 hit
      exact (h3 x hx).2)
    (by rw [hk]; rcases hs with hs | hs <;> rw [hs] <;> simp [painterShape]) c name
    (by rw [hk]; rcases hs with hs | hs <;> rw [hs] <;> simp [painterShape, painterStyle, hc]) hn hnb
  exact ⟨scene, box, e, h1, he⟩

/-! ## Matplotlib -/

/-- The lines of a mark have a colour, and one of the widths of the style. -/
def Penned (style : SketchStyle) (m : Mark) : Prop :=
  ∀ s, m.shape = .segment s ∨ m.shape = .cubic s →
    s.strokeColor.isSome ∧ s.lineWidth ∈ [style.labelLineWidth, style.lineWidth, style.constructionLineWidth]

theorem marks_penned (black : Colour.Color) (style : SketchStyle) (st : St) (rest : List Drawn)
    (hc : ∀ d ∈ rest, Detail.usesLine d.op = true → ∀ s c, Detail.penOf d = some (s, c) → c.isSome) :
    ∀ i, ∀ m ∈ allMarks black style st i rest, Penned style m := by
  induction rest with
  | nil => intro i m h; simp [allMarks] at h
  | cons d rest ih =>
    intro i m h
    rcases List.mem_append.1 h with h | h
    swap
    · exact ih (fun e he => hc e (List.mem_cons_of_mem _ he)) (i + 1) m h
    have hd := hc d (by simp)
    have hp : ∀ name v, m ∈ Detail.pointMarks black style st i d name v → Penned style m := by
      intro name v h
      unfold Detail.pointMarks at h
      rcases List.mem_append.1 h with h | h
      · simp only [List.mem_cons, List.not_mem_nil, or_false] at h
        rcases h with rfl | rfl | rfl
        · rintro s (hs | hs) <;> cases hs
        · rintro s (hs | hs)
          · cases hs; exact ⟨rfl, by simp [Detail.lineOf]⟩
          · cases hs
        · rintro s (hs | hs) <;> cases hs
      · split at h
        · rename_i f pen hf hpen
          rw [List.mem_singleton.1 h]
          rintro s (hs | hs)
          · cases hs
            refine ⟨hd ?_ pen.1 pen.2 hpen, by simp [Detail.lineOf]⟩
            cases hop : d.op <;> rw [hop] at hf <;> first | rfl | cases hf
          · cases hs
        · simp at h
    unfold Detail.marks at h
    split at h
    · rename_i f g pen hop hpen
      rw [List.mem_singleton.1 h]
      rintro s (hs | hs)
      · cases hs; exact ⟨hd (by rw [hop]; rfl) pen.1 pen.2 hpen, by simp [Detail.lineOf]⟩
      · cases hs
    · rename_i pen hop hpen
      rw [List.mem_singleton.1 h]
      rintro s (hs | hs)
      · cases hs
      · cases hs; exact ⟨hd (by rw [hop]; rfl) pen.1 pen.2 hpen, by simp [Detail.lineOf]⟩
    · split at h
      · exact hp _ _ h
      · simp at h

theorem mpl_mark {s : Sc} (float : Text → Except PyErr ℝ) {width : Style.Value → ℝ} {style : SketchStyle}
    (hf : ∀ v ∈ [style.labelLineWidth, style.lineWidth, style.constructionLineWidth], float (str v) = .ok (width v))
    {i : Scene.Item ℝ Detail.Shape Unit} {m : Mark} {out : List (Artist ℝ)} (hm : Penned style m) (h1 : i.shape = m.shape)
    (h2 : i.positions.mapM s.castPosition = .ok m.points) (h : Painters.MplShows float (painterScene str s) (painterItem str i) out) :
    out = mplMark width m := by
  have hp := points_of_mapM str h2
  have hk : (painterItem str i).shape = painterShape str m.shape := by simp [painterItem, h1]
  unfold Painters.MplShows at h
  unfold mplMark
  simp only [hk] at h
  cases hs : m.shape with
  | circle r ps =>
    rw [hs] at h
    simp only [painterShape, reduceCtorEq, false_and, false_or, or_false, true_and] at h
    obtain ⟨p, h3, rfl⟩ := h
    rw [points_unique hp h3]
  | segment ps =>
    rw [hs] at h
    simp only [painterShape, reduceCtorEq, false_and, false_or, or_false, true_and, painterStyle, hf _ (hm ps (.inl hs)).2, Except.ok.injEq] at h
    obtain ⟨p, q, c, w, h3, h4, rfl, rfl⟩ := h
    rw [points_unique hp h3]
    simp only [h4, Option.bind_some]
  | text t f =>
    rw [hs] at h
    simp only [painterShape, reduceCtorEq, false_and, false_or, or_false, true_and] at h
    obtain ⟨p, h3, rfl⟩ := h
    rw [points_unique hp h3]
  | cubic ps =>
    rw [hs] at h
    simp only [painterShape, reduceCtorEq, false_and, false_or, or_false, true_and, painterStyle, hf _ (hm ps (.inr hs)).2, Except.ok.injEq] at h
    obtain ⟨p, q, r, t, c, w, h3, h4, rfl, rfl⟩ := h
    rw [points_unique hp h3]
    simp only [h4, Option.bind_some]

/-- C209, what holds: an evaluated sketch whose lines all have a colour, drawn with a style whose line widths are numbers, is shown on the axes of
Matplotlib with the marks of its operations, in their order, at the positions computed by the evaluation; the limits of the axes are those of the
bounding box of the sketch with a margin. -/
theorem sketch_to_mpl_partial {black : Colour.Color} (hb : colors.getItem "black".toList = .ok black) (style : SketchStyle) {ops : List Drawn}
    {st : St} (h : Ready ops st) (hne : ops ≠ []) (hc : ∀ d ∈ ops, Detail.usesLine d.op = true → ∀ s c, Detail.penOf d = some (s, c) → c.isSome)
    (float : Text → Except PyErr ℝ) (width : Style.Value → ℝ)
    (hf : ∀ v ∈ [style.labelLineWidth, style.lineWidth, style.constructionLineWidth], float (str v) = .ok (width v)) :
    ∃ scene box, detailScene colors floatText (some style) ops st = .ok (scene, some box) ∧
      Painters.mplPainter float (painterScene str scene) (some (some box)) =
        .ok (Painters.mplLimits box, (allMarks black style st 0 ops).flatMap (mplMark width)) := by
  obtain ⟨scene, box, h1, h2, h3, h4⟩ := scene_marks colors floatText hb style h
  obtain ⟨b, h5, _⟩ := (Detail.sketch_box h.refs h.evaluated).2 hne
  rw [h5] at h2
  cases h2
  refine ⟨scene, b, h1, ?_⟩
  have hw := marks_penned black style st ops hc 0
  obtain ⟨l, outs, ho, hsh, hart⟩ := Painters.mpl_items_partial float (painterScene str scene) (by
    intro i hi _
    rw [painterScene_values] at hi
    obtain ⟨j, hj, rfl⟩ := List.mem_map.1 hi
    obtain ⟨m, hmm, hm1, hm2⟩ := forall₂_left h4 j hj
    refine ⟨placed str (allMarks_shaped black style st ops 0 m hmm) hm1 hm2, ?_⟩
    have hk : (painterItem str j).shape = painterShape str m.shape := by simp [painterItem, hm1]
    rw [hk]
    cases hs : m.shape with
    | circle r p => rintro (h | h) <;> cases h
    | segment p =>
      obtain ⟨g1, g2⟩ := hw m hmm p (.inl hs)
      exact fun _ => ⟨Option.isSome_iff_exists.1 g1, _, hf _ g2⟩
    | text t f => rintro (h | h) <;> cases h
    | cubic p =>
      obtain ⟨g1, g2⟩ := hw m hmm p (.inr hs)
      exact fun _ => ⟨Option.isSome_iff_exists.1 g1, _, hf _ g2⟩)
  rw [order_plain str h3 ho] at hsh
  have hfl := flatten_marks (f := mplMark width) str h4 hsh fun it m out hmm e1 e2 e3 => mpl_mark str float hf (hw m hmm) e1 e2 e3
  unfold Painters.mplPainter
  simp only [Painters.sceneBoundingBox, hart, bind, Except.bind, hfl]
  rfl

/-- C209 fails for Matplotlib and SVG: a sketch with a line or a curve without colour, which `detail_scene` accepts, is drawn neither on the axes nor
in a SVG document. -/
theorem sketch_without_colour_wrong {black : Colour.Color} (hb : colors.getItem "black".toList = .ok black) (style : SketchStyle) {ops : List Drawn}
    {st : St} (h : Ready ops st) (d : Drawn) (hd : d ∈ ops)
    (hop : (∃ f g, d.op = .line f g) ∨ ∃ f g a1 l1 a2 l2, d.op = .spline f g a1 l1 a2 l2) (s : Tex.StrokeStyle)
    (hp : Detail.penOf d = some (s, none)) (number : ℝ → Text) (fixed3 : ℝ → Text) (float : Text → Except PyErr ℝ)
    (readPath : Text → Except PyErr Unit) (width height : ℝ) :
    ∃ scene box, detailScene colors floatText (some style) ops st = .ok (scene, some box) ∧
      (∃ e, Painters.mplPainter float (painterScene str scene) (some (some box)) = .error e) ∧
      ∃ e, Painters.svgPainter number fixed3 float readPath (painterScene str scene) (some (some box)) width height = .error e := by
  obtain ⟨scene, box, h1, h2, h3, h4⟩ := scene_marks colors floatText hb style h
  obtain ⟨b, h5, _⟩ := (Detail.sketch_box h.refs h.evaluated).2 (List.ne_nil_of_mem hd)
  rw [h5] at h2
  cases h2
  obtain ⟨m, hmm, p, hs, hc⟩ := mark_of_line black style st (c := none) ops hd hop hp
  obtain ⟨it, hit, e1, e2⟩ := forall₂_right h4 m hmm
  have hk : (painterItem str it).shape = painterShape str m.shape := by simp [painterItem, e1]
  obtain ⟨⟨e, he⟩, e', he'⟩ := Painters.no_colour_wrong number float readPath (painterScene str scene) b (painterItem str it)
    (by rw [painterScene_values]; exact List.mem_map_of_mem hit)
    (by
      obtain ⟨x, hx, rfl⟩ := List.mem_map.1 hit
      exact (h3 x hx).2)
    (by rw [hk]; rcases hs with hs | hs <;> rw [hs] <;> simp [painterShape])
    (by rw [hk]; rcases hs with hs | hs <;> rw [hs] <;> simp [painterShape, painterStyle, hc])
  refine ⟨scene, b, h1, ⟨e', ?_⟩, e, ?_⟩
  · unfold Painters.mplPainter
    simp only [Painters.sceneBoundingBox, bind, Except.bind, he']
  · unfold Painters.svgPainter
    simp only [Painters.sceneBoundingBox, bind, Except.bind, he]

end

/-- C209. A sketch is ready once it was evaluated, when its operations refer to points made before them, its points have different names, its lines
have a style, and its intersections and points of contact exist. -/
theorem ready_of_eval {ops : List Drawn} {st0 st : St} (hr : Detail.Refs ops) (he : evalSketch st0 (ops.map (·.op)) = .ok st)
    (hs : Detail.Styled ops) (hn : (Detail.names ops).Nodup)
    (hv : ∀ (i : Nat) (d : Drawn), ops[i]? = some d → (∃ n a b c e, d.op = .lineIntersect n a b c e) ∨ (∃ n a b c e, d.op = .contact n a b c e) →
      (st.vec i).isSome) : Ready ops st := by
  obtain ⟨h1, _, h3⟩ := Detail.sketch_box_eval hr he
  refine ⟨hr, h1 ?_, hs, hn⟩
  intro i d hd hname
  cases hvec : st.vec i with
  | some v => rfl
  | none =>
    have := hv i d hd (h3 i d hd hname hvec)
    rw [hvec] at this
    cases this

/-! ## Examples -/

theorem toy_ready : Ready (Detail.toy "B" (.stroke .dashLine)) Detail.toySt :=
  ⟨(Detail.toy_ready _ _).1, (Detail.toy_ready _ _).2, Detail.toy_styled _, by simp [Detail.names, Detail.toy, Op.name]⟩

/-- The first lines of the PDF file of the sketch of `Props/Detail.lean`, and its curve. -/
example (black : Colour.Color) (style : SketchStyle) :
    ∃ l, (allMarks black style Detail.toySt 0 (Detail.toy "B" (.stroke .dashLine))).flatMap pdfMark =
      [.saveState, .setFillColor "black".toList, .circle 0 0 (2 * (7.2 / 2.54)), .restoreState, .line 0 0 (7 / 10 * (72 / 2.54) * 1)
        (7 / 10 * (72 / 2.54) * -2)] ++ l ∧
      .bezier 0 0 0 (7 / 10 * (72 / 2.54) * 5) (7 / 10 * (72 / 2.54) * 10) (7 / 10 * (72 / 2.54) * 5) (7 / 10 * (72 / 2.54) * 10) 0 ∈ l := by
  refine ⟨_, by simp [allMarks, Detail.marks, Detail.pointMarks, Detail.toy, Detail.toySt, Op.name, Detail.penOf, Detail.constructionFrom,
    Detail.labelPosition, pdfMark]; rfl, ?_⟩
  simp

/-- No line of this sketch has a colour: it is saved in a DXF file, and is not shown by Matplotlib. -/
example : Monochrome (Detail.toy "B" (.stroke .dashLine)) := by
  intro d hd s c hp _
  simp only [Detail.toy, List.mem_cons, List.not_mem_nil, or_false] at hd
  rcases hd with rfl | rfl | rfl | rfl <;> simp [Detail.penOf] at hp

example : ∃ d ∈ Detail.toy "B" (.stroke .dashLine), (∃ f g, d.op = .line f g) ∧ Detail.penOf d = some (.solidLine, none) :=
  ⟨_, List.mem_cons_of_mem _ (List.mem_cons_of_mem _ (List.mem_cons_self ..)), ⟨_, _, rfl⟩, rfl⟩

/-- The same sketch with a blue line between the two points. -/
def blueToy : List Drawn :=
  [⟨.single "A" (fun _ => .ok 0) (fun _ => .ok 0), ⟨1, 2⟩, .none, .none⟩,
   ⟨.single "B" (fun _ => .ok 10) (fun _ => .ok 0), 0, .none, .none⟩,
   ⟨.line 0 1, 0, .stroke .solidLine, .color { name := some "blue".toList }⟩]

theorem blueToy_ready : Ready blueToy Detail.toySt := by
  refine ⟨?_, ?_, ?_, by simp [Detail.names, blueToy, Op.name]⟩
  · intro i d hd j hj
    rcases i with _ | _ | _ | i <;> simp only [blueToy, List.getElem?_cons_zero, List.getElem?_cons_succ, List.getElem?_nil,
      Option.some.injEq, reduceCtorEq] at hd
    all_goals subst hd
    all_goals simp only [Op.refs, List.mem_cons, List.not_mem_nil, or_false] at hj
    rcases hj with rfl | rfl
    · exact ⟨by omega, _, "A", rfl, rfl⟩
    · exact ⟨by omega, _, "B", rfl, rfl⟩
  · intro i d hd
    rcases i with _ | _ | _ | i <;> simp only [blueToy, List.getElem?_cons_zero, List.getElem?_cons_succ, List.getElem?_nil,
      Option.some.injEq, reduceCtorEq] at hd
    all_goals subst hd
    all_goals simp [Op.name, Detail.toySt]
  · intro d hd hu
    simp only [blueToy, List.mem_cons, List.not_mem_nil, or_false] at hd
    rcases hd with rfl | rfl | rfl
    · cases hu
    · cases hu
    · rfl

example (black : Colour.Color) (floatText : Text → Except PyErr ℚ) (str : Style.Value → Text) (style : SketchStyle) :
    ∃ scene box e, detailScene [("black".toList, black)] floatText (some style) blueToy Detail.toySt = .ok (scene, box) ∧
      Painters.dxfPainter (painterScene str scene) none = .error e :=
  sketch_to_dxf_wrong _ _ _ (black := black) (by simp [Dict.getItem, Dict.get?]) style blueToy_ready _
    (List.mem_cons_of_mem _ (List.mem_cons_of_mem _ (List.mem_cons_self ..))) (.inl ⟨_, _, rfl⟩) .solidLine { name := some "blue".toList }
    "blue".toList rfl rfl (by decide +kernel)

example : ∀ d ∈ blueToy, Detail.usesLine d.op = true → ∀ s c, Detail.penOf d = some (s, c) → c.isSome := by
  intro d hd hu s c hp
  simp only [blueToy, List.mem_cons, List.not_mem_nil, or_false] at hd
  rcases hd with rfl | rfl | rfl
  · cases hu
  · cases hu
  · cases hp; rfl

end Patro.Printed
