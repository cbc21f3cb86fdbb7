import Verif.Proof.Painters
import Verif.Props.Scene
import Verif.Props.Tex
import Verif.Props.Transformation
import Mathlib.Tactic.Ring
import Mathlib.Tactic.Linarith
import Mathlib.Tactic.FieldSimp
import Mathlib.Tactic.NormNum
import Mathlib.Algebra.Order.Field.Basic
/-!
# Properties of the SVG, DXF, PDF and matplotlib painters
-/

namespace Patro.Painters

open Xml (Text)

variable {K G : Type} [Field K] [LinearOrder K]

/-! ## Painting -/

theorem paintLoop_shows {ι κ α : Type} (kind : ι → κ) (methods : κ → Option (ι → Except PyErr (List α))) (R : ι → List α → Prop) (items : List ι)
    (h : ∀ i ∈ items, ∃ m l, methods (kind i) = some m ∧ m i = .ok l ∧ R i l) :
    ∃ outs, List.Forall₂ R items outs ∧ Tex.paintLoop kind methods items = (outs, .ok ()) := by
  induction items with
  | nil => exact ⟨[], .nil, rfl⟩
  | cons i items ih =>
    obtain ⟨m, l, h1, h2, h3⟩ := h i (by simp)
    obtain ⟨outs, h4, h5⟩ := ih fun j hj => h j (by simp [hj])
    refine ⟨l :: outs, .cons h3 h4, ?_⟩
    unfold Tex.paintLoop
    simp only [h1, h2, h5]

theorem paint_shows {α : Type} (s : Scene.Scene K (Shape K) G) (methods : Tex.Kind → Option (Scene.Item K (Shape K) G → Except PyErr (List α)))
    (R : Scene.Item K (Shape K) G → List α → Prop)
    (h : ∀ i ∈ s.items.values, i.visible = true → ∃ m l, methods i.shape.kind = some m ∧ m i = .ok l ∧ R i l) :
    ∃ l outs, PaintOrder s l ∧ List.Forall₂ R l outs ∧ paint s methods = (outs.flatten, .ok ()) := by
  obtain ⟨l, h1, h2, h3, h4⟩ := Scene.z_order s
  obtain ⟨outs, h5, h6⟩ := paintLoop_shows (fun i : Scene.Item K (Shape K) G => i.shape.kind) methods R l (by
    intro i hi
    have := h2.mem_iff.1 hi
    rw [List.mem_filter] at this
    exact h i this.1 this.2)
  refine ⟨l, outs, ⟨h2, h3, h4⟩, h5, ?_⟩
  unfold paint
  rw [h1]
  simp only [h6]

theorem mapM_points {s : Scene.Scene K (Shape K) G} {i : Scene.Item K (Shape K) G} {ps : List (Vec K)} (h : Points s i ps) (f : Vec K → Vec K)
    (cast : Scene.Position K → Except PyErr (Vec K)) (hc : ∀ p, cast p = (s.castPosition p).map f) :
    castItemPositions cast i = .ok (ps.map f) := by
  unfold castItemPositions
  unfold Points at h
  generalize i.positions = l at h
  induction h with
  | nil => rfl
  | cons h1 _ ih =>
    rw [List.mapM_cons, hc, h1, ih]
    rfl

theorem cast_one {s : Scene.Scene K (Shape K) G} {i : Scene.Item K (Shape K) G} {p : Vec K} (h : Points s i [p]) (f : Vec K → Vec K)
    (cast : Scene.Position K → Except PyErr (Vec K)) (hc : ∀ p, cast p = (s.castPosition p).map f) : castOne cast i = .ok (f p) := by
  unfold Points at h
  unfold castOne
  cases hl : i.positions with
  | nil => rw [hl] at h; cases h
  | cons a l =>
    rw [hl] at h
    cases h with
    | cons h1 h2 =>
      show cast a = _
      rw [hc, h1]
      rfl

/-! ## C155 -/

theorem svg_cast (s : Scene.Scene K (Shape K) G) (box : Box K) (p : Scene.Position K) :
    svgCast s box p = (s.castPosition p).map (svgPlace box) := by
  unfold svgCast
  congr 1
  funext v
  have : (svgTransformation box).m = (Transformation.Aff.translation (-(⟨box.xInf, box.ySup⟩ : Vec K))).m * (Transformation.Aff.scale 10 (-10) : Transformation.Aff K).m := by
    unfold svgTransformation Transformation.Aff.imul
    rw [if_pos (by simp [Transformation.Aff.translation])]
    dsimp only
    split_ifs <;> rfl
  unfold Transformation.Aff.apply svgPlace
  rw [this]
  apply Vec.ext <;>
    simp [Transformation.Aff.translation, Transformation.Aff.scale, Matrix.mul_apply, Matrix.mulVec, dotProduct, Fin.sum_univ_three] <;> ring

/-- What the scene has to hold for the SVG painter: texts and segments, whose points are known, with a colour and a line width. -/
def SvgReady (float : Text → Except PyErr K) (s : Scene.Scene K (Shape K) G) (i : Scene.Item K (Shape K) G) : Prop :=
  (i.shape.kind = .text ∧ ∃ p, Points s i [p]) ∨
  (i.shape.kind = .segment ∧ (∃ p q, Points s i [p, q]) ∧ (∃ c, i.shape.style.strokeColor = some c) ∧
    ∃ w, float i.shape.style.lineWidth = .ok w)

theorem svg_text_shows (number : K → Text) (float : Text → Except PyErr K) (s : Scene.Scene K (Shape K) G) (box : Box K)
    (i : Scene.Item K (Shape K) G) (hk : i.shape.kind = .text) {p : Vec K} (hp : Points s i [p]) :
    ∃ e, svgText number (svgCast s box) i = .ok [e] ∧ SvgShows number float s box i e := by
  have cast := svg_cast s box
  have h1 := cast_one hp _ _ cast
  obtain ⟨e, he, ht, hx, ha⟩ := element_attribute number textNames textNames_nodup.1 textNames_nodup.2 "text".toList
    [("x", some (.num (svgPlace box p).x)), ("y", some (.num (svgPlace box p).y)), ("fill", some (.text "black".toList))]
    (some i.shape.text)
  refine ⟨e, ?_, .inl ⟨hk, p, hp, ht, hx, ?_, ?_, ?_⟩⟩
  · unfold svgText
    rw [h1]
    simp only [bind, Except.bind]
    have : textAttrs number = textNames.map fun n => attr number n.1 n.2 := rfl
    rw [this, he]
    rfl
  · simpa [Dict.get?, valToXml] using ha ("x", "x") (by simp [textNames])
  · simpa [Dict.get?, valToXml] using ha ("y", "y") (by simp [textNames])
  · simpa [Dict.get?, valToXml] using ha ("fill", "fill") (by simp [textNames])

theorem svg_segment_shows (number : K → Text) (float : Text → Except PyErr K) (s : Scene.Scene K (Shape K) G) (box : Box K)
    (i : Scene.Item K (Shape K) G) (hk : i.shape.kind = .segment) {p q : Vec K} (hp : Points s i [p, q]) {c : Colour.Color}
    (hc : i.shape.style.strokeColor = some c) {w : K} (hw : float i.shape.style.lineWidth = .ok w) :
    ∃ e, svgSegment number float (svgCast s box) i = .ok [e] ∧ SvgShows number float s box i e := by
  have cast := svg_cast s box
  have h1 := mapM_points hp _ _ cast
  have hstyle : svgGraphicStyle number float i.shape.style = .ok ([("stroke", c.name.map .text), ("stroke_width", some (.text (number w)))] ++
      (match svgDashes i.shape.style.strokeStyle with
       | some l => [("stroke_dasharray", some (.list l))]
       | none => [])) := by
    unfold svgGraphicStyle
    rw [hc]
    simp only [hw, bind, Except.bind, pure, Except.pure]
    cases svgDashes i.shape.style.strokeStyle <;> rfl
  obtain ⟨e, he, ht, hx, ha⟩ := element_attribute number lineNames lineNames_nodup.1 lineNames_nodup.2 "line".toList
    ([("x1", some (.num (svgPlace box p).x)), ("y1", some (.num (svgPlace box p).y)), ("x2", some (.num (svgPlace box q).x)),
      ("y2", some (.num (svgPlace box q).y))] ++ ([("stroke", c.name.map .text), ("stroke_width", some (.text (number w)))] ++
      (match svgDashes i.shape.style.strokeStyle with
       | some l => [("stroke_dasharray", some (.list l))]
       | none => []))) none
  refine ⟨e, ?_,
    .inr ⟨hk, p, q, c, w, hp, hc, hw, ht, hx, ?_, ?_, ?_, ?_, ?_, ?_, ?_⟩⟩
  · unfold svgSegment
    rw [h1]
    have : lineAttrs number = lineNames.map fun n => attr number n.1 n.2 := rfl
    simp only [List.map_cons, List.map_nil, bind, Except.bind, hstyle]
    rw [this, he]
    rfl
  · simpa [Dict.get?, valToXml] using ha ("x1", "x1") (by simp [lineNames])
  · simpa [Dict.get?, valToXml] using ha ("y1", "y1") (by simp [lineNames])
  · simpa [Dict.get?, valToXml] using ha ("x2", "x2") (by simp [lineNames])
  · simpa [Dict.get?, valToXml] using ha ("y2", "y2") (by simp [lineNames])
  · rw [ha ("stroke", "stroke") (by simp [lineNames])]
    cases c.name <;> simp [Dict.get?, valToXml]
  · simpa [Dict.get?, valToXml] using ha ("stroke_width", "stroke-width") (by simp [lineNames])
  · rw [ha ("stroke_dasharray", "stroke-dasharray") (by simp [lineNames])]
    cases i.shape.style.strokeStyle <;> simp [Dict.get?, svgDashes, dashText, valToXml, Xml.join, Xml.natToText] <;> decide

/-- C155. The first element of every document, also of one which is not finished, is the style sheet of the class of the texts. -/
theorem svg_style_sheet (number : K → Text) (float : Text → Except PyErr K) (readPath : Text → Except PyErr Unit)
    (s : Scene.Scene K (Shape K) G) (box : Box K) :
    (svgTree number float readPath s box).1.head? =
      some ⟨"style".toList, [], some "\n        .normal { font: 12px sans-serif; }\n        ".toList⟩ := rfl

/-- C155. For the bounding box of the scene, a scene of texts and segments gives one element for each visible item, in the order of the z
values and then of insertion, after the style sheet: a text or a line with the place, the colour, the width and the dashes of the item. The
place is not the one wanted, see `svg_place_wrong`. -/
theorem svg_items_partial (number : K → Text) (float : Text → Except PyErr K) (readPath : Text → Except PyErr Unit)
    (s : Scene.Scene K (Shape K) G) (box : Box K) (h : ∀ i ∈ s.items.values, i.visible = true → SvgReady float s i) :
    ∃ l elements, PaintOrder s l ∧ List.Forall₂ (SvgShows number float s box) l elements ∧
      svgTree number float readPath s box = (styleSheet :: elements, .ok ()) := by
  obtain ⟨l, outs, h1, h2, h3⟩ := paint_shows s
    (methods (svgText number (svgCast s box)) (svgCircle number (svgCast s box)) (svgSegment number float (svgCast s box))
      (svgCubic number float readPath (svgCast s box)))
    (fun i es => ∃ e, es = [e] ∧ SvgShows number float s box i e) (by
      intro i hi hv
      rcases h i hi hv with ⟨hk, p, hp⟩ | ⟨hk, ⟨p, q, hp⟩, ⟨c, hc⟩, w, hw⟩
      · obtain ⟨e, h1, h2⟩ := svg_text_shows number float s box i hk hp
        exact ⟨svgText number (svgCast s box), [e], by rw [hk]; rfl, h1, e, rfl, h2⟩
      · obtain ⟨e, h1, h2⟩ := svg_segment_shows number float s box i hk hp hc hw
        exact ⟨svgSegment number float (svgCast s box), [e], by rw [hk]; rfl, h1, e, rfl, h2⟩)
  have : ∃ elements, outs = elements.map (fun e => [e]) ∧ List.Forall₂ (SvgShows number float s box) l elements := by
    clear h3 h1
    induction h2 with
    | nil => exact ⟨[], rfl, .nil⟩
    | cons h _ ih =>
      obtain ⟨e, rfl, he⟩ := h
      obtain ⟨es, rfl, hes⟩ := ih
      exact ⟨e :: es, rfl, .cons he hes⟩
  obtain ⟨elements, rfl, h4⟩ := this
  refine ⟨l, elements, h1, h4, ?_⟩
  unfold svgTree
  simp only [h3]
  rw [← List.flatMap_def, List.flatMap_singleton']

section Ordered

variable [IsStrictOrderedRing K]

/-- C155 fails for the place of the items: a point is where it should be only when the corner of the box is the origin of the scene, since the
translation is applied after the scale. -/
theorem svg_place_wrong (box : Box K) :
    (∀ p : Vec K, (svgTransformation box).apply p = svgWanted box p) ↔ box.xInf = 0 ∧ box.ySup = 0 := by
  have cast : ∀ p, (svgTransformation box).apply p = svgPlace box p := by
    intro p
    have := svg_cast (G := Unit) { transformation := id } box (.vector p)
    simpa [svgCast, Scene.Scene.castPosition, Except.map] using this
  simp only [cast, svgPlace, svgWanted, Vec.mk.injEq]
  constructor
  · intro h
    obtain ⟨h1, h2⟩ := h ⟨0, 0⟩
    constructor <;> linarith
  · rintro ⟨h1, h2⟩ p
    rw [h1, h2]
    constructor <;> ring

/-- C155 fails for the scenes on the positive side: all their points are above the page. -/
theorem svg_above_page_wrong (box : Box K) (p : Vec K) (h : 0 ≤ p.y) (hb : 0 < box.ySup) :
    ((svgTransformation box).apply p).y < 0 := by
  have := svg_cast (G := Unit) { transformation := id } box (.vector p)
  have : (svgTransformation box).apply p = svgPlace box p := by simpa [svgCast, Scene.Scene.castPosition, Except.map] using this
  rw [this]
  simp only [svgPlace]
  linarith

/-- C155. The scale and the orientation are those wanted: the vector between two points is the one wanted. -/
theorem svg_vector (box : Box K) (p q : Vec K) :
    (svgTransformation box).apply q - (svgTransformation box).apply p = svgWanted box q - svgWanted box p := by
  have cast : ∀ p, (svgTransformation box).apply p = svgPlace box p := by
    intro p
    have := svg_cast (G := Unit) { transformation := id } box (.vector p)
    simpa [svgCast, Scene.Scene.castPosition, Except.map] using this
  rw [cast, cast]
  apply Vec.ext <;> simp [svgPlace, svgWanted] <;> ring

end Ordered

/-- C155 fails for circles: their element is a text without a place, a radius and characters. -/
theorem svg_circle_wrong (number : K → Text) (cast : Scene.Position K → Except PyErr (Vec K)) (i : Scene.Item K (Shape K) G)
    (l : List Element) (h : svgCircle number cast i = .ok l) :
    l = [⟨"text".toList, [("fill", "black".toList), ("class", "normal".toList)], some []⟩] := by
  unfold svgCircle at h
  cases hp : castOne cast i with
  | error e => rw [hp] at h; cases h
  | ok p =>
    rw [hp] at h
    simp only [bind, Except.bind] at h
    rw [circle_element] at h
    exact (Except.ok.inj h).symm

/-- C155 fails for the cubic curves: nothing is written for them. -/
theorem svg_cubic_wrong (number : K → Text) (float : Text → Except PyErr K) (readPath : Text → Except PyErr Unit)
    (cast : Scene.Position K → Except PyErr (Vec K)) (i : Scene.Item K (Shape K) G) (l : List Element)
    (h : svgCubic number float readPath cast i = .ok l) : l = [] := by
  unfold svgCubic at h
  cases hp : castItemCoordinates cast i with
  | error e => rw [hp] at h; cases h
  | ok cs =>
    rw [hp] at h
    simp only [bind, Except.bind] at h
    split at h
    · split at h
      · cases h
      · split at h
        · cases h
        · exact (Except.ok.inj h).symm
    · cases h

/-- C155 and C158, C159 fail for every scene whose bounding box was not assigned, or is `None`: the constructors of three of the painters raise
before anything is painted. No scene has a box of its own: only `detail_scene` assigns one. -/
theorem no_bounding_box_wrong (number fixed3 : K → Text) (float : Text → Except PyErr K) (readPath : Text → Except PyErr Unit)
    (s : Scene.Scene K (Shape K) G) (boundingBox : Option (Option (Box K))) (h : boundingBox = none ∨ boundingBox = some none) (width height : K) :
    svgPainter number fixed3 float readPath s boundingBox width height = .error .attributeError ∧
    reportlabPainter s boundingBox width height = .error .attributeError ∧
    mplPainter float s boundingBox = .error .attributeError := by
  rcases h with rfl | rfl <;> exact ⟨rfl, rfl, rfl⟩

/-- C155 and C158, C159. With a box, each constructor makes its document exactly when the painting of all the items succeeds, and the document is
made of what was painted, for the size of the paper; otherwise it raises what the painting raised. -/
theorem painter_document (number fixed3 : K → Text) (float : Text → Except PyErr K) (readPath : Text → Except PyErr Unit)
    (s : Scene.Scene K (Shape K) G) (box : Box K) (width height : K) :
    svgPainter number fixed3 float readPath s (some (some box)) width height =
      (svgTree number float readPath s box).2.map (fun _ => svgDocument fixed3 width height (svgTree number float readPath s box).1) ∧
    reportlabPainter s (some (some box)) width height = (pdfOps s box).2.map (fun _ => (pageSize width height, (pdfOps s box).1)) ∧
    mplPainter float s (some (some box)) = (mplArtists float s).2.map (fun _ => (mplLimits box, (mplArtists float s).1)) := by
  refine ⟨?_, ?_, ?_⟩
  · unfold svgPainter
    cases h : (svgTree number float readPath s box).2 <;> simp [sceneBoundingBox, bind, Except.bind, h, Except.map, pure, Except.pure]
  · unfold reportlabPainter
    cases h : (pdfOps s box).2 <;> simp [sceneBoundingBox, bind, Except.bind, h, Except.map, pure, Except.pure]
  · unfold mplPainter
    cases h : (mplArtists float s).2 <;> simp [sceneBoundingBox, bind, Except.bind, h, Except.map, pure, Except.pure]

/-! ## C156 -/

/-- C156. The document has the size of the paper in millimetres, and its view box has the same numbers, so that one unit of its elements is one
millimetre; its elements are those of the tree, in the same order. -/
theorem svg_document (fixed3 : K → Text) (width height : K) (tree : List Element) :
    ∃ w h, w = fixed3 width ∧ h = fixed3 height ∧ (svgDocument fixed3 width height tree).attrib.get? "width" = some (w ++ "mm".toList) ∧
      (svgDocument fixed3 width height tree).attrib.get? "height" = some (h ++ "mm".toList) ∧
      (svgDocument fixed3 width height tree).attrib.get? "viewBox" = some ("0 0 ".toList ++ w ++ " ".toList ++ h) ∧
      (svgDocument fixed3 width height tree).children = tree := by
  refine ⟨_, _, rfl, rfl, ?_, ?_, ?_, rfl⟩ <;> simp [svgDocument, Dict.get?]

/-! ## C157 -/

theorem dxf_type (s : Tex.StrokeStyle) : dxfLineType s = dxfTypeName s := by
  cases s <;> rfl

theorem dxf_styled (style : Tex.PathStyle) (d : DxfStyle) (h : DxfStyled style d) : dxfGraphicStyle style = .ok d := by
  unfold dxfGraphicStyle
  rw [dxf_type]
  rcases h with ⟨h, rfl⟩ | ⟨c, h, hn, rfl⟩ | ⟨c, h, hn, rfl⟩
  · rw [h]
  · rw [h]; simp only [hn]; rfl
  · rw [h]; simp only [hn]; rfl

/-- What the scene has to hold for the DXF painter: texts, circles, segments and cubic curves, whose points are known; segments and curves have
a style that can be written. -/
def DxfReady (s : Scene.Scene K (Shape K) G) (i : Scene.Item K (Shape K) G) : Prop :=
  Placed s i ∧ (i.shape.kind = .segment ∨ i.shape.kind = .cubicBezier → ∃ d, DxfStyled i.shape.style d)

/-- C157. A scene of texts, circles, segments and cubic curves whose colours are black or have no name is saved with one entity for each
visible item but the circles, in the order of the z values and then of insertion: a text at its place, a line between its points, an
open spline of degree 3 with the four control points, all at ten units per centimetre. -/
theorem dxf_items_partial (s : Scene.Scene K (Shape K) G) (h : ∀ i ∈ s.items.values, i.visible = true → DxfReady s i) :
    ∃ l entities, PaintOrder s l ∧ List.Forall₂ (DxfShows s) l entities ∧ ezdxfPainter s = .ok entities.flatten := by
  have cast : ∀ p, dxfCast s p = (s.castPosition p).map fun v => (⟨10 * v.x, 10 * v.y⟩ : Vec K) := by
    intro p
    unfold dxfCast
    rfl
  obtain ⟨l, outs, h1, h2, h3⟩ := paint_shows s
    (methods (dxfText (dxfCast s)) dxfCircle (dxfSegment (dxfCast s)) (dxfCubic (dxfCast s))) (DxfShows s) (by
      intro i hi hv
      obtain ⟨hp, hst⟩ := h i hi hv
      cases hp with
      | text p hk hp =>
        refine ⟨_, _, by rw [hk]; rfl, ?_, .inl ⟨hk, p, hp, rfl⟩⟩
        unfold dxfText
        rw [cast_one hp _ _ cast]
        rfl
      | circle p hk hp => exact ⟨_, _, by rw [hk]; rfl, rfl, .inr (.inl ⟨hk, rfl⟩)⟩
      | segment p q hk hp =>
        obtain ⟨d, hd⟩ := hst (.inl hk)
        have hs := dxf_styled _ _ hd
        refine ⟨_, _, by rw [hk]; rfl, ?_, .inr (.inr (.inl ⟨hk, p, q, d, hp, hd, rfl⟩))⟩
        unfold dxfSegment
        rw [mapM_points hp _ _ cast, hs]
        rfl
      | cubic p q r t hk hp =>
        obtain ⟨d, hd⟩ := hst (.inr hk)
        have hs := dxf_styled _ _ hd
        refine ⟨_, _, by rw [hk]; rfl, ?_, .inr (.inr (.inr ⟨hk, p, q, r, t, d, hp, hd, rfl⟩))⟩
        unfold dxfCubic
        rw [mapM_points hp _ _ cast, hs]
        rfl)
  refine ⟨l, outs, h1, h2, ?_⟩
  unfold ezdxfPainter
  simp only [h3]
  rfl

/-- The painting of a scene raises what the first item that cannot be painted raises. -/
theorem paint_stops {α : Type} (s : Scene.Scene K (Shape K) G) (methods : Tex.Kind → Option (Scene.Item K (Shape K) G → Except PyErr (List α)))
    (i : Scene.Item K (Shape K) G) (hi : i ∈ s.items.values) (hv : i.visible = true)
    (h : ∀ m, methods i.shape.kind = some m → ∃ e, m i = .error e) : ∃ e, (paint s methods).2 = .error e := by
  obtain ⟨l, h1, h2, h3, h4⟩ := Scene.z_order s
  have hl : i ∈ l := h2.mem_iff.2 (List.mem_filter.2 ⟨hi, hv⟩)
  unfold paint
  rw [h1]
  clear h1 h2 h3 h4
  simp only
  induction l with
  | nil => cases hl
  | cons j l ih =>
    unfold Tex.paintLoop
    cases hm : methods j.shape.kind with
    | none => exact ⟨_, rfl⟩
    | some m =>
      dsimp only
      rcases List.mem_cons.1 hl with rfl | hl
      · obtain ⟨e, he⟩ := h m hm
        rw [he]
        cases e <;> exact ⟨_, rfl⟩
      · cases hj : m j with
        | error e => cases e <;> exact ⟨_, rfl⟩
        | ok out => exact ih hl

/-- C157 fails for the colours: a scene with a visible segment or curve whose colour has another name than black is not saved. -/
theorem dxf_colour_wrong (s : Scene.Scene K (Shape K) G) (i : Scene.Item K (Shape K) G) (hi : i ∈ s.items.values) (hv : i.visible = true)
    (hk : i.shape.kind = .segment ∨ i.shape.kind = .cubicBezier) (c : Colour.Color) (name : Text) (hc : i.shape.style.strokeColor = some c)
    (hn : c.name = some name) (hb : name ≠ "black".toList) : ∃ e, ezdxfPainter s = .error e := by
  have hg : dxfGraphicStyle i.shape.style = .error .keyError := by
    unfold dxfGraphicStyle
    rw [hc]
    simp only [hn]
    have : dxfColors.getItem (some name) = .error .keyError := by
      unfold Dict.getItem dxfColors
      rw [Dict.get?, if_neg (by simp), Dict.get?, if_neg (by simp only [Option.some.injEq]; exact fun e => hb e.symm)]
      rfl
    rw [this]
    rfl
  obtain ⟨e, he⟩ := paint_stops s
    (methods (dxfText (dxfCast s)) dxfCircle (dxfSegment (dxfCast s)) (dxfCubic (dxfCast s))) i hi hv (by
      intro m hm
      rcases hk with hk | hk <;> rw [hk] at hm <;> cases hm
      · unfold dxfSegment
        cases castItemPositions (dxfCast s) i with
        | error e => exact ⟨e, rfl⟩
        | ok ps => rw [hg]; exact ⟨_, rfl⟩
      · unfold dxfCubic
        cases castItemPositions (dxfCast s) i with
        | error e => exact ⟨e, rfl⟩
        | ok ps => rw [hg]; exact ⟨_, rfl⟩)
  refine ⟨e, ?_⟩
  unfold ezdxfPainter
  simp only [he]
  rfl

/-- C157 fails for the circles: the file is the same whatever circles there are. -/
theorem dxf_circle_wrong (i : Scene.Item K (Shape K) G) : dxfCircle i = .ok [] := rfl

/-- C157, C155, C158 and C159 fail for the other kinds of items: a scene with one of them is painted by none of the four painters. -/
theorem other_kinds_wrong (number : K → Text) (float : Text → Except PyErr K) (readPath : Text → Except PyErr Unit)
    (s : Scene.Scene K (Shape K) G) (box : Box K) (i : Scene.Item K (Shape K) G) (hi : i ∈ s.items.values) (hv : i.visible = true)
    (h : i.shape.kind ∉ [Tex.Kind.text, .circle, .segment, .cubicBezier]) :
    (∃ e, (svgTree number float readPath s box).2 = .error e) ∧ (∃ e, ezdxfPainter s = .error e) ∧ (∃ e, (pdfOps s box).2 = .error e) ∧
      ∃ e, (mplArtists float s).2 = .error e := by
  have key : ∀ {α : Type} (a b c d : Scene.Item K (Shape K) G → Except PyErr (List α)), ∃ e, (paint s (methods a b c d)).2 = .error e := by
    intro α a b c d
    apply paint_stops s _ i hi hv
    intro m hm
    cases hk : i.shape.kind <;> rw [hk] at h hm <;> simp [methods] at h hm <;> subst hm <;> exact ⟨_, rfl⟩
  refine ⟨key _ _ _ _, ?_, key _ _ _ _, key _ _ _ _⟩
  obtain ⟨e, he⟩ := key (dxfText (dxfCast s)) dxfCircle (dxfSegment (dxfCast s)) (dxfCubic (dxfCast s))
  refine ⟨e, ?_⟩
  unfold ezdxfPainter
  simp only [he]
  rfl

/-- C157. The driver is `ezdxf`, given or not; another one raises `KeyError`. -/
theorem dxf_driver (s : Scene.Scene K (Shape K) G) (driver : String) :
    dxfPainter s none = ezdxfPainter s ∧ dxfPainter s (some "ezdxf") = ezdxfPainter s ∧
    (driver ≠ "ezdxf" → dxfPainter s (some driver) = .error .keyError) := by
  refine ⟨rfl, rfl, fun h => ?_⟩
  unfold dxfPainter
  simp only [Option.getD_some]

/-! ## C158 -/

section Pdf

variable [IsStrictOrderedRing K]

/-- C158. One inch is 72 points, and the two ways to convert a length agree: the page of a paper of `w` by `h` millimetres is `w` by `h`
millimetres of reportlab. -/
theorem pdf_page (w h : K) : mmToPt (254 / 10 : K) = 72 ∧ pageSize w h = [w * mm, h * mm] := by
  have : (254 : K) ≠ 0 := by norm_num
  unfold pageSize mmToPt mm cm
  constructor
  · field_simp
  · simp only [List.map_cons, List.map_nil, List.cons.injEq, and_true]
    constructor <;> field_simp <;> norm_num

theorem pdf_cast (s : Scene.Scene K (Shape K) G) (p : Scene.Position K) :
    pdfCast s p = (s.castPosition p).map fun v => (⟨cm * (7 / 10) * v.x, cm * (7 / 10) * v.y⟩ : Vec K) := by
  unfold pdfCast
  congr 1
  funext v
  apply Vec.ext <;> simp [Vec.smul] <;> ring

/-- C158. For the bounding box of the scene, a scene of texts, circles, segments and cubic curves is drawn with one call for each visible item,
four for a circle, in the order of the z values and then of insertion, at seven tenths of a centimetre for a unit of the scene. -/
theorem pdf_items_partial (s : Scene.Scene K (Shape K) G) (box : Box K) (h : ∀ i ∈ s.items.values, i.visible = true → Placed s i) :
    ∃ l ops, PaintOrder s l ∧ List.Forall₂ (PdfShows s) l ops ∧
      pdfOps s box = ([.translate (-box.xInf * cm) (-box.yInf * cm), .translate (1 * cm) (1 * cm), .setFont "Times-Roman".toList 20] ++
        ops.flatten, .ok ()) := by
  have cast := pdf_cast s
  obtain ⟨l, outs, h1, h2, h3⟩ := paint_shows s
    (methods (pdfText (pdfCast s)) (pdfCircle (pdfCast s)) (pdfSegment (pdfCast s)) (pdfCubic (pdfCast s))) (PdfShows s) (by
      intro i hi hv
      cases h i hi hv with
      | text p hk hp =>
        refine ⟨_, _, by rw [hk]; rfl, ?_, .inl ⟨hk, p, hp, rfl⟩⟩
        unfold pdfText
        rw [cast_one hp _ _ cast]
        rfl
      | circle p hk hp =>
        refine ⟨_, _, by rw [hk]; rfl, ?_, .inr (.inl ⟨hk, p, hp, rfl⟩)⟩
        unfold pdfCircle
        rw [cast_one hp _ _ cast]
        rfl
      | segment p q hk hp =>
        refine ⟨_, _, by rw [hk]; rfl, ?_, .inr (.inr (.inl ⟨hk, p, q, hp, rfl⟩))⟩
        unfold pdfSegment castItemCoordinates
        rw [mapM_points hp _ _ cast]
        rfl
      | cubic p q r t hk hp =>
        refine ⟨_, _, by rw [hk]; rfl, ?_, .inr (.inr (.inr ⟨hk, p, q, r, t, hp, rfl⟩))⟩
        unfold pdfCubic castItemCoordinates
        rw [mapM_points hp _ _ cast]
        rfl)
  refine ⟨l, outs, h1, h2, ?_⟩
  unfold pdfOps
  simp only [h3]

theorem pdfOrigin_shows (s : Scene.Scene K (Shape K) G) (l : List (Scene.Item K (Shape K) G)) (ops : List (List (PdfOp K)))
    (h : List.Forall₂ (PdfShows s) l ops) : pdfOrigin ops.flatten = ⟨0, 0⟩ := by
  induction h with
  | nil => rfl
  | cons h _ ih =>
    rcases h with ⟨_, p, _, rfl⟩ | ⟨_, p, _, rfl⟩ | ⟨_, p, q, _, rfl⟩ | ⟨_, p, q, r, t, _, rfl⟩ <;> simpa [pdfOrigin] using ih

/-- C158 fails for the place on the page: the lower left corner of the box, which should be one centimetre from the two sides, is there only
when it is the origin of the scene; it is outside of the page when its abscissa is more than 10/3. -/
theorem pdf_margin_wrong (s : Scene.Scene K (Shape K) G) (box : Box K) (h : ∀ i ∈ s.items.values, i.visible = true → Placed s i)
    (corner : Vec K) (hc : corner = ⟨cm * (7 / 10) * box.xInf, cm * (7 / 10) * box.yInf⟩) :
    ((pdfOrigin (pdfOps s box).1 + corner = ⟨cm, cm⟩) ↔ box.xInf = 0 ∧ box.yInf = 0) ∧
    ((pdfOrigin (pdfOps s box).1 + corner).x < 0 ↔ 10 / 3 < box.xInf) := by
  obtain ⟨l, ops, _, h2, h3⟩ := pdf_items_partial s box h
  have h0 := pdfOrigin_shows s l ops h2
  have hcm : (0 : K) < cm := by unfold cm; norm_num
  have : pdfOrigin (pdfOps s box).1 = ⟨-box.xInf * cm + cm, -box.yInf * cm + cm⟩ := by
    rw [h3]
    simp [pdfOrigin, h0]
  rw [this, hc]
  constructor
  · rw [Vec.ext_iff]
    simp only [Vec.add_x, Vec.add_y]
    constructor
    · rintro ⟨h1, h2⟩
      constructor
      · have : cm * (box.xInf * (3 / 10)) = 0 := by linarith
        rcases mul_eq_zero.1 this with h | h
        · exact absurd h hcm.ne'
        · linarith
      · have : cm * (box.yInf * (3 / 10)) = 0 := by linarith
        rcases mul_eq_zero.1 this with h | h
        · exact absurd h hcm.ne'
        · linarith
    · rintro ⟨h1, h2⟩
      rw [h1, h2]
      constructor <;> ring
  · simp only [Vec.add_x]
    have : -box.xInf * cm + cm + cm * (7 / 10) * box.xInf = cm * (1 - 3 / 10 * box.xInf) := by ring
    rw [this]
    constructor
    · intro h
      by_contra hn
      have : 0 ≤ cm * (1 - 3 / 10 * box.xInf) := mul_nonneg hcm.le (by linarith)
      linarith
    · intro h
      exact mul_neg_of_pos_of_neg hcm (by linarith)

end Pdf

/-- C158 fails for the style of the items and the radius of the circles: they are not used. -/
theorem pdf_style_wrong (cast : Scene.Position K → Except PyErr (Vec K)) (i : Scene.Item K (Shape K) G) (style : Tex.PathStyle) (radius : K) :
    pdfSegment cast { i with shape := { i.shape with style := style } } = pdfSegment cast i ∧
    pdfCubic cast { i with shape := { i.shape with style := style } } = pdfCubic cast i ∧
    pdfCircle cast { i with shape := { i.shape with style := style, radius := radius } } = pdfCircle cast i := ⟨rfl, rfl, rfl⟩

/-- C158 fails without the argument `driver`, which is said to be optional: `KeyError` is raised, as for any driver other than `reportlab`. -/
theorem pdf_driver_wrong (s : Scene.Scene K (Shape K) G) (boundingBox : Option (Option (Box K))) (width height : K) :
    pdfPainter s boundingBox width height none = .error .keyError ∧
    pdfPainter s boundingBox width height (some "reportlab") = reportlabPainter s boundingBox width height ∧
    ∀ driver, driver ≠ "reportlab" → pdfPainter s boundingBox width height (some driver) = .error .keyError := by
  refine ⟨rfl, rfl, fun driver h => ?_⟩
  unfold pdfPainter
  split
  · rfl
  · rename_i h'
    exact absurd (Option.some.inj h') h
  · rfl

/-! ## C159 -/

theorem mpl_style (s : Tex.StrokeStyle) : mplLineStyle s = mplStyleName s := by
  cases s <;> rfl

/-- C159. A scene of texts, circles, segments and cubic curves gives one artist for each visible item, in the order of the z values and then of
insertion, at the place of the item in the scene, with the colour, the width and the style of its line; a circle has the radius 1/2. -/
theorem mpl_items_partial [IsStrictOrderedRing K] (float : Text → Except PyErr K) (s : Scene.Scene K (Shape K) G)
    (h : ∀ i ∈ s.items.values, i.visible = true → Placed s i ∧ (i.shape.kind = .segment ∨ i.shape.kind = .cubicBezier →
      (∃ c, i.shape.style.strokeColor = some c) ∧ ∃ w, float i.shape.style.lineWidth = .ok w)) :
    ∃ l artists, PaintOrder s l ∧ List.Forall₂ (MplShows float s) l artists ∧ mplArtists float s = (artists.flatten, .ok ()) := by
  have cast : ∀ p, s.castPosition p = (s.castPosition p).map fun v => v := by
    intro p
    cases s.castPosition p <;> rfl
  have one : ∀ {i : Scene.Item K (Shape K) G} {p}, Points s i [p] → castOne s.castPosition i = .ok p := fun hp => cast_one hp (fun v => v) _ cast
  have all : ∀ {i : Scene.Item K (Shape K) G} {ps}, Points s i ps → castItemPositions s.castPosition i = .ok ps := by
    intro i ps hp
    have := mapM_points hp (fun v => v) _ cast
    rwa [List.map_id'] at this
  apply paint_shows
  intro i hi hv
  obtain ⟨hp, hst⟩ := h i hi hv
  cases hp with
  | text p hk hp =>
    refine ⟨_, _, by rw [hk]; rfl, ?_, .inl ⟨hk, p, hp, rfl⟩⟩
    unfold mplText
    rw [one hp]
    rfl
  | circle p hk hp =>
    refine ⟨_, _, by rw [hk]; rfl, ?_, .inr (.inl ⟨hk, p, hp, rfl⟩)⟩
    unfold mplCircle
    rw [one hp]
    have : (5 / 10 : K) = 1 / 2 := by norm_num
    rw [this]
    rfl
  | segment p q hk hp =>
    obtain ⟨⟨c, hc⟩, w, hw⟩ := hst (.inl hk)
    refine ⟨_, _, by rw [hk]; rfl, ?_, .inr (.inr (.inl ⟨hk, p, q, c, w, hp, hc, hw, rfl⟩))⟩
    unfold mplSegment mplPath
    rw [all hp, hc, hw, ← mpl_style]
    rfl
  | cubic p q r t hk hp =>
    obtain ⟨⟨c, hc⟩, w, hw⟩ := hst (.inr hk)
    refine ⟨_, _, by rw [hk]; rfl, ?_, .inr (.inr (.inr ⟨hk, p, q, r, t, c, w, hp, hc, hw, rfl⟩))⟩
    unfold mplCubic mplPath
    rw [all hp, hc, hw, ← mpl_style]
    rfl

theorem mapM_length {α β : Type} {f : α → Except PyErr β} {l : List α} {r : List β} (h : l.mapM f = .ok r) : r.length = l.length := by
  induction l generalizing r with
  | nil => cases h; rfl
  | cons a l ih =>
    rw [List.mapM_cons] at h
    simp only [bind, Except.bind] at h
    cases h1 : f a with
    | error e => rw [h1] at h; cases h
    | ok b =>
      rw [h1] at h
      simp only at h
      cases h2 : l.mapM f with
      | error e => rw [h2] at h; cases h
      | ok bs =>
        rw [h2] at h
        cases h
        simp [ih h2]

/-- C155 and C159. A segment has two positions and a cubic curve has four: a scene with a visible segment or curve that has another
number of positions is not drawn on the axes, and one with such a segment is not drawn in a SVG document. -/
theorem positions_wrong (number : K → Text) (float : Text → Except PyErr K) (readPath : Text → Except PyErr Unit)
    (s : Scene.Scene K (Shape K) G) (box : Box K) (i : Scene.Item K (Shape K) G) (hi : i ∈ s.items.values) (hv : i.visible = true) :
    (i.shape.kind = .segment → i.positions.length ≠ 2 →
      (∃ e, (svgTree number float readPath s box).2 = .error e) ∧ ∃ e, (mplArtists float s).2 = .error e) ∧
    (i.shape.kind = .cubicBezier → i.positions.length ≠ 4 → ∃ e, (mplArtists float s).2 = .error e) := by
  have mpl : ∀ codes : List Code, i.positions.length ≠ codes.length →
      ∃ e, (castItemPositions s.castPosition i >>= fun ps => mplPath float i ps codes) = .error e := by
    intro codes hne
    cases hp : castItemPositions s.castPosition i with
    | error e => exact ⟨e, rfl⟩
    | ok ps =>
      have hl : ps.length ≠ codes.length := by rwa [mapM_length hp]
      refine ⟨.valueError, ?_⟩
      simp only [bind, Except.bind, mplPath]
      rw [if_pos hl]
  refine ⟨fun hk hne => ⟨?_, ?_⟩, fun hk hne => ?_⟩
  · refine paint_stops s _ i hi hv ?_
    intro m hm
    rw [hk] at hm
    cases hm
    unfold svgSegment
    cases hp : castItemPositions (svgCast s box) i with
    | error e => exact ⟨e, rfl⟩
    | ok ps =>
      have hl : ps.length ≠ 2 := by rwa [mapM_length hp]
      match ps, hl with
      | [], _ => exact ⟨_, rfl⟩
      | [_], _ => exact ⟨_, rfl⟩
      | [_, _], hl => exact absurd rfl hl
      | _ :: _ :: _ :: _, _ => exact ⟨_, rfl⟩
  · refine paint_stops s _ i hi hv ?_
    intro m hm
    rw [hk] at hm
    cases hm
    exact mpl [.moveTo, .lineTo] hne
  · refine paint_stops s _ i hi hv ?_
    intro m hm
    rw [hk] at hm
    cases hm
    exact mpl [.moveTo, .curve4, .curve4, .curve4] hne

/-- C155 and C159 fail for a path without stroke colour: `None.name` raises, and the scene is drawn neither in a SVG document nor on the
axes. -/
theorem no_colour_wrong (number : K → Text) (float : Text → Except PyErr K) (readPath : Text → Except PyErr Unit)
    (s : Scene.Scene K (Shape K) G) (box : Box K) (i : Scene.Item K (Shape K) G) (hi : i ∈ s.items.values) (hv : i.visible = true)
    (hk : i.shape.kind = .segment ∨ i.shape.kind = .cubicBezier) (hc : i.shape.style.strokeColor = none) :
    (∃ e, (svgTree number float readPath s box).2 = .error e) ∧ ∃ e, (mplArtists float s).2 = .error e := by
  have hsvg : svgGraphicStyle number float i.shape.style = .error .attributeError := by
    unfold svgGraphicStyle
    rw [hc]
  have mpl : ∀ codes : List Code, ∃ e, (castItemPositions s.castPosition i >>= fun ps => mplPath float i ps codes) = .error e := by
    intro codes
    cases hp : castItemPositions s.castPosition i with
    | error e => exact ⟨e, rfl⟩
    | ok ps =>
      simp only [bind, Except.bind, mplPath, hc]
      split_ifs
      · exact ⟨_, rfl⟩
      · exact ⟨_, rfl⟩
  constructor
  · refine paint_stops s _ i hi hv ?_
    intro m hm
    rcases hk with hk | hk <;> rw [hk] at hm <;> cases hm
    · unfold svgSegment
      cases hp : castItemPositions (svgCast s box) i with
      | error e => exact ⟨e, rfl⟩
      | ok ps =>
        simp only [bind, Except.bind]
        split
        · rw [hsvg]; exact ⟨_, rfl⟩
        · exact ⟨_, rfl⟩
    · unfold svgCubic
      cases hp : castItemCoordinates (svgCast s box) i with
      | error e => exact ⟨e, rfl⟩
      | ok ps =>
        simp only [bind, Except.bind]
        split
        · rw [hsvg]; exact ⟨_, rfl⟩
        · exact ⟨_, rfl⟩
  · refine paint_stops s _ i hi hv ?_
    intro m hm
    rcases hk with hk | hk <;> rw [hk] at hm <;> cases hm
    · exact mpl _
    · exact mpl _

/-- C155 and C159. The exception is `AttributeError` when the positions of the item are known. -/
theorem no_colour_exception (number : K → Text) (float : Text → Except PyErr K) (cast : Scene.Position K → Except PyErr (Vec K))
    (i : Scene.Item K (Shape K) G) (hc : i.shape.style.strokeColor = none) (p q a b : Vec K) :
    (castItemPositions cast i = .ok [p, q] →
      svgSegment number float cast i = .error .attributeError ∧ mplSegment float cast i = .error .attributeError) ∧
    (castItemPositions cast i = .ok [p, q, a, b] → mplCubic float cast i = .error .attributeError) := by
  refine ⟨fun h => ⟨?_, ?_⟩, fun h => ?_⟩
  · unfold svgSegment
    rw [h]
    have e : svgGraphicStyle number float i.shape.style = .error .attributeError := by
      unfold svgGraphicStyle
      rw [hc]
    simp only [bind, Except.bind]
    rw [e]
  · unfold mplSegment
    rw [h]
    simp [bind, Except.bind, mplPath, hc]
  · unfold mplCubic
    rw [h]
    simp [bind, Except.bind, mplPath, hc]

/-- C155 and C159 fail for the other items: when the visible item which is painted first, that is with the smallest z value and the first one made, is
neither a text, a circle, a segment nor a cubic curve, `NotImplementedError` is raised, in the SVG document and on the axes, and nothing is drawn. -/
theorem other_items_wrong (number : K → Text) (float : Text → Except PyErr K) (readPath : Text → Except PyErr Unit)
    (s : Scene.Scene K (Shape K) G) (box : Box K) (i : Scene.Item K (Shape K) G) (l : List (Scene.Item K (Shape K) G))
    (h : s.zValueIter = .ok (i :: l)) (hk : i.shape.kind ∉ [Tex.Kind.text, .circle, .segment, .cubicBezier]) :
    (svgTree number float readPath s box).2 = .error .notImplementedError ∧ (svgTree number float readPath s box).1.length = 1 ∧
    mplArtists float s = ([], .error .notImplementedError) := by
  have key : ∀ {α : Type} (f1 f2 f3 f4 : Scene.Item K (Shape K) G → Except PyErr (List α)),
      paint s (methods f1 f2 f3 f4) = ([], .error .notImplementedError) := by
    intro α f1 f2 f3 f4
    unfold paint
    rw [h]
    dsimp only
    unfold Tex.paintLoop
    cases hi : i.shape.kind <;> rw [hi] at hk <;> first | exact absurd hk (by decide) | rfl
  refine ⟨?_, ?_, key _ _ _ _⟩
  · exact congrArg Prod.snd (key _ _ _ _)
  · exact congrArg (fun r => (styleSheet :: r.1).length) (key _ _ _ _)

/-- C159. The limits of the axes leave around the box a margin of one tenth of its larger side, the same on the four sides, so that every point
of the box is inside. -/
theorem mpl_limits [IsStrictOrderedRing K] (box : Box K) (hx : box.xInf ≤ box.xSup) (hy : box.yInf ≤ box.ySup) :
    ∃ m : K, m = max (box.xSup - box.xInf) (box.ySup - box.yInf) / 10 ∧
      (mplLimits box).xInf = box.xInf - m ∧ (mplLimits box).xSup = box.xSup + m ∧ (mplLimits box).yInf = box.yInf - m ∧
      (mplLimits box).ySup = box.ySup + m ∧
      ∀ p : Vec K, box.xInf ≤ p.x → p.x ≤ box.xSup → box.yInf ≤ p.y → p.y ≤ box.ySup →
        (mplLimits box).xInf ≤ p.x ∧ p.x ≤ (mplLimits box).xSup ∧ (mplLimits box).yInf ≤ p.y ∧ p.y ≤ (mplLimits box).ySup := by
  have hm : max ((box.xSup - box.xInf) * (10 / 100)) ((box.ySup - box.yInf) * (10 / 100)) = max (box.xSup - box.xInf) (box.ySup - box.yInf) / 10 := by
    rcases le_total (box.xSup - box.xInf) (box.ySup - box.yInf) with h | h
    · rw [max_eq_right h, max_eq_right (mul_le_mul_of_nonneg_right h (by norm_num))]
      ring
    · rw [max_eq_left h, max_eq_left (mul_le_mul_of_nonneg_right h (by norm_num))]
      ring
  have h0 : 0 ≤ max (box.xSup - box.xInf) (box.ySup - box.yInf) / 10 :=
    div_nonneg (le_max_of_le_left (by linarith)) (by norm_num)
  refine ⟨_, rfl, ?_, ?_, ?_, ?_, fun p h1 h2 h3 h4 => ?_⟩
  all_goals simp only [mplLimits, Paper.enlarge, hm]
  refine ⟨?_, ?_, ?_, ?_⟩ <;> linarith

/-- C159 fails for the radius of the circles. -/
theorem mpl_circle_wrong (cast : Scene.Position K → Except PyErr (Vec K)) (i : Scene.Item K (Shape K) G) (radius : K) :
    mplCircle cast { i with shape := { i.shape with radius := radius } } = mplCircle cast i := rfl

/-! ## A scene -/

/-- A scene with a coordinate, a hidden segment, a segment, and a curve below it. -/
def demo : Scene.Scene ℚ (Shape ℚ) Unit :=
  { transformation := id
    coordinates := [("A", ⟨1, 2⟩)]
    items := [
      (1, { shape := ⟨.segment, [], 0, ⟨.dashLine, "1".toList, some { name := some "black".toList }⟩⟩, positions := [.name "A", .vector ⟨3, 4⟩],
            userData := none, z := 1 }),
      (2, { shape := ⟨.segment, [], 0, ⟨.solidLine, "1".toList, none⟩⟩, positions := [.name "A", .vector ⟨5, 6⟩],
            userData := none, z := 0, visible := false }),
      (3, { shape := ⟨.cubicBezier, [], 0, ⟨.solidLine, "1".toList, some {}⟩⟩,
            positions := [.vector ⟨0, 0⟩, .vector ⟨0, 1⟩, .vector ⟨1, 1⟩, .vector ⟨1, 0⟩], userData := none, z := 0 })] }

theorem demo_order : demo.zValueIter = .ok ((demo.items.values.drop 2) ++ demo.items.values.take 1) := by
  unfold Scene.Scene.zValueIter
  have h1 : (Scene.groupByZ demo.items.values).keys = [1, 0] := by decide +kernel
  have h2 : ([1, 0] : List ℚ).mergeSort (fun a b => decide (a ≤ b)) = [0, 1] := by
    simp [List.mergeSort, List.MergeSort.Internal.splitInTwo]
  simp only [h1, h2]
  rfl

example : ezdxfPainter demo = .ok [.openSpline [(0, 0, 0), (0, 10, 0), (10, 10, 0), (10, 0, 0)] 3 ⟨"CONTINUOUS".toList, none⟩,
    .line ⟨10, 20⟩ ⟨30, 40⟩ ⟨"DASH".toList, some 0⟩] := by
  unfold ezdxfPainter paint
  rw [demo_order]
  decide +kernel

example : ∀ i ∈ demo.items.values, i.visible = true → DxfReady demo i := by
  intro i hi hv
  simp only [demo, Dict.values, List.map_cons, List.map_nil, List.mem_cons, List.not_mem_nil, or_false] at hi
  rcases hi with rfl | rfl | rfl
  · exact ⟨.segment ⟨1, 2⟩ ⟨3, 4⟩ rfl (.cons (by decide +kernel) (.cons rfl .nil)), fun _ => ⟨_, .inr (.inr ⟨_, rfl, rfl, rfl⟩)⟩⟩
  · cases hv
  · exact ⟨.cubic ⟨0, 0⟩ ⟨0, 1⟩ ⟨1, 1⟩ ⟨1, 0⟩ rfl (.cons rfl (.cons rfl (.cons rfl (.cons rfl .nil)))), fun _ => ⟨_, .inr (.inl ⟨_, rfl, rfl, rfl⟩)⟩⟩

example : (pdfOps demo ⟨0, 5, 0, 6⟩).1.drop 3 =
    [.bezier 0 0 0 (2520 / 127) (2520 / 127) (2520 / 127) (2520 / 127) 0, .line (2520 / 127) (5040 / 127) (7560 / 127) (10080 / 127)] := by
  unfold pdfOps paint
  rw [demo_order]
  decide +kernel

example : (mplArtists (fun _ => .ok 1) demo).1.length = 2 := by
  unfold mplArtists paint
  rw [demo_order]
  decide +kernel

/-- A scene with a segment only. -/
def lineDemo : Scene.Scene ℚ (Shape ℚ) Unit := { demo with items := demo.items.take 2 }

example : ((svgTree (fun q : ℚ => (toString q).toList) (fun _ => .ok 1) (fun _ => .ok ()) lineDemo ⟨1, 3, 2, 4⟩).1.map fun e => e.attrib) =
    [[], [("stroke", "black".toList), ("stroke-width", "1".toList), ("stroke-dasharray", "6 3".toList), ("x1", "9".toList),
      ("y1", "-24".toList), ("x2", "29".toList), ("y2", "-44".toList)]] := by
  have : lineDemo.zValueIter = .ok (demo.items.values.take 1) := by
    unfold Scene.Scene.zValueIter
    have h1 : (Scene.groupByZ lineDemo.items.values).keys = [1] := by decide +kernel
    simp only [h1, List.mergeSort_singleton]
    rfl
  unfold svgTree paint
  rw [this]
  decide +kernel

example : ∀ i ∈ lineDemo.items.values, i.visible = true → SvgReady (fun _ => .ok 1) lineDemo i := by
  intro i hi hv
  simp only [lineDemo, demo, Dict.values, List.take, List.map_cons, List.map_nil, List.mem_cons, List.not_mem_nil, or_false] at hi
  rcases hi with rfl | rfl
  · exact .inr ⟨rfl, ⟨⟨1, 2⟩, ⟨3, 4⟩, .cons (by decide +kernel) (.cons rfl .nil)⟩, ⟨_, rfl⟩, _, rfl⟩
  · cases hv

/-- A scene with a segment that has one position and no colour. -/
def badDemo : Scene.Scene ℚ (Shape ℚ) Unit :=
  { transformation := id
    items := [
      (1, { shape := ⟨.segment, [], 0, ⟨.solidLine, "1".toList, none⟩⟩, positions := [.vector ⟨3, 4⟩], userData := none, z := 0 })] }

/-- The hypotheses of `positions_wrong` and `no_colour_wrong` are met. -/
example : ∃ i, i ∈ badDemo.items.values ∧ i.visible = true ∧ i.shape.kind = .segment ∧ i.positions.length ≠ 2 ∧
    i.shape.style.strokeColor = none := by
  refine ⟨_, List.mem_singleton.2 rfl, ?_⟩
  decide +kernel

end Patro.Painters
