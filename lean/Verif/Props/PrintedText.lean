import Verif.Spec.PrintedText
import Verif.Props.Printed
import Verif.Props.TexFigure
import Verif.Props.SvgPath
/-! # Properties of the way from a sketch to a SVG file and to a TeX document: C220, C221 -/

namespace Patro.Printed

open Detail (Mark Drawn Sc allMarks detailScene)
open SketchGeometry (St Op evalSketch)
open Style (SketchStyle)
open Painters (Points Element)
open Xml (Text)

/-! ## The data of a cubic curve is read -/

theorem spaces_word (w t : Text) (hw : w ≠ []) (h : ' ' ∉ w) : SvgPath.splitSpaceList (w ++ ' ' :: t) = w :: SvgPath.splitSpaceList t := by
  unfold SvgPath.splitSpaceList
  rw [Xml.split_append _ _ _ h, List.filter_cons_of_pos (by simpa using hw)]

theorem spaces_skip (t : Text) : SvgPath.splitSpaceList (' ' :: t) = SvgPath.splitSpaceList t := by
  unfold SvgPath.splitSpaceList
  rw [Xml.split, if_pos rfl, List.filter_cons_of_neg (by simp)]

theorem spaces_last (w : Text) (hw : w ≠ []) (h : ' ' ∉ w) : SvgPath.splitSpaceList w = [w] := by
  unfold SvgPath.splitSpaceList
  rw [Xml.split_of_not_mem _ _ h, List.filter_cons_of_pos (by simpa using hw), List.filter_nil]

theorem map_commas (w : Text) (h : ',' ∉ w) : (w.map fun c => if c = ',' then ' ' else c) = w := by
  induction w with
  | nil => rfl
  | cons c w ih =>
    simp only [List.mem_cons, not_or] at h
    rw [List.map_cons, ih h.2, if_neg (Ne.symm h.1)]

/-- C220. The data written for a curve is read by the constructor of the path, whatever the coordinates: this never stops the painting. -/
theorem cubic_data_read {number : ℝ → Text} {float : Text → Option ℝ} (hw : Writes number float) (a b c d e f g h : ℝ) :
    readPathData float (cubicData (number a) (number b) (number c) (number d) (number e) (number f) (number g) (number h)) = .ok () := by
  have hn := fun x => hw.ne_nil x
  have hs := fun x => (hw.sep x).1
  have hc := fun x => map_commas _ (hw.sep x).2
  have htok : ∀ x, ∃ y, SvgPath.tok float (number x) = .ok (.num y) := by
    intro x
    obtain ⟨y, hy⟩ := Option.isSome_iff_exists.1 (hw.read x)
    refine ⟨y, ?_⟩
    have h1 := hw.letter x
    revert h1 hy
    generalize number x = t
    intro hy h1
    unfold SvgPath.tok
    split
    · rename_i k
      rw [h1 k rfl, if_neg (by simp), hy]
    · rw [hy]
  obtain ⟨a', ha⟩ := htok a
  obtain ⟨b', hb⟩ := htok b
  obtain ⟨c', hc'⟩ := htok c
  obtain ⟨d', hd⟩ := htok d
  obtain ⟨e', he⟩ := htok e
  obtain ⟨f', hf⟩ := htok f
  obtain ⟨g', hg⟩ := htok g
  obtain ⟨h', hh⟩ := htok h
  have hwords : SvgPath.splitSpaceList ((cubicData (number a) (number b) (number c) (number d) (number e) (number f) (number g)
      (number h)).map fun c => if c = ',' then ' ' else c) =
      [['M'], number a, number b, ['C'], number c, number d, number e, number f, number g, number h] := by
    unfold cubicData
    simp only [List.map_append, hc]
    have e1 : ("M ".toList.map fun c => if c = ',' then ' ' else c) = ['M'] ++ [' '] := rfl
    have e2 : (" ".toList.map fun c => if c = ',' then ' ' else c) = [' '] := rfl
    have e3 : (" C ".toList.map fun c => if c = ',' then ' ' else c) = [' '] ++ ['C'] ++ [' '] := rfl
    have e4 : (", ".toList.map fun c => if c = ',' then ' ' else c) = [' '] ++ [' '] := rfl
    rw [e1, e2, e3, e4]
    simp only [List.append_assoc]
    have step : ∀ w t : Text, w ≠ [] → ' ' ∉ w → SvgPath.splitSpaceList (w ++ ([' '] ++ t)) = w :: SvgPath.splitSpaceList t :=
      fun w t h1 h2 => spaces_word w t h1 h2
    have skip : ∀ t : Text, SvgPath.splitSpaceList ([' '] ++ t) = SvgPath.splitSpaceList t := spaces_skip
    rw [step ['M'] _ (by simp) (by decide), step _ _ (hn a) (hs a), step _ _ (hn b) (hs b), step ['C'] _ (by simp) (by decide),
      step _ _ (hn c) (hs c), step _ _ (hn d) (hs d), skip, step _ _ (hn e) (hs e), step _ _ (hn f) (hs f), skip, step _ _ (hn g) (hs g),
      spaces_last _ (hn h) (hs h)]
  have htoks : SvgPath.toks float (cubicData (number a) (number b) (number c) (number d) (number e) (number f) (number g) (number h)) =
      .ok [.letter 'M', .num a', .num b', .letter 'C', .num c', .num d', .num e', .num f', .num g', .num h'] := by
    unfold SvgPath.toks
    rw [hwords]
    simp only [List.mapM_cons, ha, hb, hc', hd, he, hf, hg, hh]
    rfl
  have hlen : ∃ k, (cubicData (number a) (number b) (number c) (number d) (number e) (number f) (number g) (number h)).length + 1 = k + 3 := by
    refine ⟨(cubicData (number a) (number b) (number c) (number d) (number e) (number f) (number g) (number h)).length - 2, ?_⟩
    unfold cubicData
    simp only [List.length_append]
    have : "M ".toList.length = 2 := rfl
    omega
  obtain ⟨k, hk⟩ := hlen
  have hparse : SvgPath.parse (k + 3) [SvgPath.Tok.letter 'M', .num a', .num b', .letter 'C', .num c', .num d', .num e', .num f', .num g', .num h'] =
      some (.ok [('M', [.num a', .num b']), ('C', [.num c', .num d', .num e', .num f', .num g', .num h'])]) := rfl
  have hnums : [(('M', [SvgPath.Tok.num a', .num b']) : SvgPath.Command ℝ), ('C', [.num c', .num d', .num e', .num f', .num g', .num h'])].mapM
      SvgPath.nums? = some [('M', [a', b']), ('C', [c', d', e', f', g', h'])] := rfl
  obtain ⟨path, _, hgeo, _⟩ := SvgPath.geometry_partial 'M' a' b' [('C', [c', d', e', f', g', h'])] [] (.inr rfl)
    (by intro x hx; rw [List.mem_singleton.1 hx]; exact ⟨show 'C' ∈ SvgPath.supported by decide, rfl⟩) (.inl rfl)
  unfold readPathData SvgPath.fromXml
  rw [htoks, hk]
  simp only [hparse, hnums]
  have : SvgPath.toGeometry [('M', [a', b']), ('C', [c', d', e', f', g', h'])] = .ok (some path) := hgeo
  rw [this]

/-! ## The painting of the marks -/

theorem loop_marks {ι κ α : Type} (kind : ι → κ) (methods : κ → Option (ι → Except PyErr α)) (R : Mark → α → Prop) {P : ι → Mark → Prop}
    {items : List ι} {ms : List Mark} (h : List.Forall₂ P items ms)
    (hitem : ∀ it m, m ∈ ms → P it m → ∃ f l, methods (kind it) = some f ∧ f it = .ok l ∧ R m l) :
    ∃ outs, List.Forall₂ R ms outs ∧ Tex.paintLoop kind methods items = (outs, .ok ()) := by
  induction h with
  | nil => exact ⟨[], .nil, rfl⟩
  | cons h1 _ ih =>
    obtain ⟨outs, h2, h3⟩ := ih fun it m hm => hitem it m (List.mem_cons_of_mem _ hm)
    obtain ⟨f, l, h4, h5, h6⟩ := hitem _ _ (List.mem_cons_self ..) h1
    refine ⟨l :: outs, .cons h6 h2, ?_⟩
    unfold Tex.paintLoop
    simp only [h4, h5, h3]

theorem paint_marks {α : Type} {s : Sc} (str : Style.Value → Text) (hs : Plain s)
    (methods : Tex.Kind → Option (Scene.Item ℝ (Painters.Shape ℝ) Unit → Except PyErr (List α))) (R : Mark → List α → Prop) {ms : List Mark}
    (h : List.Forall₂ (fun it (m : Mark) => it.shape = m.shape ∧ it.positions.mapM s.castPosition = .ok m.points) s.items.values ms)
    (hitem : ∀ it m, m ∈ ms → it.shape = m.shape → it.positions.mapM s.castPosition = .ok m.points →
      ∃ f l, methods (painterItem str it).shape.kind = some f ∧ f (painterItem str it) = .ok l ∧ R m l) :
    ∃ outs, List.Forall₂ R ms outs ∧ Painters.paint (painterScene str s) methods = (outs.flatten, .ok ()) := by
  obtain ⟨l, h1, h2, h3, h4⟩ := Scene.z_order (painterScene str s)
  have hl := order_plain str hs (l := l) ⟨h2, h3, h4⟩
  subst hl
  obtain ⟨outs, h5, h6⟩ := loop_marks (fun i : Scene.Item ℝ (Painters.Shape ℝ) Unit => i.shape.kind) methods R
    (P := fun it m => ∃ j, it = painterItem str j ∧ j.shape = m.shape ∧ j.positions.mapM s.castPosition = .ok m.points)
    (items := s.items.values.map (painterItem str)) (ms := ms) (by
      rw [List.forall₂_map_left_iff]
      exact h.imp fun a b hab => ⟨a, rfl, hab⟩) (by
      rintro it m hm ⟨j, rfl, e1, e2⟩
      exact hitem j m hm e1 e2)
  refine ⟨outs, h5, ?_⟩
  unfold Painters.paint
  rw [h1]
  simp only [h6]

/-! ## SVG -/

section

variable (colors : Colour.DataBase) (floatText : Text → Except PyErr ℚ) (str : Style.Value → Text)

theorem svg_style {number : ℝ → Text} {float : Text → Except PyErr ℝ} {style : Tex.PathStyle} {c : Colour.Color} {w : ℝ}
    (hc : style.strokeColor = some c) (hw : float style.lineWidth = .ok w) : ∃ d, Painters.svgGraphicStyle number float style = .ok d := by
  unfold Painters.svgGraphicStyle
  rw [hc]
  simp only [hw, bind, Except.bind, pure, Except.pure]
  exact ⟨_, rfl⟩

/-- What the SVG painter writes for the item of a mark. -/
theorem svg_mark {s : Sc} (number : ℝ → Text) (float : Text → Except PyErr ℝ) (readPath : Text → Except PyErr Unit)
    (hread : ∀ a b c d e f g h : ℝ,
      readPath (cubicData (number a) (number b) (number c) (number d) (number e) (number f) (number g) (number h)) = .ok ())
    {width : Style.Value → ℝ} {style : SketchStyle}
    (hf : ∀ v ∈ [style.labelLineWidth, style.lineWidth, style.constructionLineWidth], float (str v) = .ok (width v)) (box : Box ℝ)
    {i : Scene.Item ℝ Detail.Shape Unit} {m : Mark} (hm : Penned style m) (hsh : Shaped m) (h1 : i.shape = m.shape)
    (h2 : i.positions.mapM s.castPosition = .ok m.points) :
    ∃ f es, Painters.methods (Painters.svgText number (Painters.svgCast (painterScene str s) box))
        (Painters.svgCircle number (Painters.svgCast (painterScene str s) box))
        (Painters.svgSegment number float (Painters.svgCast (painterScene str s) box))
        (Painters.svgCubic number float readPath (Painters.svgCast (painterScene str s) box)) (painterItem str i).shape.kind = some f ∧
      f (painterItem str i) = .ok es ∧ SvgMark number width box m es := by
  have hp := points_of_mapM str h2
  have hk : (painterItem str i).shape = painterShape str m.shape := by simp [painterItem, h1]
  have cast := Painters.svg_cast (painterScene str s) box
  unfold Shaped at hsh
  unfold SvgMark
  split at hsh
  · rename_i r ps p hs hpt
    rw [hpt] at hp
    have hkind : (painterItem str i).shape.kind = .circle := by rw [hk, hs]; rfl
    have hone := Painters.cast_one hp _ _ cast
    have hex : ∃ l, Painters.svgCircle number (Painters.svgCast (painterScene str s) box) (painterItem str i) = .ok l := by
      unfold Painters.svgCircle
      rw [hone]
      simp only [bind, Except.bind]
      rw [Painters.circle_element]
      exact ⟨_, rfl⟩
    obtain ⟨l, hl⟩ := hex
    refine ⟨_, l, by rw [hkind]; rfl, hl, ?_⟩
    rw [hs, hpt]
    exact Painters.svg_circle_wrong number _ _ l hl
  · rename_i ps p q hs hpt
    rw [hpt] at hp
    have hkind : (painterItem str i).shape.kind = .segment := by rw [hk, hs]; rfl
    obtain ⟨g1, g2⟩ := hm ps (.inl hs)
    obtain ⟨c, hc⟩ := Option.isSome_iff_exists.1 g1
    have hst : (painterItem str i).shape.style = painterStyle str ps := by rw [hk, hs]; rfl
    obtain ⟨e, he, hshow⟩ := Painters.svg_segment_shows number float (painterScene str s) box (painterItem str i) hkind hp (c := c)
      (by rw [hst]; exact hc) (w := width ps.lineWidth) (by rw [hst]; exact hf _ g2)
    refine ⟨_, [e], by rw [hkind]; rfl, he, ?_⟩
    rw [hs, hpt]
    refine ⟨e, rfl, ?_⟩
    rcases hshow with ⟨k, _⟩ | ⟨_, p', q', c', w', k1, k2, k3, k4, k5, k6, k7, k8, k9, k10, k11, k12⟩
    · rw [hkind] at k; cases k
    · have := points_unique hp k1
      simp only [List.cons.injEq, and_true] at this
      obtain ⟨rfl, rfl⟩ := this
      rw [hst] at k2 k3 k12
      have e3 : float (str ps.lineWidth) = .ok w' := k3
      rw [hf _ g2] at e3
      cases e3
      have e2 : ps.strokeColor = some c' := k2
      rw [e2]
      exact ⟨k4, k5, k6, k7, k8, k9, k10, k11, k12⟩
  · rename_i t fs p hs hpt
    rw [hpt] at hp
    have hkind : (painterItem str i).shape.kind = .text := by rw [hk, hs]; rfl
    obtain ⟨e, he, hshow⟩ := Painters.svg_text_shows number float (painterScene str s) box (painterItem str i) hkind hp
    refine ⟨_, [e], by rw [hkind]; rfl, he, ?_⟩
    rw [hs, hpt]
    refine ⟨e, rfl, ?_⟩
    rcases hshow with ⟨_, p', k1, k2, k3, k4, k5, k6⟩ | ⟨k, _⟩
    · have := points_unique hp k1
      simp only [List.cons.injEq, and_true] at this
      subst this
      have ht : (painterItem str i).shape.text = t.toList := by rw [hk, hs]; rfl
      rw [ht] at k3
      exact ⟨k2, k3, k4, k5, k6⟩
    · rw [hkind] at k; cases k
  · rename_i ps p q r u hs hpt
    rw [hpt] at hp
    have hkind : (painterItem str i).shape.kind = .cubicBezier := by rw [hk, hs]; rfl
    obtain ⟨g1, g2⟩ := hm ps (.inr hs)
    obtain ⟨c, hc⟩ := Option.isSome_iff_exists.1 g1
    have hst : (painterItem str i).shape.style = painterStyle str ps := by rw [hk, hs]; rfl
    obtain ⟨d, hd⟩ := svg_style (number := number) (float := float) (style := (painterItem str i).shape.style) (c := c)
      (by rw [hst]; exact hc) (w := width ps.lineWidth) (by rw [hst]; exact hf _ g2)
    have hpos := Painters.mapM_points hp _ _ cast
    refine ⟨_, [], by rw [hkind]; rfl, ?_, by rw [hs, hpt]⟩
    unfold Painters.svgCubic Painters.castItemCoordinates
    rw [hpos]
    simp only [List.map_cons, List.map_nil, bind, Except.bind, pure, Except.pure, List.foldl_cons, List.foldl_nil, List.nil_append, List.cons_append,
      hd]
    have := hread (Painters.svgPlace box p).x (Painters.svgPlace box p).y (Painters.svgPlace box q).x (Painters.svgPlace box q).y
      (Painters.svgPlace box r).x (Painters.svgPlace box r).y (Painters.svgPlace box u).x (Painters.svgPlace box u).y
    unfold cubicData at this
    rw [this]
  · cases hsh

/-- C220, what holds: an evaluated sketch whose lines all have a colour, drawn with a style whose line widths are numbers, is saved in a SVG
document of the size of the paper, with the labels of the points and the lines, in the order of the operations. The curves are missing, the discs
are empty texts, and the places are not those wanted. -/
theorem sketch_to_svg_partial {black : Colour.Color} (hb : colors.getItem "black".toList = .ok black) (style : SketchStyle) {ops : List Drawn}
    {st : St} (h : Ready ops st) (hne : ops ≠ []) (hc : ∀ d ∈ ops, Detail.usesLine d.op = true → ∀ s c, Detail.penOf d = some (s, c) → c.isSome)
    (number fixed3 : ℝ → Text) (float : Text → Except PyErr ℝ) (width : Style.Value → ℝ)
    (hf : ∀ v ∈ [style.labelLineWidth, style.lineWidth, style.constructionLineWidth], float (str v) = .ok (width v))
    (readFloat : Text → Option ℝ) (hw : Writes number readFloat) (paperWidth paperHeight : ℝ) :
    ∃ scene box outs, detailScene colors floatText (some style) ops st = .ok (scene, some box) ∧ Detail.boundingBox ops st = .ok (some box) ∧
      List.Forall₂ (SvgMark number width box) (allMarks black style st 0 ops) outs ∧
      Painters.svgPainter number fixed3 float (readPathData readFloat) (painterScene str scene) (some (some box)) paperWidth paperHeight =
        .ok ⟨[("version", "1.1".toList), ("width", fixed3 paperWidth ++ "mm".toList), ("height", fixed3 paperHeight ++ "mm".toList),
            ("viewBox", "0 0 ".toList ++ fixed3 paperWidth ++ " ".toList ++ fixed3 paperHeight)],
          ⟨"style".toList, [], some "\n        .normal { font: 12px sans-serif; }\n        ".toList⟩ :: outs.flatten⟩ := by
  obtain ⟨scene, box, h1, h2, h3, h4⟩ := scene_marks colors floatText hb style h
  obtain ⟨b, h5, _⟩ := (Detail.sketch_box h.refs h.evaluated).2 hne
  rw [h5] at h2
  cases h2
  have hpen := marks_penned black style st ops hc 0
  obtain ⟨outs, h6, h7⟩ := paint_marks str h3
    (Painters.methods (Painters.svgText number (Painters.svgCast (painterScene str scene) b))
      (Painters.svgCircle number (Painters.svgCast (painterScene str scene) b))
      (Painters.svgSegment number float (Painters.svgCast (painterScene str scene) b))
      (Painters.svgCubic number float (readPathData readFloat) (Painters.svgCast (painterScene str scene) b)))
    (SvgMark number width b) h4
    fun j m hm e1 e2 => svg_mark str number float (readPathData readFloat) (cubic_data_read hw) hf b (hpen m hm)
      (allMarks_shaped black style st ops 0 m hm) (i := j) e1 e2
  refine ⟨scene, b, outs, h1, h5, h6, ?_⟩
  unfold Painters.svgPainter Painters.svgTree
  simp only [Painters.sceneBoundingBox, bind, Except.bind, h7]
  rfl

/-- C220 is false of the curves and of the points: no element of the SVG document of a sketch is a path or a circle, whatever the sketch holds. -/
theorem sketch_to_svg_wrong {black : Colour.Color} (hb : colors.getItem "black".toList = .ok black) (style : SketchStyle) {ops : List Drawn}
    {st : St} (h : Ready ops st) (hne : ops ≠ []) (hc : ∀ d ∈ ops, Detail.usesLine d.op = true → ∀ s c, Detail.penOf d = some (s, c) → c.isSome)
    (number fixed3 : ℝ → Text) (float : Text → Except PyErr ℝ) (width : Style.Value → ℝ)
    (hf : ∀ v ∈ [style.labelLineWidth, style.lineWidth, style.constructionLineWidth], float (str v) = .ok (width v))
    (readFloat : Text → Option ℝ) (hw : Writes number readFloat) (paperWidth paperHeight : ℝ) :
    ∃ scene box document, detailScene colors floatText (some style) ops st = .ok (scene, some box) ∧
      Painters.svgPainter number fixed3 float (readPathData readFloat) (painterScene str scene) (some (some box)) paperWidth paperHeight =
        .ok document ∧
      ∀ e ∈ document.children, e.tag = "style".toList ∨ e.tag = "text".toList ∨ e.tag = "line".toList := by
  obtain ⟨scene, box, outs, h1, _, h3, h4⟩ := sketch_to_svg_partial colors floatText str hb style h hne hc number fixed3 float width hf readFloat hw
    paperWidth paperHeight
  refine ⟨scene, box, _, h1, h4, ?_⟩
  intro e he
  rcases List.mem_cons.1 he with rfl | he
  · exact .inl rfl
  · obtain ⟨es, hes, he⟩ := List.mem_flatten.1 he
    obtain ⟨m, _, hm⟩ := forall₂_right h3 es hes
    refine .inr ?_
    unfold SvgMark at hm
    split at hm
    · obtain ⟨e', rfl, ht, _⟩ := hm
      rw [List.mem_singleton.1 he]; exact .inl ht
    · obtain ⟨e', rfl, ht, _⟩ := hm
      rw [List.mem_singleton.1 he]; exact .inr ht
    · subst hm
      rw [List.mem_singleton.1 he]; exact .inl rfl
    · subst hm
      simp at he
    · cases hm

/-! ## TeX -/

theorem dict_lookup (d : Dict String (Vec ℝ)) (n : String) (p : Vec ℝ) (h : d.getItem n = .ok p) : List.lookup n d = some p := by
  unfold Dict.getItem at h
  induction d with
  | nil => cases h
  | cons c d ih =>
    obtain ⟨k, v⟩ := c
    unfold Dict.get? at h
    by_cases hk : k = n
    · rw [if_pos hk] at h
      cases h
      rw [hk]
      simp
    · rw [if_neg hk] at h
      rw [List.lookup_cons, show (n == k) = false by simpa using Ne.symm hk]
      exact ih h

theorem foldl_set_nodup (cs d : List (String × Vec ℝ)) (h : (d.map Prod.fst ++ cs.map Prod.fst).Nodup) :
    cs.foldl (fun d c => Dict.set d c.1 c.2) d = d ++ cs := by
  have hset : ∀ (d : Dict String (Vec ℝ)) (k : String) (v : Vec ℝ), k ∉ d.map Prod.fst → Dict.set d k v = d ++ [(k, v)] := by
    intro d k v
    induction d with
    | nil => intro _; rfl
    | cons c d ih =>
      intro hk
      obtain ⟨k', v'⟩ := c
      simp only [List.map_cons, List.mem_cons, not_or] at hk
      unfold Dict.set
      rw [if_neg (Ne.symm hk.1), ih hk.2]
      rfl
  induction cs generalizing d with
  | nil => simp
  | cons c cs ih =>
    rw [List.foldl_cons, hset _ _ _ ?_, ih]
    · simp
    · simpa [List.append_assoc] using h
    · intro hm
      exact (List.disjoint_of_nodup_append h) hm (by simp)

theorem allCoords_eq (st : St) (rest : List Drawn) : ∀ i, Detail.allCoords st i rest =
    (rest.zipIdx i).filterMap fun d => d.1.op.name.map fun n => (n, (st.vec d.2).getD 0) := by
  induction rest with
  | nil => intro i; rfl
  | cons d rest ih =>
    intro i
    rw [Detail.allCoords, ih, List.zipIdx_cons]
    unfold Detail.coord
    cases hn : d.op.name <;> simp [hn]

theorem pointsOf_names (ops : List Drawn) (st : St) : (pointsOf ops st).map Prod.fst = Detail.names ops := by
  unfold pointsOf Detail.names
  generalize 0 = i
  induction ops generalizing i with
  | nil => rfl
  | cons d ops ih =>
    rw [List.zipIdx_cons, List.filterMap_cons, List.filterMap_cons]
    cases hn : d.op.name with
    | none => simpa using ih (i + 1)
    | some n => simpa using ih (i + 1)

/-- The coordinates of the scene are the points of the sketch. -/
theorem scene_coordinates {black : Colour.Color} (hb : colors.getItem "black".toList = .ok black) (style : SketchStyle) {ops : List Drawn} {st : St}
    (h : Ready ops st) {scene : Sc} {box} (hd : detailScene colors floatText (some style) ops st = .ok (scene, box)) :
    scene.coordinates = pointsOf ops st ∧ scene.transformation = id := by
  obtain ⟨scene', box', h1, _, _, _, h5, h6, _⟩ := Detail.detailScene_ok colors floatText hb style h.refs h.evaluated h.styled
  rw [h1] at hd
  cases hd
  refine ⟨?_, h6⟩
  rw [h5, allCoords_eq]
  have hp : (ops.zipIdx 0).filterMap (fun d => d.1.op.name.map fun n => (n, (st.vec d.2).getD 0)) = pointsOf ops st := rfl
  rw [hp, foldl_set_nodup _ _ (by rw [pointsOf_names]; simpa using h.names), List.nil_append]

theorem stands_for {s : Sc} (number : ℝ → Text) (ht : s.transformation = id) {pos : Scene.Position ℝ} {p : Vec ℝ}
    (h : s.castPosition pos = .ok p) : StandsFor number s.coordinates (Tex.positionText number pos) p := by
  cases pos with
  | vector v =>
    have : v = p := by simpa [Scene.Scene.castPosition, ht] using h
    subst this
    exact .inl rfl
  | name n =>
    refine .inr ⟨n, rfl, dict_lookup _ _ _ ?_⟩
    have h' : (s.coordinates.getItem n).map s.transformation = .ok p := h
    rw [ht] at h'
    cases hg : s.coordinates.getItem n with
    | error e => rw [hg] at h'; cases h'
    | ok q => rw [hg] at h'; cases h'; rfl

/-- The lines of a mark can be written in a picture. -/
def TexPenned (m : Mark) : Prop :=
  ∀ s, m.shape = .segment s ∨ m.shape = .cubic s → s.strokeColor.isSome ∧ s.strokeStyle ≠ .dashDotDotLine

theorem marks_texPenned (black : Colour.Color) (style : SketchStyle) (st : St) (rest : List Drawn) (hc : TexPens rest) :
    ∀ i, ∀ m ∈ allMarks black style st i rest, TexPenned m := by
  induction rest with
  | nil => intro i m h; simp [allMarks] at h
  | cons d rest ih =>
    intro i m h
    rcases List.mem_append.1 h with h | h
    swap
    · exact ih (fun e he => hc e (List.mem_cons_of_mem _ he)) (i + 1) m h
    have hd := hc d (by simp)
    have hp : ∀ name v, m ∈ Detail.pointMarks black style st i d name v → TexPenned m := by
      intro name v h
      unfold Detail.pointMarks at h
      rcases List.mem_append.1 h with h | h
      · simp only [List.mem_cons, List.not_mem_nil, or_false] at h
        rcases h with rfl | rfl | rfl
        · rintro s (hs | hs) <;> cases hs
        · rintro s (hs | hs)
          · cases hs; exact ⟨rfl, by simp [Detail.lineOf]⟩
          · cases hs
        · rintro s (hs | hs) <;> cases hs
      · split at h
        · rename_i f pen hf hpen
          rw [List.mem_singleton.1 h]
          rintro s (hs | hs)
          · cases hs
            refine hd ?_ pen.1 pen.2 hpen
            cases hop : d.op <;> rw [hop] at hf <;> first | rfl | cases hf
          · cases hs
        · simp at h
    unfold Detail.marks at h
    split at h
    · rename_i f g pen hop hpen
      rw [List.mem_singleton.1 h]
      rintro s (hs | hs)
      · cases hs; exact hd (by rw [hop]; rfl) pen.1 pen.2 hpen
      · cases hs
    · rename_i pen hop hpen
      rw [List.mem_singleton.1 h]
      rintro s (hs | hs)
      · cases hs
      · cases hs; exact hd (by rw [hop]; rfl) pen.1 pen.2 hpen
    · split at h
      · exact hp _ _ h
      · simp at h

theorem tikz_pen {s : Style.PathStyle} (hc : s.strokeColor.isSome) (hs : s.strokeStyle ≠ .dashDotDotLine) :
    Tex.formatPathStyle (painterStyle str s) = .ok (tikzPen str s) := by
  obtain ⟨c, hc⟩ := Option.isSome_iff_exists.1 hc
  unfold Tex.formatPathStyle tikzPen
  simp only [painterStyle, hc, Option.bind_some]
  cases hst : s.strokeStyle <;> cases hn : c.name <;>
    first
    | exact absurd hst hs
    | simp [Tex.strokeText, Tex.joinStyles]

theorem tex_mark {s : Sc} (number : ℝ → Text) (ht : s.transformation = id) {i : Scene.Item ℝ Detail.Shape Unit} {m : Mark}
    (hm : TexPenned m) (hsh : Shaped m) (h1 : i.shape = m.shape) (h2 : i.positions.mapM s.castPosition = .ok m.points) :
    ∃ f t, Tex.texMethods number (texItem str i).kind = some f ∧ f (texItem str i) = .ok t ∧ TexShows number str s.coordinates m t := by
  have hp : List.Forall₂ (fun pos p => s.castPosition pos = .ok p) i.positions m.points := by
    have := points_of_mapM str h2
    unfold Points at this
    exact this.imp fun a b hab => by rwa [painterScene_cast] at hab
  unfold Shaped at hsh
  unfold TexShows
  split at hsh
  · rename_i r ps p hs hpt
    rw [hpt] at hp
    cases hl : i.positions with
    | nil => rw [hl] at hp; cases hp
    | cons a l =>
      rw [hl] at hp
      cases hp with
      | cons ha _ =>
        have hk : (texItem str i).kind = .circle := by simp [texItem, h1, hs, painterShape]
        rw [hk, hs, hpt]
        exact ⟨_, _, rfl, Tex.circle_painted number (texItem str i) a l hl, _, stands_for number ht ha, rfl⟩
  · rename_i ps p q hs hpt
    rw [hpt] at hp
    obtain ⟨g1, g2⟩ := hm ps (.inl hs)
    have hk : (texItem str i).kind = .segment := by simp [texItem, h1, hs, painterShape]
    have hst : Tex.formatPathStyle (texItem str i).style = .ok (tikzPen str ps) := by
      have : (texItem str i).style = painterStyle str ps := by simp [texItem, h1, hs, painterShape]
      rw [this, tikz_pen str g1 g2]
    match hl : i.positions, hp with
    | [a, b], .cons ha (.cons hb .nil) =>
      rw [hk, hs, hpt]
      exact ⟨_, _, rfl, (Tex.curves_painted number (texItem str i) _ hst).1 a b hl, _, _, stands_for number ht ha, stands_for number ht hb, rfl⟩
  · rename_i t fs p hs hpt
    rw [hpt] at hp
    cases hl : i.positions with
    | nil => rw [hl] at hp; cases hp
    | cons a l =>
      rw [hl] at hp
      cases hp with
      | cons ha _ =>
        have hk : (texItem str i).kind = .text := by simp [texItem, h1, hs, painterShape]
        have ht' : (texItem str i).text = t.toList := by simp [texItem, h1, hs, painterShape]
        have := Tex.text_painted number (texItem str i) a l hl
        rw [ht'] at this
        rw [hk, hs, hpt]
        exact ⟨_, _, rfl, this, _, stands_for number ht ha, rfl⟩
  · rename_i ps p q r u hs hpt
    rw [hpt] at hp
    obtain ⟨g1, g2⟩ := hm ps (.inr hs)
    have hk : (texItem str i).kind = .cubicBezier := by simp [texItem, h1, hs, painterShape]
    have hst : Tex.formatPathStyle (texItem str i).style = .ok (tikzPen str ps) := by
      have : (texItem str i).style = painterStyle str ps := by simp [texItem, h1, hs, painterShape]
      rw [this, tikz_pen str g1 g2]
    match hl : i.positions, hp with
    | [a, b, c, d], .cons ha (.cons hb (.cons hc (.cons hd .nil))) =>
      rw [hk, hs, hpt]
      exact ⟨_, _, rfl, (Tex.curves_painted number (texItem str i) _ hst).2 a b c d hl, _, _, _, _, stands_for number ht ha, stands_for number ht hb,
        stands_for number ht hc, stands_for number ht hd, rfl⟩
  · cases hsh

/-- The line of an item. -/
noncomputable def texLine (number : ℝ → Text) (i : Tex.Item ℝ) : Text :=
  match Tex.texMethods number i.kind with
  | some f => match f i with
    | .ok t => t
    | .error _ => []
  | none => []

theorem plain_iter {s : Sc} (h : Plain s) : s.zValueIter = .ok s.items.values := by
  obtain ⟨l, h1, h2, _, h4⟩ := Scene.z_order s
  have hall : ∀ i ∈ s.items.values, i.z = 0 ∧ i.visible = true := by
    intro i hi
    obtain ⟨e, he, rfl⟩ := List.mem_map.1 hi
    exact h e he
  have h5 := h4 0
  rw [List.filter_eq_self.2 ?_, List.filter_eq_self.2 ?_] at h5
  · rw [h1, h5]
  · intro i hi
    simp [hall i hi]
  · intro i hi
    have := (List.mem_filter.1 (h2.mem_iff.1 hi)).1
    simp [(hall i this).1]

theorem tex_items {black : Colour.Color} (hb : colors.getItem "black".toList = .ok black) (style : SketchStyle) {ops : List Drawn}
    {st : St} (h : Ready ops st) (hc : TexPens ops) (number : ℝ → Text) :
    ∃ scene box items lines, detailScene colors floatText (some style) ops st = .ok (scene, box) ∧ Detail.boundingBox ops st = .ok box ∧
      texItems str scene = .ok items ∧ List.Forall₂ (TexShows number str (pointsOf ops st)) (allMarks black style st 0 ops) lines ∧
      items.map (texLine number) = lines ∧ (∀ i ∈ items, ∃ m, Tex.texMethods number i.kind = some m ∧ m i = .ok (texLine number i)) ∧
      (texCoordinates scene).map (fun c => Tex.coordinateText number c.1 c.2) = (pointsOf ops st).map (coordinateLine number) := by
  obtain ⟨scene, box, h1, h2, h3, h4⟩ := scene_marks colors floatText hb style h
  obtain ⟨h5, h6⟩ := scene_coordinates colors floatText hb style h h1
  have hpen := marks_texPenned black style st ops hc 0
  have hall : ∀ it m, m ∈ allMarks black style st 0 ops → (it.shape = m.shape ∧ it.positions.mapM scene.castPosition = .ok m.points) →
      (∃ f, Tex.texMethods number (texItem str it).kind = some f ∧ f (texItem str it) = .ok (texLine number (texItem str it))) ∧
        TexShows number str (pointsOf ops st) m (texLine number (texItem str it)) := by
    rintro it m hm ⟨e1, e2⟩
    obtain ⟨f, t, k1, k2, k3⟩ := tex_mark str number h6 (hpen m hm) (allMarks_shaped black style st ops 0 m hm) e1 e2
    have : texLine number (texItem str it) = t := by
      unfold texLine
      rw [k1]
      simp only [k2]
    rw [this, ← h5]
    exact ⟨⟨f, k1, k2⟩, k3⟩
  refine ⟨scene, box, scene.items.values.map (texItem str), _, h1, h2, ?_, ?_, rfl, ?_, ?_⟩
  · unfold texItems
    rw [plain_iter h3]
    rfl
  · rw [List.map_map]
    generalize scene.items.values = l at h4
    generalize allMarks black style st 0 ops = ms at h4 hall
    induction h4 with
    | nil => exact .nil
    | cons k _ ih =>
      exact .cons (hall _ _ (by simp) k).2 (ih fun it m hm => hall it m (List.mem_cons_of_mem _ hm))
  · intro i hi
    obtain ⟨j, hj, rfl⟩ := List.mem_map.1 hi
    obtain ⟨m, hm, k⟩ := forall₂_left h4 j hj
    exact (hall j m hm k).1
  · unfold texCoordinates
    rw [List.map_map, h5]
    rfl

/-- C221, what holds: an evaluated sketch whose lines have a colour and one of the stroke styles TeX has a text for, added as a figure to a TeX
document: the figure, at eight millimetres by unit, names the positions of the points of the sketch and then draws the marks of its operations, in
their order, each at the positions computed by the evaluation. -/
theorem sketch_to_tex_partial {black : Colour.Color} (hb : colors.getItem "black".toList = .ok black) (style : SketchStyle) {ops : List Drawn}
    {st : St} (h : Ready ops st) (hc : TexPens ops) (number : ℝ → Text) (d : Tex.Document) :
    ∃ scene box items lines d', detailScene colors floatText (some style) ops st = .ok (scene, box) ∧ texItems str scene = .ok items ∧
      List.Forall₂ (TexShows number str (pointsOf ops st)) (allMarks black style st 0 ops) lines ∧
      Tex.addDetailFigure number (texCoordinates scene) items d = (d', .ok ()) ∧ d'.preambule = d.preambule ∧ d'.texFilename = d.texFilename ∧
      Tex.strs d'.content = Tex.strs d.content ++
        "\\pagestyle{empty}\n\\fontsize{64}{72}\\selectfont % \\fontsize{size}{baselineskip}\n".toList ++
        Tex.centred "x=8mm,y=8mm".toList ((pointsOf ops st).map (coordinateLine number) ++ lines) := by
  obtain ⟨scene, box, items, lines, h1, _, h2, h3, h4, h5, h6⟩ := tex_items colors floatText str hb style h hc number
  obtain ⟨d', g1, g2, g3, g4⟩ := Tex.detail_figure number (texCoordinates scene) items d (texLine number) h5
  rw [h6, h4] at g4
  exact ⟨scene, box, items, lines, d', h1, h2, h3, g1, g2, g3, g4⟩

/-- C221, what holds: the same sketch added as a tiled figure, on a paper larger than its margins: each tile shows the whole painting, clipped to its
part of the bounding box of the sketch, at ten millimetres by unit. -/
theorem sketch_to_tiles_partial {black : Colour.Color} (hb : colors.getItem "black".toList = .ok black) (style : SketchStyle) {ops : List Drawn}
    {st : St} (h : Ready ops st) (hne : ops ≠ []) (hc : TexPens ops) (number repr : ℝ → Text) (d : Tex.Document) (width height margin : ℝ)
    (hw : 2 * (margin + 2) < width) (hh : 2 * (margin + 2) < height) :
    ∃ scene box items lines tiles d', detailScene colors floatText (some style) ops st = .ok (scene, some box) ∧
      Detail.boundingBox ops st = .ok (some box) ∧ texItems str scene = .ok items ∧
      List.Forall₂ (TexShows number str (pointsOf ops st)) (allMarks black style st 0 ops) lines ∧
      Paper.tiler box width height margin = .ok tiles ∧
      Tex.addTiledDetailFigure number repr (texCoordinates scene) items d (some (some box)) width height margin = (d', .ok ()) ∧
      Tex.strs d'.content = Tex.strs d.content ++ "\\pagestyle{empty}\n".toList ++
        (tiles.map fun t => Tex.tilePicture number repr t ((pointsOf ops st).map (coordinateLine number) ++ lines)).flatten := by
  obtain ⟨scene, box, items, lines, h1, h2, h3, h4, h5, h6, h7⟩ := tex_items colors floatText str hb style h hc number
  obtain ⟨b, h8, _⟩ := (Detail.sketch_box h.refs h.evaluated).2 hne
  rw [h8] at h2
  cases h2
  obtain ⟨tiles, d', g1, g2, _, _, g3, _⟩ := Tex.tiled_figure_partial number repr (texCoordinates scene) items d (texLine number) h6 b width height
    margin hw hh
  rw [h7, h5] at g3
  exact ⟨scene, b, items, lines, tiles, d', h1, h8, h3, h4, g1, g2, g3⟩

theorem loop_ok {ι κ α : Type} (kind : ι → κ) (methods : κ → Option (ι → Except PyErr α)) (items : List ι)
    (h : (Tex.paintLoop kind methods items).2 = .ok ()) : ∀ i ∈ items, ∃ f l, methods (kind i) = some f ∧ f i = .ok l := by
  induction items with
  | nil => intro i hi; simp at hi
  | cons j items ih =>
    unfold Tex.paintLoop at h
    split at h
    · cases h
    · rename_i f hf
      split at h
      · rename_i l hl
        intro i hi
        rcases List.mem_cons.1 hi with rfl | hi
        · exact ⟨f, l, hf, hl⟩
        · exact ih h i hi
      · cases h
      · cases h

/-- C221 is false of the sketches with a line or a curve without colour, or whose stroke style is the one TeX has no text for: `detail_scene` accepts
them, and the figure raises. -/
theorem sketch_to_tex_wrong {black : Colour.Color} (hb : colors.getItem "black".toList = .ok black) (style : SketchStyle) {ops : List Drawn}
    {st : St} (h : Ready ops st) (d : Drawn) (hd : d ∈ ops)
    (hop : (∃ f g, d.op = .line f g) ∨ ∃ f g a1 l1 a2 l2, d.op = .spline f g a1 l1 a2 l2) (s : Tex.StrokeStyle) (c : Option Colour.Color)
    (hp : Detail.penOf d = some (s, c)) (hbad : c = none ∨ s = .dashDotDotLine) (number : ℝ → Text) (document : Tex.Document) :
    ∃ scene box items e, detailScene colors floatText (some style) ops st = .ok (scene, box) ∧ texItems str scene = .ok items ∧
      (Tex.addDetailFigure number (texCoordinates scene) items document).2 = .error e := by
  obtain ⟨scene, box, h1, h2, h3, h4⟩ := scene_marks colors floatText hb style h
  have hitems : texItems str scene = .ok (scene.items.values.map (texItem str)) := by
    unfold texItems
    rw [plain_iter h3]
    rfl
  have hmark : ∃ m ∈ allMarks black style st 0 ops, ∃ p, (m.shape = .segment p ∨ m.shape = .cubic p) ∧ p.strokeColor = c ∧ p.strokeStyle = s := by
    have hall : ∀ (rest : List Drawn) (k : Nat), d ∈ rest → ∃ i, ∀ m ∈ Detail.marks black style st i d, m ∈ allMarks black style st k rest := by
      intro rest
      induction rest with
      | nil => intro k hk; simp at hk
      | cons x rest ih =>
        intro k hk
        rcases List.mem_cons.1 hk with rfl | hk
        · exact ⟨k, fun m hm => List.mem_append_left _ hm⟩
        · obtain ⟨i, hi⟩ := ih (k + 1) hk
          exact ⟨i, fun m hm => List.mem_append_right _ (hi m hm)⟩
    obtain ⟨i, hi⟩ := hall ops 0 hd
    rcases hop with ⟨f, g, ho⟩ | ⟨f, g, a1, l1, a2, l2, ho⟩
    · exact ⟨_, hi _ (by simp only [Detail.marks, ho, hp, List.mem_singleton]; rfl), _, .inl rfl, rfl, rfl⟩
    · exact ⟨_, hi _ (by simp only [Detail.marks, ho, hp, List.mem_singleton]; rfl), _, .inr rfl, rfl, rfl⟩
  obtain ⟨m, hm, p, hs, hpc, hps⟩ := hmark
  obtain ⟨it, hit, e1, _⟩ := forall₂_right h4 m hm
  refine ⟨scene, box, scene.items.values.map (texItem str), ?_⟩
  cases hres : (Tex.addDetailFigure number (texCoordinates scene) (scene.items.values.map (texItem str)) document).2 with
  | error e => exact ⟨e, h1, hitems, rfl⟩
  | ok u =>
    exfalso
    obtain ⟨f, l, k1, k2⟩ := loop_ok Tex.Item.kind (Tex.texMethods number) _ hres (texItem str it) (List.mem_map_of_mem hit)
    have hst : (texItem str it).style = painterStyle str p := by
      rcases hs with hs | hs <;> simp [texItem, e1, hs, painterShape]
    have hbadpen : ∀ t, Tex.formatPathStyle (texItem str it).style ≠ .ok t := by
      intro t ht
      rw [hst] at ht
      unfold Tex.formatPathStyle painterStyle at ht
      simp only [hpc, hps] at ht
      rcases hbad with rfl | rfl
      · cases hstr : Tex.strokeText s <;> rw [hstr] at ht <;> cases ht
      · cases ht
    cases hf : Tex.formatPathStyle (texItem str it).style with
    | ok t => exact hbadpen t hf
    | error e =>
      rcases hs with hs | hs
      · have hk : (texItem str it).kind = .segment := by simp [texItem, e1, hs, painterShape]
        rw [hk] at k1
        cases k1
        unfold Tex.paintSegment at k2
        rw [hf] at k2
        cases k2
      · have hk : (texItem str it).kind = .cubicBezier := by simp [texItem, e1, hs, painterShape]
        rw [hk] at k1
        cases k1
        unfold Tex.paintCubic at k2
        rw [hf] at k2
        cases k2

end

/-! ## Examples -/

example : TexPens blueToy := by
  intro d hd hu s c hp
  simp only [blueToy, List.mem_cons, List.not_mem_nil, or_false] at hd
  rcases hd with rfl | rfl | rfl
  · cases hu
  · cases hu
  · cases hp; exact ⟨rfl, by simp⟩

example : pointsOf blueToy Detail.toySt = [("A", ⟨0, 0⟩), ("B", ⟨10, 0⟩)] := by
  simp [pointsOf, blueToy, Op.name, Detail.toySt]

/-- The blue line of the sketch, between the names of its ends or their coordinates. -/
example (number : ℝ → Text) (str : Style.Value → Text) (t : Text) (w : Style.Value)
    (h : TexShows number str (pointsOf blueToy Detail.toySt)
      ⟨.segment (Detail.lineOf (.solidLine, some { name := some "blue".toList }) w), [⟨0, 0⟩, ⟨10, 0⟩], 2⟩ t) :
    ∃ a b, t = "\\draw[line width=".toList ++ str w ++ ", solid, blue] ".toList ++ a ++ " -- ".toList ++ b ++ ";\n".toList := by
  unfold TexShows at h
  dsimp only at h
  obtain ⟨a, b, _, _, rfl⟩ := h
  refine ⟨a, b, ?_⟩
  unfold tikzPen Detail.lineOf
  dsimp only [Option.bind_some]
  simp only [List.append_assoc]
  rfl

/-- What is needed of `str` and `float` can be met. -/
example : Writes (fun _ => "1.5".toList) (fun _ => some 1.5) :=
  ⟨fun _ => by decide, fun _ => by decide, fun _ c h => by simp at h, fun _ => rfl⟩

end Patro.Printed
