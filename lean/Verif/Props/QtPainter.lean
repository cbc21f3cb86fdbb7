import Verif.Spec.QtPainter
import Verif.Proof.Scene
import Verif.Props.Scene
import Verif.Props.Paper
import Verif.Props.Painters
import Mathlib.Tactic.Ring
import Mathlib.Tactic.Linarith
import Mathlib.Tactic.FieldSimp
import Mathlib.Tactic.NormNum
/-!
# C180 and C181: what the Qt painter draws, and with which pens
-/

namespace Patro.Qt

open Xml (Text)

variable {K : Type} [Field K] [LinearOrder K]

/-! ## C180: the figures -/

omit [Field K] [LinearOrder K] in
theorem figures_append (a b : List (Op K)) : figures (a ++ b) = figures a ++ figures b := by simp [figures]

omit [Field K] [LinearOrder K] in
theorem figures_flatten (l : List (List (Op K))) : figures l.flatten = (l.map figures).flatten := by
  induction l with
  | nil => rfl
  | cons a l ih => rw [List.flatten_cons, figures_append, ih]; rfl

omit [LinearOrder K] in
theorem setPen_ok (selected : Bool) (style : PathStyle K) (w : K) (h : style.lineWidth = .ok w) :
    ∃ pre, setPen selected style = .ok pre ∧ figures pre = [] := by
  unfold setPen
  rw [h]
  simp only [bind, Except.bind, pure, Except.pure]
  split
  · exact ⟨_, rfl, rfl⟩
  · exact ⟨_, rfl, rfl⟩

variable {dev : Device K} {view : Vec K → Vec K}

theorem cast_eq (hdev : ∀ p, dev.toView p = .ok (view p)) (s : Scn K) (position : Scene.Position K) (p : Vec K)
    (h : s.castPosition position = .ok p) : castPosition dev s position = .ok (view p) := by
  unfold castPosition
  rw [h]
  exact hdev p

theorem cast_points (hdev : ∀ p, dev.toView p = .ok (view p)) (s : Scn K) (i : Item K) (ps : List (Vec K)) (h : Points s i ps) :
    castItemPositions dev s i = .ok (ps.map view) := by
  unfold castItemPositions
  unfold Points at h
  generalize i.positions = l at h
  induction h with
  | nil => rfl
  | cons h1 _ ih =>
    rw [List.mapM_cons, cast_eq hdev s _ _ h1, ih]
    rfl

theorem cast_one (hdev : ∀ p, dev.toView p = .ok (view p)) (s : Scn K) (i : Item K) (p : Vec K) (h : Points s i [p]) :
    castOne dev s i = .ok (view p) := by
  unfold Points at h
  unfold castOne
  cases hl : i.positions with
  | nil => rw [hl] at h; cases h
  | cons a l =>
    rw [hl] at h
    cases h with
    | cons h1 h2 => exact cast_eq hdev s _ _ h1

theorem cast_vertices (hdev : ∀ p, dev.toView p = .ok (view p)) (s : Scn K) (i : Item K) (ps : List (Vec K)) (h : Vertices s i ps) :
    i.shape.segments.mapM (paintPathSegment dev s) = .ok (ps.map fun q => .lineTo (view q)) := by
  unfold Vertices at h
  generalize i.shape.segments = l at h
  induction h with
  | nil => rfl
  | cons h1 _ ih =>
    obtain ⟨position, rfl, hp⟩ := h1
    have e : ∀ b, s.castPosition position = .ok b → paintPathSegment dev s (.linear position) = .ok (.lineTo (view b)) := by
      intro b hb
      change Except.map _ _ = _
      rw [cast_eq hdev s _ _ hb]
      rfl
    rw [List.mapM_cons, ih, e _ hp]
    rfl

variable [FloorRing K]

/-- The angle given to Qt for the length of an arc. -/
def spanOf (i : Item K) : Int :=
  if truncate (i.shape.stopAngle * 16) - truncate (i.shape.startAngle * 16) < 0 then
    5760 + (truncate (i.shape.stopAngle * 16) - truncate (i.shape.startAngle * 16))
  else truncate (i.shape.stopAngle * 16) - truncate (i.shape.startAngle * 16)

theorem paintArc_open (i : Item K) (hc : |i.shape.stopAngle - i.shape.startAngle| < 360) (c : Vec K) (a b : K) :
    paintArc i c a b = .draw (.arc ⟨c.x - a, c.y + b⟩ ⟨c.x + a, c.y - b⟩ (truncate (i.shape.startAngle * 16)) (spanOf i)) := by
  unfold paintArc isClosed
  rw [if_neg (by simpa using hc)]
  have e1 : c + ⟨-a, b⟩ = ⟨c.x - a, c.y + b⟩ := by ext <;> simp [sub_eq_add_neg]
  have e2 : c + ⟨a, -b⟩ = ⟨c.x + a, c.y - b⟩ := by ext <;> simp [sub_eq_add_neg]
  rw [e1, e2]
  rfl

theorem method_shows (hdev : ∀ p, dev.toView p = .ok (view p)) (s : Scn K) (i : Item K) (h : Ready s i) :
    ∃ m ops, methods dev s i.shape.kind = some m ∧ m i = .ok ops ∧ Shows s view dev.length i (figures ops) := by
  cases h with
  | text p hk hp =>
    refine ⟨_, [.setFont i.shape.fontFamily i.shape.fontSize, .draw (.text (view p) i.shape.text)], by rw [hk]; rfl, ?_, .text p hk hp⟩
    · unfold paintText; rw [cast_one hdev s i p hp]; rfl
  | conic p w hk hw hp =>
    obtain ⟨pre, h1, h2⟩ := setPen_ok i.selected i.shape.style w hw
    by_cases hc : 360 ≤ |i.shape.stopAngle - i.shape.startAngle|
    · have harc : ∀ a b, paintArc i (view p) a b = .draw (.ellipse (view p) a b) := by
        intro a b
        unfold paintArc isClosed
        rw [if_pos (by simpa using hc)]
      rcases hk with hk | hk
      · refine ⟨_, pre ++ [.draw (.ellipse (view p) (dev.length i.shape.radius) (dev.length i.shape.radius))], by rw [hk]; rfl, ?_, ?_⟩
        · unfold paintCircle; rw [cast_one hdev s i p hp, h1]; simp only [bind, Except.bind, pure, Except.pure, harc]
        · rw [figures_append, h2]; exact .circle p hk hp hc
      · refine ⟨_, pre ++ [.draw (.ellipse (view p) (dev.length i.shape.radiusX) (dev.length i.shape.radiusY))], by rw [hk]; rfl, ?_, ?_⟩
        · unfold paintEllipse; rw [cast_one hdev s i p hp, h1]; simp only [bind, Except.bind, pure, Except.pure, harc]
        · rw [figures_append, h2]; exact .ellipse p hk hp hc
    · have harc := paintArc_open i (not_le.1 hc) (view p)
      set start := truncate (i.shape.startAngle * 16) with hstart
      set span := spanOf i with hspan
      have hc' := not_le.1 hc
      rcases hk with hk | hk
      · refine ⟨_, ?_, by rw [hk]; rfl, ?_, ?_⟩
        · exact pre ++ [.draw (.arc ⟨(view p).x - dev.length i.shape.radius, (view p).y + dev.length i.shape.radius⟩
            ⟨(view p).x + dev.length i.shape.radius, (view p).y - dev.length i.shape.radius⟩ start span)]
        · unfold paintCircle; rw [cast_one hdev s i p hp, h1]; simp only [bind, Except.bind, pure, Except.pure, harc]
        · rw [figures_append, h2]; exact .circleArc p start span hk hp hc'
      · refine ⟨_, ?_, by rw [hk]; rfl, ?_, ?_⟩
        · exact pre ++ [.draw (.arc ⟨(view p).x - dev.length i.shape.radiusX, (view p).y + dev.length i.shape.radiusY⟩
            ⟨(view p).x + dev.length i.shape.radiusX, (view p).y - dev.length i.shape.radiusY⟩ start span)]
        · unfold paintEllipse; rw [cast_one hdev s i p hp, h1]; simp only [bind, Except.bind, pure, Except.pure, harc]
        · rw [figures_append, h2]; exact .ellipseArc p start span hk hp hc'
  | segment p q w hk hw hp =>
    obtain ⟨pre, h1, h2⟩ := setPen_ok i.selected i.shape.style w hw
    refine ⟨_, pre ++ [.draw (.line (view p) (view q))], by rw [hk]; rfl, ?_, ?_⟩
    · unfold paintSegment; rw [h1, cast_points hdev s i _ hp]; rfl
    · rw [figures_append, h2]; exact .segment p q hk hp
  | poly p l w hk hw hp =>
    obtain ⟨pre, h1, h2⟩ := setPen_ok i.selected i.shape.style w hw
    rcases hk with hk | hk
    · refine ⟨_, pre ++ [.draw (.path (.moveTo (view p) :: l.map fun q => .lineTo (view q)))], by rw [hk]; rfl, ?_, ?_⟩
      · unfold paintPolyline
        rw [h1, cast_points hdev s i _ hp]
        simp only [bind, Except.bind, pure, Except.pure, List.map_cons, List.map_map]
        rfl
      · rw [figures_append, h2]; exact .polyline p l hk hp
    · refine ⟨_, pre ++ [.draw (.polygon ((p :: l).map view))], by rw [hk]; rfl, ?_, ?_⟩
      · unfold paintPolygon; rw [h1, cast_points hdev s i _ hp]; rfl
      · rw [figures_append, h2]; exact .polygon (p :: l) hk hp
  | image p q hk hp =>
    refine ⟨_, [.draw (.image (view p) (view q) i.shape.imageWidth i.shape.imageHeight (i.shape.imageDepth * i.shape.imageWidth))],
      by rw [hk]; rfl, ?_, .image p q hk hp⟩
    · unfold paintImage; rw [cast_points hdev s i _ hp]; rfl
  | cubic p q r t w hk hw hs hp =>
    obtain ⟨pre, h1, h2⟩ := setPen_ok i.selected i.shape.style w hw
    refine ⟨_, pre ++ [.draw (.path [.moveTo (view p), .cubicTo (view q) (view r) (view t)])], by rw [hk]; rfl, ?_, ?_⟩
    · unfold paintCubicItem paintCubic paintControl
      rw [h1, cast_points hdev s i _ hp, hs]
      simp [bind, Except.bind, pure, Except.pure]
    · rw [figures_append, h2]; exact .cubic p q r t hk hp
  | path p l w hk hw hp hv =>
    obtain ⟨pre, h1, h2⟩ := setPen_ok i.selected i.shape.style w hw
    refine ⟨_, pre ++ [.draw (.path (.moveTo (view p) :: l.map fun q => .lineTo (view q)))], by rw [hk]; rfl, ?_, ?_⟩
    · unfold paintPath; rw [h1, cast_one hdev s i p hp, cast_vertices hdev s i l hv]; rfl
    · rw [figures_append, h2]; exact .path p l hk hp hv

theorem forall₂_map_figures {R : Item K → List (Figure K) → Prop} {l : List (Item K)} {outs : List (List (Op K))}
    (h : List.Forall₂ (fun i ops => R i (figures ops)) l outs) : List.Forall₂ R l (outs.map figures) := by
  induction h with
  | nil => exact .nil
  | cons h1 _ ih => exact .cons h1 ih

/-- C180. On a device that gives a place to every point, a scene of texts, images, conics, segments, polylines, polygons, cubic curves and
paths of straight segments, whose points are known, is painted without error: one figure for each visible item, the lower z values first and
then in the order of insertion, with the points of the item at their places. Missing: rectangles, quadratic curves, paths with curves and
closed paths, rotated ellipses, see the theorems below. -/
theorem paint_items_partial (hdev : ∀ p, dev.toView p = .ok (view p)) (s : Scn K)
    (h : ∀ i ∈ s.items.values, i.visible = true → Ready s i) :
    ∃ l figs, PaintOrder s l ∧ List.Forall₂ (Shows s view dev.length) l figs ∧ (paintItems dev s).2 = .ok () ∧
      figures (paintItems dev s).1 = figs.flatten := by
  obtain ⟨l, h1, h2, h3, h4⟩ := Scene.z_order s
  obtain ⟨outs, h5, h6⟩ := Painters.paintLoop_shows (fun i : Item K => i.shape.kind) (methods dev s)
    (fun i ops => Shows s view dev.length i (figures ops)) l (by
    intro i hi
    have := h2.mem_iff.1 hi
    rw [List.mem_filter] at this
    exact method_shows hdev s i (h i this.1 this.2))
  refine ⟨l, outs.map figures, ⟨h2, h3, h4⟩, forall₂_map_figures h5, ?_, ?_⟩
  · unfold paintItems; rw [h1]; simp only [h6]
  · unfold paintItems; rw [h1]; simp only [h6]; exact figures_flatten outs

theorem paintLoop_ok (s : Scn K) : ∀ (l : List (Item K)), (Tex.paintLoop (fun i => i.shape.kind) (methods dev s) l).2 = .ok () →
    List.Forall₂ (fun i ops => ∃ m, methods dev s i.shape.kind = some m ∧ m i = .ok ops) l
      (Tex.paintLoop (fun i => i.shape.kind) (methods dev s) l).1
  | [], _ => .nil
  | i :: l, h => by
    unfold Tex.paintLoop at h ⊢
    cases hm : methods dev s i.shape.kind with
    | none => rw [hm] at h; cases h
    | some m =>
      rw [hm] at h
      dsimp only at h ⊢
      cases ho : m i with
      | error e =>
        rw [ho] at h
        exfalso
        cases e <;> cases h
      | ok ops =>
        rw [ho] at h
        exact .cons ⟨m, hm, ho⟩ (paintLoop_ok s l h)

/-- C180. A visible rectangle makes the painting of a scene fail. -/
theorem rectangle_wrong (s : Scn K) (i : Item K) (hi : i ∈ s.items.values) (hv : i.visible = true) (hk : i.shape.kind = .rectangle) :
    (paintItems dev s).2 ≠ .ok () := by
  obtain ⟨l, h1, h2, -, -⟩ := Scene.z_order s
  unfold paintItems
  rw [h1]
  dsimp only
  intro h
  have hloop := paintLoop_ok s l h
  have hm : i ∈ l := h2.mem_iff.2 (List.mem_filter.2 ⟨hi, hv⟩)
  generalize (Tex.paintLoop (fun i => i.shape.kind) (methods dev s) l).1 = outs at hloop
  clear h h1 h2
  induction hloop with
  | nil => simp at hm
  | cons hj _ ih =>
    rcases List.mem_cons.1 hm with rfl | hm
    · obtain ⟨m, h1, -⟩ := hj
      rw [hk] at h1
      cases h1
    · exact ih hm

omit [FloorRing K] in
/-- C180. A path with a curve cannot be painted: the call always raises an exception. -/
theorem curved_path_wrong (s : Scn K) (i : Item K) (h : ∃ segment ∈ i.shape.segments, ∀ p, segment ≠ .linear p) :
    ∃ e, paintPath dev s i = .error e := by
  obtain ⟨segment, hm, hs⟩ := h
  have : ∃ e, i.shape.segments.mapM (paintPathSegment dev s) = .error e := by
    generalize i.shape.segments = l at hm
    induction l with
    | nil => simp at hm
    | cons a l ih =>
      rw [List.mapM_cons]
      rcases List.mem_cons.1 hm with rfl | hm
      · cases segment with
        | linear p => exact absurd rfl (hs p)
        | quadratic p q => exact ⟨_, rfl⟩
        | cubic p q r => exact ⟨_, rfl⟩
      · obtain ⟨e, he⟩ := ih hm
        rw [he]
        cases paintPathSegment dev s a with
        | error e' => exact ⟨e', rfl⟩
        | ok o => exact ⟨e, rfl⟩
  obtain ⟨e, he⟩ := this
  unfold paintPath
  rw [he]
  cases setPen i.selected i.shape.style with
  | error e' => exact ⟨e', rfl⟩
  | ok pre =>
    cases castOne dev s i with
    | error e' => exact ⟨e', rfl⟩
    | ok c => exact ⟨e, rfl⟩

omit [FloorRing K] in
/-- C180. A closed path is painted exactly as the same path left open. -/
theorem closed_path_wrong (s : Scn K) (i : Item K) (b : Bool) :
    paintPath dev s i = paintPath dev s { i with shape := { i.shape with closed := b } } := rfl

/-- C180. An ellipse is painted exactly as the ellipse with any other angle. -/
theorem ellipse_angle_wrong (s : Scn K) (i : Item K) (angle : K) :
    paintEllipse dev s i = paintEllipse dev s { i with shape := { i.shape with angle := angle } } := rfl

omit [LinearOrder K] [FloorRing K] in
theorem cast_vectors (hdev : ∀ p, dev.toView p = .ok (view p)) (s : Scn K) (ps : List (Vec K)) :
    (ps.mapM fun p => castPosition dev s (.vector p)) = .ok (ps.map fun p => view (s.transformation p)) := by
  apply IterTools.mapM_ok_of_forall
  intro p _
  unfold castPosition Scene.Scene.castPosition
  exact hdev _

omit [FloorRing K] in
/-- A quadratic curve is painted as a cubic one, whose control points went twice through the transformation of the scene. -/
theorem paint_quadratic (hdev : ∀ p, dev.toView p = .ok (view p)) (s : Scn K) (i : Item K) (p q r : Vec K) (w : K)
    (hcache : i.shape.cubicPoints = none) (hg : i.geometry = none ∨ i.geometry = some [p, q, r]) (hp : Points s i [p, q, r])
    (hw : i.shape.style.lineWidth = .ok w) (hs : i.shape.style.showControl = false) :
    ∃ ops, paintQuadraticItem dev s i = .ok ops ∧ figures ops = [.path [.moveTo (view (s.transformation p)),
      .cubicTo (view (s.transformation ((p + q.smul 2).sdiv 3))) (view (s.transformation ((r + q.smul 2).sdiv 3)))
        (view (s.transformation r))]] := by
  have hcast : i.positions.mapM s.castPosition = .ok [p, q, r] := by
    unfold Points at hp
    generalize i.positions = l at hp
    generalize [p, q, r] = ps at hp
    induction hp with
    | nil => rfl
    | cons h1 _ ih => rw [List.mapM_cons, h1, ih]; rfl
  have hcubic : cubicPositions s i = .ok [p, (p + q.smul 2).sdiv 3, (r + q.smul 2).sdiv 3, r] := by
    unfold cubicPositions
    rw [hcache]
    dsimp only
    rcases hg with hg | hg
    · rw [hg]
      dsimp only
      rw [hcast]
      rfl
    · rw [hg]
      rfl
  obtain ⟨pre, h1, h2⟩ := setPen_ok i.selected i.shape.style w hw
  unfold paintQuadraticItem
  rw [hcubic]
  simp only [bind, Except.bind]
  rw [cast_vectors hdev s]
  unfold paintCubic paintControl
  rw [h1, hs]
  simp only [List.map_cons, List.map_nil, bind, Except.bind, pure, Except.pure, Bool.false_eq_true, if_false, List.append_nil]
  exact ⟨_, rfl, by rw [figures_append, h2]; rfl⟩

omit [FloorRing K] in
/-- C180. A quadratic curve in a scene without transformation, on a device that keeps straight lines: the cubic curve that is drawn goes, for
each parameter, through the place of the point of the quadratic curve. Missing: scenes with a transformation, see `quadratic_wrong`. -/
theorem quadratic_partial [CharZero K] (hdev : ∀ p, dev.toView p = .ok (view p)) (hview : Affine view) (s : Scn K) (hs : ∀ p, s.transformation p = p)
    (i : Item K) (p q r : Vec K) (w : K) (hcache : i.shape.cubicPoints = none) (hg : i.geometry = none ∨ i.geometry = some [p, q, r])
    (hp : Points s i [p, q, r]) (hw : i.shape.style.lineWidth = .ok w) (hc : i.shape.style.showControl = false) :
    ∃ ops a b c d, paintQuadraticItem dev s i = .ok ops ∧ figures ops = [.path [.moveTo a, .cubicTo b c d]] ∧
      ∀ t, cubicPoint a b c d t = view (quadPoint p q r t) := by
  obtain ⟨ops, h1, h2⟩ := paint_quadratic hdev s i p q r w hcache hg hp hw hc
  refine ⟨ops, _, _, _, _, h1, h2, fun t => ?_⟩
  obtain ⟨a, b, c, d, e, f, hv⟩ := hview
  simp only [hs, hv, cubicPoint, quadPoint]
  have h3 : (3 : K) ≠ 0 := by norm_num
  ext <;> simp <;> field_simp <;> ring

omit [FloorRing K] in
/-- C180. In a scene with a transformation the curve does not start at the place of its first point `p`, which has already been transformed:
the transformation is applied to it a second time. -/
theorem quadratic_wrong (hdev : ∀ p, dev.toView p = .ok (view p)) (s : Scn K) (i : Item K) (p q r : Vec K) (w : K)
    (hcache : i.shape.cubicPoints = none) (hg : i.geometry = none ∨ i.geometry = some [p, q, r]) (hp : Points s i [p, q, r])
    (hw : i.shape.style.lineWidth = .ok w) (hc : i.shape.style.showControl = false) (hT : view (s.transformation p) ≠ view p) :
    ∃ ops a b c d, paintQuadraticItem dev s i = .ok ops ∧ figures ops = [.path [.moveTo a, .cubicTo b c d]] ∧ a ≠ view p := by
  obtain ⟨ops, h1, h2⟩ := paint_quadratic hdev s i p q r w hcache hg hp hw hc
  exact ⟨ops, _, _, _, _, h1, h2, hT⟩

omit [FloorRing K] in
/-- C180. Once the points of a quadratic curve have been computed, it is painted at the same place for ever, wherever its coordinates are
moved. -/
theorem quadratic_cache_wrong (s : Scn K) (i : Item K) (ps : List (Vec K)) (h : i.shape.cubicPoints = some ps) (n : String) (p : Vec K) :
    paintQuadraticItem dev (s.addCoordinate n p) i = paintQuadraticItem dev s i := by
  unfold paintQuadraticItem cubicPositions
  rw [h]
  rfl

omit [FloorRing K] in
/-- C180. A cubic curve whose style asks for its control points is drawn with its control polygon, through its four points, and a disc at
each of them. -/
theorem control_points (hdev : ∀ p, dev.toView p = .ok (view p)) (s : Scn K) (i : Item K) (p q r t : Vec K) (w : K)
    (hp : Points s i [p, q, r, t]) (hw : i.shape.style.lineWidth = .ok w) (hs : i.shape.style.showControl = true) :
    ∃ ops, paintCubicItem dev s i = .ok ops ∧
      figures ops = [.path [.moveTo (view p), .cubicTo (view q) (view r) (view t)],
        .path [.moveTo (view p), .lineTo (view q), .lineTo (view r), .lineTo (view t)],
        .ellipse (view p) 3 3, .ellipse (view q) 3 3, .ellipse (view r) 3 3, .ellipse (view t) 3 3] := by
  obtain ⟨pre, h1, h2⟩ := setPen_ok i.selected i.shape.style w hw
  refine ⟨pre ++ [.draw (.path [.moveTo (view p), .cubicTo (view q) (view r) (view t)])] ++
    paintControl i.shape.style (view p) (view q) (view r) (view t), ?_, ?_⟩
  · unfold paintCubicItem paintCubic
    rw [h1, cast_points hdev s i _ hp]
    rfl
  · rw [figures_append, figures_append, h2]
    unfold paintControl
    rw [if_pos hs]
    rfl

/-! ## C181: the pens -/

omit [LinearOrder K] [FloorRing K] in
theorem render_append (st : State K) (a b : List (Op K)) : render st (a ++ b) = render st a ++ render (a.foldl State.next st) b := by
  induction a generalizing st with
  | nil => rfl
  | cons op a ih =>
    cases op <;> simp [render, ih, State.next]

omit [LinearOrder K] [FloorRing K] in
theorem bind_ok {α β : Type} {x : Except PyErr α} {f : α → Except PyErr β} {b : β} (h : (x >>= f) = .ok b) : ∃ a, x = .ok a ∧ f a = .ok b := by
  cases x with
  | error e => cases h
  | ok a => exact ⟨a, rfl, h⟩

/-- What the paint methods other than the ones of texts and images call: the pen is set, then one figure is drawn. -/
theorem method_ops (s : Scn K) (i : Item K) (m : Item K → Except PyErr (List (Op K))) (ops : List (Op K))
    (hm : methods dev s i.shape.kind = some m) (hk : i.shape.kind ≠ .text ∧ i.shape.kind ≠ .image) (hs : i.shape.style.showControl = false)
    (h : m i = .ok ops) : ∃ pre f, setPen i.selected i.shape.style = .ok pre ∧ ops = pre ++ [.draw f] := by
  have harc : ∀ c a b, ∃ f, paintArc i c a b = .draw f := by
    intro c a b
    unfold paintArc
    split
    · exact ⟨_, rfl⟩
    · exact ⟨_, rfl⟩
  have hcubic : ∀ vertices, paintCubic i vertices = .ok ops → ∃ pre f, setPen i.selected i.shape.style = .ok pre ∧ ops = pre ++ [.draw f] := by
    intro vertices h
    unfold paintCubic at h
    obtain ⟨pre, h1, h⟩ := bind_ok h
    split at h
    · cases h
      have hnil : ∀ a b c d, paintControl i.shape.style a b c d = [] := by
        intro a b c d
        unfold paintControl
        rw [hs]
        rfl
      exact ⟨pre, _, h1, by rw [hnil, List.append_nil]⟩
    · cases h
    · cases h
  cases hkind : i.shape.kind with
  | text => exact absurd hkind hk.1
  | image => exact absurd hkind hk.2
  | rectangle => rw [hkind] at hm; cases hm
  | circle =>
    rw [hkind] at hm; cases hm
    unfold paintCircle at h
    obtain ⟨c, -, h⟩ := bind_ok h
    obtain ⟨pre, h1, h⟩ := bind_ok h
    obtain ⟨f, hf⟩ := harc c (dev.length i.shape.radius) (dev.length i.shape.radius)
    cases h
    exact ⟨pre, f, h1, by rw [hf]⟩
  | ellipse =>
    rw [hkind] at hm; cases hm
    unfold paintEllipse at h
    obtain ⟨c, -, h⟩ := bind_ok h
    obtain ⟨pre, h1, h⟩ := bind_ok h
    obtain ⟨f, hf⟩ := harc c (dev.length i.shape.radiusX) (dev.length i.shape.radiusY)
    cases h
    exact ⟨pre, f, h1, by rw [hf]⟩
  | segment =>
    rw [hkind] at hm; cases hm
    unfold paintSegment at h
    obtain ⟨pre, h1, h⟩ := bind_ok h
    obtain ⟨ps, -, h⟩ := bind_ok h
    split at h
    · cases h; exact ⟨pre, _, h1, rfl⟩
    · cases h
  | polyline =>
    rw [hkind] at hm; cases hm
    unfold paintPolyline at h
    obtain ⟨pre, h1, h⟩ := bind_ok h
    obtain ⟨ps, -, h⟩ := bind_ok h
    split at h
    · cases h
    · cases h; exact ⟨pre, _, h1, rfl⟩
  | polygon =>
    rw [hkind] at hm; cases hm
    unfold paintPolygon at h
    obtain ⟨pre, h1, h⟩ := bind_ok h
    obtain ⟨ps, -, h⟩ := bind_ok h
    split at h
    · cases h
    · cases h; exact ⟨pre, _, h1, rfl⟩
  | cubicBezier =>
    rw [hkind] at hm; cases hm
    unfold paintCubicItem at h
    obtain ⟨ps, -, h⟩ := bind_ok h
    exact hcubic ps h
  | quadraticBezier =>
    rw [hkind] at hm; cases hm
    unfold paintQuadraticItem at h
    obtain ⟨cs, -, h⟩ := bind_ok h
    obtain ⟨ps, -, h⟩ := bind_ok h
    exact hcubic ps h
  | path =>
    rw [hkind] at hm; cases hm
    unfold paintPath at h
    obtain ⟨pre, h1, h⟩ := bind_ok h
    obtain ⟨c, -, h⟩ := bind_ok h
    obtain ⟨ps, -, h⟩ := bind_ok h
    cases h
    exact ⟨pre, _, h1, rfl⟩

/-- What is drawn for an item of complete style: one figure, with the brush of the item, and with its pen if it is not filled. -/
def DrawnWell (i : Item K) (ds : List (Drawn K)) : Prop :=
  i.shape.kind = .text ∨ i.shape.kind = .image ∨ ∃ d, ds = [d] ∧ d.brush = wantedBrush i ∧
    (i.shape.style.fillColor = none → ∃ color width, Styled i color width ∧ d.pen = wantedPen i color width)

omit [LinearOrder K] [FloorRing K] in
theorem render_nil_of_figures (ops : List (Op K)) (h : figures ops = []) (st : State K) : render st ops = [] := by
  induction ops generalizing st with
  | nil => rfl
  | cons op ops ih =>
    cases op with
    | draw f => simp [figures] at h
    | _ => exact ih (by simpa [figures] using h) _

omit [FloorRing K] in
/-- C181. Whatever was drawn before, the control polygon of a curve which shows it is drawn with the opaque colour of the controls of its style, one
pixel wide and not filled, and the discs with the same pen, filled with the same colour. -/
theorem control_pens (hdev : ∀ p, dev.toView p = .ok (view p)) (s : Scn K) (i : Item K) (p q r t : Vec K) (w : K)
    (hp : Points s i [p, q, r, t]) (hw : i.shape.style.lineWidth = .ok w) (hs : i.shape.style.showControl = true) (st : State K) :
    ∃ ops first pen, paintCubicItem dev s i = .ok ops ∧ pen.color = ⟨i.shape.style.controlColor, 1⟩ ∧ pen.width = 1 ∧ pen.stroke = .solidLine ∧
      render st ops = [first, ⟨pen, none, .path [.moveTo (view p), .lineTo (view q), .lineTo (view r), .lineTo (view t)]⟩,
        ⟨pen, some ⟨i.shape.style.controlColor, 1⟩, .ellipse (view p) 3 3⟩, ⟨pen, some ⟨i.shape.style.controlColor, 1⟩, .ellipse (view q) 3 3⟩,
        ⟨pen, some ⟨i.shape.style.controlColor, 1⟩, .ellipse (view r) 3 3⟩, ⟨pen, some ⟨i.shape.style.controlColor, 1⟩, .ellipse (view t) 3 3⟩] := by
  obtain ⟨pre, h1, h2⟩ := setPen_ok i.selected i.shape.style w hw
  refine ⟨pre ++ [.draw (.path [.moveTo (view p), .cubicTo (view q) (view r) (view t)])] ++
    paintControl i.shape.style (view p) (view q) (view r) (view t), ⟨(pre.foldl State.next st).pen, (pre.foldl State.next st).brush,
      .path [.moveTo (view p), .cubicTo (view q) (view r) (view t)]⟩,
    ⟨⟨i.shape.style.controlColor, 1⟩, 1, .solidLine, .squareCap, .bevelJoin⟩, ?_, rfl, rfl, rfl, ?_⟩
  · unfold paintCubicItem paintCubic
    rw [h1, cast_points hdev s i _ hp]
    rfl
  · rw [render_append, render_append, render_nil_of_figures pre h2]
    unfold paintControl
    rw [if_pos hs]
    simp [render, List.foldl_append, State.next]

omit [LinearOrder K] [FloorRing K] in
theorem setPen_styled (i : Item K) (color : Text) (width : K) (h : Styled i color width) :
    ∃ pen, setPen i.selected i.shape.style = .ok [.setBrush (wantedBrush i), .setPen pen] ∧
      (i.shape.style.fillColor = none → pen = wantedPen i color width) ∧
      (∀ c, i.shape.style.fillColor = some c → pen.color = ⟨c, i.shape.style.fillAlpha⟩) := by
  obtain ⟨hw, hc, -⟩ := h
  unfold setPen
  rw [hw]
  simp only [bind, Except.bind, pure, Except.pure]
  cases hf : i.shape.style.fillColor with
  | none =>
    cases hsel : i.selected with
    | true =>
      refine ⟨_, by simp [wantedBrush, hf]; rfl, fun _ => ?_, fun c hc => by cases hc⟩
      unfold wantedPen
      rw [hsel, mul_comm]
      simp
    | false =>
      rw [hsel] at hc
      simp only [Bool.false_eq_true, false_or] at hc
      refine ⟨_, by simp [wantedBrush, hf, hc]; rfl, fun _ => ?_, fun c hc => by cases hc⟩
      unfold wantedPen
      rw [hsel]
      simp
  | some c => exact ⟨_, (by simp [wantedBrush, hf]; rfl), fun h => (by cases h), fun c' hc' => (by cases hc'; rfl)⟩

/-- C181. When a scene whose items have a complete style is painted, each one but the texts and the images is drawn with its own brush, and
if it is not filled with the pen of its own style, or with a red one four times as wide when it is selected, whatever was drawn before it.
Missing: filled items, items without colour, texts, see below. -/
theorem pens_partial (s : Scn K) (st : State K)
    (h : ∀ i ∈ s.items.values, i.visible = true → i.shape.kind = .text ∨ i.shape.kind = .image ∨ ∃ color width, Styled i color width)
    (hok : (paintItems dev s).2 = .ok ()) :
    ∃ l ds, PaintOrder s l ∧ List.Forall₂ DrawnWell l ds ∧ render st (paintItems dev s).1 = ds.flatten := by
  obtain ⟨l, h1, h2, h3, h4⟩ := Scene.z_order s
  unfold paintItems at hok ⊢
  rw [h1] at hok ⊢
  dsimp only at hok ⊢
  have hloop := paintLoop_ok s l hok
  have hl : ∀ i ∈ l, i.shape.kind = .text ∨ i.shape.kind = .image ∨ ∃ color width, Styled i color width := by
    intro i hi
    have := h2.mem_iff.1 hi
    rw [List.mem_filter] at this
    exact h i this.1 this.2
  have : ∃ ds, List.Forall₂ DrawnWell l ds ∧
      render st (Tex.paintLoop (fun i => i.shape.kind) (methods dev s) l).1.flatten = ds.flatten := by
    generalize (Tex.paintLoop (fun i => i.shape.kind) (methods dev s) l).1 = outs at hloop
    clear hok h1 h2 h3 h4
    induction hloop generalizing st with
    | nil => exact ⟨[], .nil, rfl⟩
    | @cons i ops l' outs' hi _ ih =>
      obtain ⟨m, hm, hops⟩ := hi
      obtain ⟨ds, h5, h6⟩ := ih (ops.foldl State.next st) (fun i hi => hl i (List.mem_cons_of_mem _ hi))
      refine ⟨render st ops :: ds, .cons ?_ h5, ?_⟩
      · rcases hl i List.mem_cons_self with hk | hk | ⟨color, width, hstyle⟩
        · exact Or.inl hk
        · exact Or.inr (Or.inl hk)
        · by_cases hk : i.shape.kind = .text
          · exact Or.inl hk
          by_cases hk' : i.shape.kind = .image
          · exact Or.inr (Or.inl hk')
          obtain ⟨pre, f, e1, rfl⟩ := method_ops s i m ops hm ⟨hk, hk'⟩ hstyle.2.2 hops
          obtain ⟨pen, e2, e3, -⟩ := setPen_styled i color width hstyle
          rw [e2] at e1
          cases e1
          exact Or.inr (Or.inr ⟨_, rfl, rfl, fun hf => ⟨color, width, hstyle, e3 hf⟩⟩)
      · rw [List.flatten_cons, render_append, h6]
        rfl
  obtain ⟨ds, h5, h6⟩ := this
  exact ⟨l, ds, ⟨h2, h3, h4⟩, h5, h6⟩

omit [LinearOrder K] [FloorRing K] in
/-- C181. The outline of a filled item is drawn with the colour of the inside instead of its own colour, and a filled item is not red when
it is selected. -/
theorem fill_pen_wrong (i : Item K) (color : Text) (width : K) (h : Styled i color width) (c : Text)
    (hc : i.shape.style.fillColor = some c) (st : State K) (f : Figure K) :
    ∃ pre d, setPen i.selected i.shape.style = .ok pre ∧ render st (pre ++ [.draw f]) = [d] ∧ d.pen.color = ⟨c, i.shape.style.fillAlpha⟩ := by
  obtain ⟨pen, h1, -, h2⟩ := setPen_styled i color width h
  exact ⟨_, _, h1, rfl, h2 c hc⟩

omit [FloorRing K] in
/-- C181. A segment without colour, which should not be seen, is drawn with the pen of the item painted before it. -/
theorem no_colour_wrong (hdev : ∀ p, dev.toView p = .ok (view p)) (s : Scn K) (i : Item K) (p q : Vec K) (w : K) (hp : Points s i [p, q])
    (hw : i.shape.style.lineWidth = .ok w) (hsel : i.selected = false) (hs : i.shape.style.strokeColor = none)
    (hf : i.shape.style.fillColor = none) (st : State K) :
    ∃ ops, paintSegment dev s i = .ok ops ∧ render st ops = [⟨st.pen, none, .line (view p) (view q)⟩] := by
  have : setPen i.selected i.shape.style = .ok [.setBrush none] := by
    unfold setPen
    rw [hw, hsel, hs, hf]
    rfl
  refine ⟨[.setBrush none, .draw (.line (view p) (view q))], ?_, rfl⟩
  unfold paintSegment
  rw [this, cast_points hdev s i _ hp]
  rfl

omit [FloorRing K] in
/-- C181. A text is drawn with the pen of the item painted before it, whatever its own style is. -/
theorem text_pen_wrong (hdev : ∀ p, dev.toView p = .ok (view p)) (s : Scn K) (i : Item K) (p : Vec K) (hp : Points s i [p]) (st : State K) :
    ∃ ops, paintText dev s i = .ok ops ∧ render st ops = [⟨st.pen, st.brush, .text (view p) i.shape.text⟩] := by
  refine ⟨[.setFont i.shape.fontFamily i.shape.fontSize, .draw (.text (view p) i.shape.text)], ?_, rfl⟩
  unfold paintText
  rw [cast_one hdev s i p hp]
  rfl

/-! ## Examples -/

/-- A plain style. -/
def styleExample : PathStyle ℚ := ⟨.solidLine, .ok 2, some "blue".toList, 1, none, 1, .roundCap, .miterJoin, false, "red".toList⟩

/-- A shape of a class, with all the other attributes. -/
def shapeExample (kind : Tex.Kind) : Shape ℚ where
  kind := kind
  text := "abc".toList
  fontFamily := "Arial".toList
  fontSize := 12
  radius := 3
  radiusX := 3
  radiusY := 4
  angle := 0
  startAngle := 30
  stopAngle := 210
  imageHeight := 2
  imageWidth := 4
  imageDepth := 3
  segments := [.linear (.vector ⟨1, 1⟩)]
  closed := false
  cubicPoints := none
  style := styleExample

/-- An arc of circle. -/
def arcExample : Item ℚ := { shape := shapeExample .circle, positions := [.name "A"], userData := none, z := 0 }

/-- A selected segment, an arc, a path and a text, on two levels. -/
def sceneExample : Scn ℚ :=
  { transformation := fun p => p
    coordinates := [("A", ⟨5, 6⟩)]
    items := [(1, { shape := shapeExample .segment, positions := [.vector ⟨0, 0⟩, .name "A"], userData := none, z := 0, selected := true }),
      (2, arcExample), (3, { shape := shapeExample .path, positions := [.vector ⟨0, 0⟩], userData := none, z := 0 }),
      (4, { shape := shapeExample .text, positions := [.name "A"], userData := none, z := 0, visible := true })] }

example : ∀ i ∈ sceneExample.items.values, i.visible = true → Ready sceneExample i := by
  intro i hi _
  simp only [sceneExample, Dict.values, List.map_cons, List.map_nil, List.mem_cons, List.not_mem_nil, or_false] at hi
  rcases hi with rfl | rfl | rfl | rfl
  · exact .segment ⟨0, 0⟩ ⟨5, 6⟩ 2 rfl rfl (.cons rfl (.cons rfl .nil))
  · exact .conic ⟨5, 6⟩ 2 (Or.inl rfl) rfl (.cons rfl .nil)
  · exact .path ⟨0, 0⟩ [⟨1, 1⟩] 2 rfl rfl (.cons rfl .nil) (.cons ⟨_, rfl, rfl⟩ .nil)
  · exact .text ⟨5, 6⟩ rfl (.cons rfl .nil)

example : ∀ i ∈ sceneExample.items.values, Styled i "blue".toList 2 := by
  intro i hi
  simp only [sceneExample, Dict.values, List.map_cons, List.map_nil, List.mem_cons, List.not_mem_nil, or_false] at hi
  rcases hi with rfl | rfl | rfl | rfl
  · exact ⟨rfl, Or.inl rfl, rfl⟩
  · exact ⟨rfl, Or.inr rfl, rfl⟩
  · exact ⟨rfl, Or.inr rfl, rfl⟩
  · exact ⟨rfl, Or.inr rfl, rfl⟩

example : (paintItems (svgDevice 2) sceneExample).2 = .ok () ∧ figures (paintItems (svgDevice 2) sceneExample).1 =
    [.line ⟨0, 0⟩ ⟨10, 12⟩, .arc ⟨4, 18⟩ ⟨16, 6⟩ 480 2880, .path [.moveTo ⟨0, 0⟩, .lineTo ⟨2, 2⟩], .text ⟨10, 12⟩ "abc".toList] := by
  decide +kernel

/-- The first pen is red and wide, the second one is the one of the style; the text is drawn with the pen of the path. -/
example (st : State ℚ) : (render st (paintItems (svgDevice 2) sceneExample).1).map (fun d => (d.pen.color.name, d.pen.width)) =
    [("red".toList, 8), ("blue".toList, 2), ("blue".toList, 2), ("blue".toList, 2)] := by
  have h : (paintItems (svgDevice 2) sceneExample).1 =
      [.setBrush none, .setPen ⟨⟨"red".toList, 1⟩, 8, .solidLine, .roundCap, .miterJoin⟩, .draw (.line ⟨0, 0⟩ ⟨10, 12⟩),
       .setBrush none, .setPen ⟨⟨"blue".toList, 1⟩, 2, .solidLine, .roundCap, .miterJoin⟩, .draw (.arc ⟨4, 18⟩ ⟨16, 6⟩ 480 2880),
       .setBrush none, .setPen ⟨⟨"blue".toList, 1⟩, 2, .solidLine, .roundCap, .miterJoin⟩, .draw (.path [.moveTo ⟨0, 0⟩, .lineTo ⟨2, 2⟩]),
       .setFont "Arial".toList 12, .draw (.text ⟨10, 12⟩ "abc".toList)] := by decide +kernel
  rw [h]
  rfl

example : (paintItems (svgDevice 2) { sceneExample with items := [(1, { arcExample with shape := shapeExample .rectangle })] }).2 =
    .error .notImplementedError := by decide +kernel

example : paintPath (svgDevice 2) sceneExample { arcExample with shape := { shapeExample .path with segments := [.cubic (.name "A") (.name "A") (.name "A")] } } =
    .error .unboundLocalError := by decide +kernel

/-- The device of a SVG file keeps straight lines. -/
example : Affine (fun p : Vec ℚ => ⟨p.x * 2, p.y * 2⟩) := ⟨2, 0, 0, 2, 0, 0, fun p => by ext <;> simp <;> ring⟩

/-- In a scene moved by one to the right, the curve from `(1, 0)` is drawn from `(2, 0)`. -/
example : (paintQuadraticItem (svgDevice 1) { sceneExample with transformation := fun p => ⟨p.x + 1, p.y⟩ }
      { arcExample with shape := shapeExample .quadraticBezier, positions := [.vector ⟨0, 0⟩, .vector ⟨1, 1⟩, .vector ⟨2, 0⟩] }).map
        (fun ops => (figures ops).head?) =
    .ok (some (.path [.moveTo ⟨2, 0⟩, .cubicTo ⟨8 / 3, 2 / 3⟩ ⟨10 / 3, 2 / 3⟩ ⟨4, 0⟩])) := by decide +kernel

end Patro.Qt
