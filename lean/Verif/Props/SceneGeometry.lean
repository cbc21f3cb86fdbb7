import Verif.Spec.SceneGeometry
import Verif.Props.PathBulge
import Verif.Props.Path
import Verif.Props.SplineBezier
import Verif.Props.Scene
/-! # Geometric objects in a scene -/

namespace Patro.SceneGeometry

open Conic Transformation

theorem arc_full (center : Vec ℝ) (radius : ℝ) (hr : 0 ≤ radius) : arcPoints center radius 0 360 = circlePoints center radius := by
  ext v
  constructor
  · rintro ⟨s, -, -, rfl⟩
    exact onCircle_distance _ _ _ hr
  · intro hv
    obtain ⟨h0, h1, h2⟩ := angleForPoint_spec (⟨center, radius, none⟩ : Circle ℝ) v
    refine ⟨_, h0, h1.le, ?_⟩
    have hd : distance v center = radius := hv
    rw [hd] at h2
    rw [zero_add]
    exact h2

/-- The objects whose item covers the same points. -/
def Faithful : Geometry → Prop
  | .circle c => 0 ≤ c.radius
  | .ellipse e => e.domain = none
  | .line | .path _ | .spline _ | .other => False
  | _ => True

/-- C150. A Bézier curve, a circle or an arc of circle, a whole ellipse, a polygon, a polyline, a rectangle, a segment or a triangle is
added as one item, which covers the same points. -/
theorem add_partial (g : Geometry) (h : Faithful g) :
    ∃ item s, addGeometry g = ([item], .ok ()) ∧ g.points = some s ∧ item.drawn = some s := by
  cases g with
  | circle c =>
    obtain ⟨center, radius, domain⟩ := c
    cases domain with
    | none =>
      refine ⟨_, _, rfl, rfl, ?_⟩
      have : Domain.sweep (⟨0, 360⟩ : Domain ℝ) = 360 := by norm_num [Domain.sweep]
      simp only [Item.drawn, this, arc_full center radius h]
    | some d => exact ⟨_, _, rfl, rfl, rfl⟩
  | ellipse e =>
    have hd : e.domain = none := h
    refine ⟨_, _, rfl, rfl, ?_⟩
    have : Domain.sweep (⟨0, 360⟩ : Domain ℝ) = 360 := by norm_num [Domain.sweep]
    simp only [Item.drawn, this, hd]
  | line => exact h.elim
  | path p => exact h.elim
  | spline s => exact h.elim
  | other => exact h.elim
  | quadratic c => exact ⟨_, _, rfl, rfl, rfl⟩
  | cubic c => exact ⟨_, _, rfl, rfl, rfl⟩
  | polygon l => exact ⟨_, _, rfl, rfl, rfl⟩
  | polyline l => exact ⟨_, _, rfl, rfl, rfl⟩
  | rectangle r => exact ⟨_, _, rfl, rfl, rfl⟩
  | segment s => exact ⟨_, _, rfl, rfl, rfl⟩
  | triangle t => exact ⟨_, _, rfl, rfl, rfl⟩

example : Faithful (.circle ⟨⟨1, 2⟩, 3, some ⟨300, 20⟩⟩) := by norm_num [Faithful]

theorem onEllipse_injective (center : Vec ℝ) (rx ry angle s t : ℝ) (hx : rx ≠ 0) (hy : ry ≠ 0)
    (h : onEllipse center rx ry angle s = onEllipse center rx ry angle t) : ∃ k : ℤ, s = t + 360 * k := by
  have h1 := congrArg Vec.x h
  have h2 := congrArg Vec.y h
  simp only [onEllipse] at h1 h2
  have ha := Real.sin_sq_add_cos_sq (angle * Real.pi / 180)
  have e1 : rx * Real.cos (s * Real.pi / 180) = rx * Real.cos (t * Real.pi / 180) := by
    linear_combination Real.cos (angle * Real.pi / 180) * h1 + Real.sin (angle * Real.pi / 180) * h2 +
      (rx * Real.cos (t * Real.pi / 180) - rx * Real.cos (s * Real.pi / 180)) * ha
  have e2 : ry * Real.sin (s * Real.pi / 180) = ry * Real.sin (t * Real.pi / 180) := by
    linear_combination -Real.sin (angle * Real.pi / 180) * h1 + Real.cos (angle * Real.pi / 180) * h2 +
      (ry * Real.sin (t * Real.pi / 180) - ry * Real.sin (s * Real.pi / 180)) * ha
  have c1 := mul_left_cancel₀ hx e1
  have c2 := mul_left_cancel₀ hy e2
  have : Real.cos ((s - t) * Real.pi / 180) = 1 := by
    rw [show (s - t) * Real.pi / 180 = s * Real.pi / 180 - t * Real.pi / 180 by ring, Real.cos_sub, c1, c2]
    linear_combination Real.sin_sq_add_cos_sq (t * Real.pi / 180)
  obtain ⟨k, hk⟩ := (Real.cos_eq_one_iff _).1 this
  refine ⟨k, ?_⟩
  have hpi := Real.pi_pos.ne'
  have : Real.pi * (s - t - 360 * k) = 0 := by linear_combination -180 * hk
  rcases mul_eq_zero.1 this with h | h
  · exact absurd h hpi
  · linarith

/-- C150 is false of the arcs of ellipses: the item of an arc which is not a full turn covers points which are not on the arc. -/
theorem ellipse_arc_wrong (e : Ellipse) (d : Domain ℝ) (hd : e.domain = some d) (hx : e.radiusX ≠ 0) (hy : e.radiusY ≠ 0)
    (hs0 : 0 ≤ d.sweep) (hs : d.sweep < 360) :
    ∃ item s s', addGeometry (.ellipse e) = ([item], .ok ()) ∧ (Geometry.ellipse e).points = some s ∧ item.drawn = some s' ∧ ¬ s' ⊆ s := by
  refine ⟨_, ellipseArc e.center e.radiusX e.radiusY e.angle d.start d.sweep, _, rfl, by simp only [Geometry.points, hd], rfl, fun hsub => ?_⟩
  obtain ⟨m, hm⟩ : ∃ m, m = d.start + (d.sweep + 360) / 2 := ⟨_, rfl⟩
  -- the middle of what is missing, brought back to a full turn from 0
  obtain ⟨n, hn0, hn1⟩ : ∃ n : ℤ, 0 ≤ m + 360 * n ∧ m + 360 * n < 360 := by
    refine ⟨-⌊m / 360⌋, ?_, ?_⟩
    · have := Int.floor_le (m / 360)
      rw [le_div_iff₀ (by norm_num)] at this
      push_cast; linarith
    · have := Int.lt_floor_add_one (m / 360)
      rw [div_lt_iff₀ (by norm_num)] at this
      push_cast; linarith
  have hsweep : Domain.sweep (⟨0, 360⟩ : Domain ℝ) = 360 := by norm_num [Domain.sweep]
  have hmem : onEllipse e.center e.radiusX e.radiusY e.angle (m + 360 * n) ∈
      ellipseArc e.center e.radiusX e.radiusY e.angle 0 (Domain.sweep ⟨0, 360⟩) :=
    ⟨_, hn0, by rw [hsweep]; exact hn1.le, by rw [zero_add]⟩
  obtain ⟨s, s0, s1, es⟩ := hsub hmem
  obtain ⟨k, hk⟩ := onEllipse_injective _ _ _ _ _ _ hx hy es
  -- `m = start + s + 360 (k - n)` with `start + sweep < m < start + 360`
  have h1 : (d.sweep + 360) / 2 = s + 360 * ((k - n : ℤ) : ℝ) := by push_cast; linarith
  have h2 : (0 : ℝ) < ((k - n : ℤ) : ℝ) := by
    by_contra h
    push Not at h
    nlinarith
  have h3 : ((k - n : ℤ) : ℝ) < 1 := by
    by_contra h
    push Not at h
    nlinarith
  have h4 : (0 : ℤ) < k - n := by exact_mod_cast h2
  have h5 : k - n < (1 : ℤ) := by exact_mod_cast h3
  omega

example : ∃ (e : Ellipse) (d : Domain ℝ), e.domain = some d ∧ e.radiusX ≠ 0 ∧ e.radiusY ≠ 0 ∧ 0 ≤ d.sweep ∧ d.sweep < 360 :=
  ⟨Ellipse.new ⟨0, 0⟩ 2 1 0 (some ⟨0, 90⟩), ⟨0, 90⟩, rfl, by norm_num [Ellipse.new], by norm_num [Ellipse.new], by norm_num [Domain.sweep],
    by norm_num [Domain.sweep]⟩

theorem mapM_mem {α β : Type} (f : α → Except PyErr β) : ∀ (l : List α) (r : List β), l.mapM f = .ok r → ∀ b ∈ r, ∃ a ∈ l, f a = .ok b
  | [], r, h, b, hb => by
    simp only [List.mapM_nil, pure, Except.pure, Except.ok.injEq] at h
    subst h
    simp at hb
  | a :: l, r, h, b, hb => by
    rw [List.mapM_cons] at h
    cases ha : f a with
    | error e => rw [ha] at h; cases h
    | ok x =>
      cases hl : l.mapM f with
      | error e => rw [ha, hl] at h; cases h
      | ok y =>
        rw [ha, hl] at h
        simp only [bind, Except.bind, pure, Except.pure, Except.ok.injEq] at h
        subst h
        rcases List.mem_cons.1 hb with rfl | hb
        · exact ⟨a, by simp, ha⟩
        · obtain ⟨a', h1, h2⟩ := mapM_mem f l y hl b hb
          exact ⟨a', by simp [h1], h2⟩

theorem toBezier_kind (s : Spline.BSpline ℝ) (cs) (h : s.toBezier = .ok cs) (c) (hc : c ∈ cs) :
    (s.degree = 3 → ∃ q, c = .cubic q) ∧ (s.degree = 2 → ∃ q, c = .quad q) := by
  unfold Spline.BSpline.toBezier at h
  cases h1 : s.toBezierForm with
  | error e => rw [h1] at h; cases h
  | ok sp =>
    cases h2 : s.numberOfSpans with
    | error e => rw [h1, h2] at h; cases h
    | ok n =>
      rw [h1, h2] at h
      obtain ⟨i, -, hi⟩ := mapM_mem _ _ _ h c hc
      unfold Spline.makeCurve at hi
      constructor
      · intro hd
        rw [hd, if_neg (by decide), if_pos (by decide)] at hi
        split at hi
        · exact ⟨_, (Except.ok.inj hi).symm⟩
        · cases hi
      · intro hd
        rw [hd, if_pos rfl] at hi
        split at hi
        · exact ⟨_, (Except.ok.inj hi).symm⟩
        · cases hi

theorem cubic_pointAt (c : Bezier.Cubic ℝ) (t : ℝ) : c.pointAt t = cubicPoint c.p0 c.p1 c.p2 c.p3 t := by
  unfold Bezier.Cubic.pointAt cubicPoint
  ext <;> simp <;> ring

/-- C150. An open cubic spline without given knots is added as one cubic item for each of its spans; each item is traced at the speed of
the spline. -/
theorem add_spline_cubic (s : Spline.BSpline ℝ) (h : Spline.IsUniform s) (hc : s.closed = false) (hd : s.degree = 3) :
    ∃ items : List (Vec ℝ × Vec ℝ × Vec ℝ × Vec ℝ),
      addGeometry (.spline s) = (items.map fun p => .cubic p.1 p.2.1 p.2.2.1 p.2.2.2, .ok ()) ∧
      items.length = s.points.length - 3 ∧
      (∀ (i : Nat) p, items[i]? = some p → ∀ x : ℝ, 0 ≤ x → x < 1 → s.pointAt (i + x) = .ok (cubicPoint p.1 p.2.1 p.2.2.1 p.2.2.2 x)) ∧
      ∃ p, items.getLast? = some p ∧ s.pointAt ((s.points.length : ℝ) - 3) = .ok p.2.2.2 := by
  obtain ⟨cs, h1, h2, h3, c, h4, h5⟩ := Spline.toBezier_spec s h hc (.inr hd)
  rw [hd] at h2 h5
  obtain ⟨qs, hqs⟩ : ∃ qs : List (Bezier.Cubic ℝ), cs = qs.map .cubic := by
    have hk : ∀ c ∈ cs, ∃ q, c = .cubic q := fun c hc => (toBezier_kind s cs h1 c hc).1 hd
    clear h1 h2 h3 h4 h5
    induction cs with
    | nil => exact ⟨[], rfl⟩
    | cons a t ih =>
      obtain ⟨q, rfl⟩ := hk a (by simp)
      obtain ⟨qs, rfl⟩ := ih (fun c hc => hk c (by simp [hc]))
      exact ⟨q :: qs, rfl⟩
  subst hqs
  have hm : (qs.map Spline.Curve.cubic).mapM addCurve = .ok (qs.map fun q => .cubic q.p0 q.p1 q.p2 q.p3) := by
    clear h1 h2 h3 h4 h5
    induction qs with
    | nil => rfl
    | cons q qs ih => simp only [List.map_cons, List.mapM_cons, ih]; rfl
  refine ⟨qs.map fun q => (q.p0, q.p1, q.p2, q.p3), ?_, by simpa using h2, ?_, ?_⟩
  · simp only [addGeometry, h1, hm, List.map_map]
    rfl
  · intro i p hp x hx0 hx1
    rw [List.getElem?_map, Option.map_eq_some_iff] at hp
    obtain ⟨q, hq, rfl⟩ := hp
    have := h3 i (.cubic q) (by rw [List.getElem?_map, hq]; rfl) x hx0 hx1
    rw [this, Spline.Curve.pointAt, cubic_pointAt]
  · rw [List.getLast?_map, Option.map_eq_some_iff] at h4
    obtain ⟨q, hq, rfl⟩ := h4
    refine ⟨_, by rw [List.getLast?_map, hq]; rfl, ?_⟩
    have e : ((3 : Nat) : ℝ) = 3 := by norm_num
    rw [e] at h5
    rw [h5, Spline.Curve.pointAt, cubic_pointAt]
    congr 1
    ext <;> simp [cubicPoint]

/-- C150 is false of the quadratic splines: nothing is added and a type error is raised. -/
theorem add_spline_quadratic_wrong (s : Spline.BSpline ℝ) (h : Spline.IsUniform s) (hc : s.closed = false) (hd : s.degree = 2) :
    addGeometry (.spline s) = ([], .error .typeError) := by
  obtain ⟨cs, h1, -, -, c, h4, -⟩ := Spline.toBezier_spec s h hc (.inl hd)
  cases cs with
  | nil => simp at h4
  | cons a t =>
    obtain ⟨q, rfl⟩ := (toBezier_kind s _ h1 a (by simp)).2 hd
    simp only [addGeometry, h1, List.mapM_cons, addCurve, bind, Except.bind]

theorem segment_image (t : Aff ℝ) (p q : Vec ℝ) : segmentPoints (t.apply p) (t.apply q) = t.apply '' segmentPoints p q := by
  have key : ∀ s : ℝ, t.apply ⟨(1 - s) * p.x + s * q.x, (1 - s) * p.y + s * q.y⟩ =
      ⟨(1 - s) * (t.apply p).x + s * (t.apply q).x, (1 - s) * (t.apply p).y + s * (t.apply q).y⟩ := by
    intro s
    simp only [aff_apply]
    ext <;> simp only <;> ring
  ext v
  constructor
  · rintro ⟨s, h0, h1, rfl⟩
    exact ⟨_, ⟨s, h0, h1, rfl⟩, key s⟩
  · rintro ⟨_, ⟨s, h0, h1, rfl⟩, rfl⟩
    exact ⟨s, h0, h1, key s⟩

theorem quadratic_image (t : Aff ℝ) (p q r : Vec ℝ) :
    quadraticPoints (t.apply p) (t.apply q) (t.apply r) = t.apply '' quadraticPoints p q r := by
  have key : ∀ s : ℝ, t.apply ⟨(1 - s) ^ 2 * p.x + 2 * s * (1 - s) * q.x + s ^ 2 * r.x,
        (1 - s) ^ 2 * p.y + 2 * s * (1 - s) * q.y + s ^ 2 * r.y⟩ =
      ⟨(1 - s) ^ 2 * (t.apply p).x + 2 * s * (1 - s) * (t.apply q).x + s ^ 2 * (t.apply r).x,
        (1 - s) ^ 2 * (t.apply p).y + 2 * s * (1 - s) * (t.apply q).y + s ^ 2 * (t.apply r).y⟩ := by
    intro s
    simp only [aff_apply]
    ext <;> simp only <;> ring
  ext v
  constructor
  · rintro ⟨s, h0, h1, rfl⟩
    exact ⟨_, ⟨s, h0, h1, rfl⟩, key s⟩
  · rintro ⟨_, ⟨s, h0, h1, rfl⟩, rfl⟩
    exact ⟨s, h0, h1, key s⟩

theorem cubic_image (t : Aff ℝ) (p q r u : Vec ℝ) :
    cubicPoints (t.apply p) (t.apply q) (t.apply r) (t.apply u) = t.apply '' cubicPoints p q r u := by
  have key : ∀ s : ℝ, t.apply (cubicPoint p q r u s) = cubicPoint (t.apply p) (t.apply q) (t.apply r) (t.apply u) s := by
    intro s
    simp only [aff_apply, cubicPoint]
    ext <;> simp only <;> ring
  ext v
  constructor
  · rintro ⟨s, h0, h1, rfl⟩
    exact ⟨_, ⟨s, h0, h1, rfl⟩, key s⟩
  · rintro ⟨_, ⟨s, h0, h1, rfl⟩, rfl⟩
    exact ⟨s, h0, h1, key s⟩

theorem edges_image (t : Aff ℝ) (l : List (Vec ℝ × Vec ℝ)) :
    edgesPoints (l.map (Prod.map t.apply t.apply)) = t.apply '' edgesPoints l := by
  ext v
  constructor
  · rintro ⟨e, he, hv⟩
    obtain ⟨e', he', rfl⟩ := List.mem_map.1 he
    simp only [Prod.map_fst, Prod.map_snd, segment_image] at hv
    obtain ⟨w, hw, rfl⟩ := hv
    exact ⟨w, ⟨e', he', hw⟩, rfl⟩
  · rintro ⟨w, ⟨e, he, hw⟩, rfl⟩
    refine ⟨_, List.mem_map_of_mem he, ?_⟩
    simp only [Prod.map_fst, Prod.map_snd, segment_image]
    exact ⟨w, hw, rfl⟩

theorem openEdges_map (f : Vec ℝ → Vec ℝ) (l : List (Vec ℝ)) : openEdges (l.map f) = (openEdges l).map (Prod.map f f) := by
  unfold openEdges
  rw [← List.map_tail, List.zip_map]

theorem closedEdges_map (f : Vec ℝ → Vec ℝ) (l : List (Vec ℝ)) : closedEdges (l.map f) = (closedEdges l).map (Prod.map f f) := by
  unfold closedEdges
  rw [← List.map_tail, ← List.map_take, ← List.map_append, List.zip_map]

/-- C151. In a scene with an affine transformation, the geometry of a Bézier item, of a polygon, of a polyline or of a segment is the image
of what is drawn. -/
theorem transformed_partial (t : Aff ℝ) (item : Item) (h : item.byPoints = true) :
    ∃ s, item.drawn = some s ∧ (item.geometry t.apply).points = some (t.apply '' s) := by
  cases item with
  | quadratic p0 p1 p2 => exact ⟨_, rfl, congrArg some (quadratic_image t p0 p1 p2)⟩
  | cubic p0 p1 p2 p3 => exact ⟨_, rfl, congrArg some (cubic_image t p0 p1 p2 p3)⟩
  | polygon l => exact ⟨_, rfl, congrArg some (by rw [closedEdges_map, edges_image])⟩
  | polyline l => exact ⟨_, rfl, congrArg some (by rw [openEdges_map, edges_image])⟩
  | segment p q => exact ⟨_, rfl, congrArg some (segment_image t p q)⟩
  | _ => cases h

/-- C151. It is so of a rectangle when the transformation keeps the directions of the axes, a scaling or a translation. -/
theorem transformed_rectangle_partial (t : Aff ℝ) (h1 : t.m 0 1 = 0) (h2 : t.m 1 0 = 0) (p q : Vec ℝ) :
    ∃ s, (Item.rectangle p q).drawn = some s ∧ ((Item.rectangle p q).geometry t.apply).points = some (t.apply '' s) := by
  refine ⟨_, rfl, congrArg some ?_⟩
  rw [← edges_image, ← closedEdges_map]
  congr 2
  simp [corners, aff_apply, h1, h2]

/-- C151. It is so of a circle when the transformation is a translation, and of a whole circle when it keeps the distances. -/
theorem transformed_circle_partial (t : Aff ℝ) (center : Vec ℝ) (radius start stop : ℝ) :
    ((∃ w : Vec ℝ, ∀ v, t.apply v = v + w) →
      ∃ s, (Item.circle center radius start stop).drawn = some s ∧
        ((Item.circle center radius start stop).geometry t.apply).points = some (t.apply '' s)) ∧
    (0 ≤ radius → (∀ v w, distance (t.apply v) (t.apply w) = distance v w) → Function.Surjective t.apply →
      ∃ s, (Item.circle center radius 0 360).drawn = some s ∧
        ((Item.circle center radius 0 360).geometry t.apply).points = some (t.apply '' s)) := by
  constructor
  · rintro ⟨w, hw⟩
    refine ⟨_, rfl, congrArg some ?_⟩
    have key : ∀ a, onCircle (t.apply center) radius a = t.apply (onCircle center radius a) := by
      intro a
      rw [hw, hw]
      ext <;> simp [onCircle] <;> ring
    ext v
    constructor
    · rintro ⟨s, h0, h1, rfl⟩
      exact ⟨_, ⟨s, h0, h1, rfl⟩, (key _).symm⟩
    · rintro ⟨_, ⟨s, h0, h1, rfl⟩, rfl⟩
      exact ⟨s, h0, h1, (key _).symm⟩
  · intro hr hd hs
    have hsweep : Domain.sweep (⟨0, 360⟩ : Domain ℝ) = 360 := by norm_num [Domain.sweep]
    refine ⟨_, rfl, congrArg some ?_⟩
    dsimp only
    rw [hsweep, arc_full _ _ hr, arc_full _ _ hr]
    ext v
    constructor
    · intro hv
      obtain ⟨u, rfl⟩ := hs v
      exact ⟨u, by rw [← hv]; exact (hd u center).symm, rfl⟩
    · rintro ⟨u, hu, rfl⟩
      exact (hd u center).trans hu

/-- C151 is false of a circle in a scaled scene: its center is scaled and not its radius. -/
theorem transformed_circle_wrong (t : Aff ℝ) (k : ℝ) (hk : 0 < k) (hk1 : k ≠ 1) (ht : ∀ v, t.apply v = v.smul k) (center : Vec ℝ)
    (radius start stop : ℝ) (hr : 0 < radius) (hs : 0 ≤ Domain.sweep ⟨start, stop⟩) :
    ∃ s s', (Item.circle center radius start stop).drawn = some s ∧
      ((Item.circle center radius start stop).geometry t.apply).points = some s' ∧ (∃ v, v ∈ s) ∧ ∀ v ∈ s, t.apply v ∉ s' := by
  refine ⟨_, _, rfl, rfl, ⟨_, 0, le_refl _, hs, rfl⟩, ?_⟩
  rintro v ⟨s, -, -, rfl⟩ ⟨s', -, -, h⟩
  rw [ht, ht] at h
  have e1 := congrArg Vec.x h
  have e2 := congrArg Vec.y h
  simp only [onCircle, Vec.smul_x, Vec.smul_y] at e1 e2
  have h1 := Real.sin_sq_add_cos_sq ((start + s) * Real.pi / 180)
  have h2 := Real.sin_sq_add_cos_sq ((start + s') * Real.pi / 180)
  obtain ⟨a, ha⟩ : ∃ a, a = Real.cos ((start + s) * Real.pi / 180) := ⟨_, rfl⟩
  obtain ⟨b, hb⟩ : ∃ b, b = Real.sin ((start + s) * Real.pi / 180) := ⟨_, rfl⟩
  obtain ⟨c, hc⟩ : ∃ c, c = Real.cos ((start + s') * Real.pi / 180) := ⟨_, rfl⟩
  obtain ⟨d, hd⟩ : ∃ d, d = Real.sin ((start + s') * Real.pi / 180) := ⟨_, rfl⟩
  rw [← ha] at e1 h1
  rw [← hb] at e2 h1
  rw [← hc] at e1 h2
  rw [← hd] at e2 h2
  have e1 : radius * (k * a) = radius * c := by linear_combination e1
  have e2 : radius * (k * b) = radius * d := by linear_combination e2
  have e1 := mul_left_cancel₀ hr.ne' e1
  have e2 := mul_left_cancel₀ hr.ne' e2
  have : (k - 1) * (k + 1) = 0 := by
    linear_combination (k * a + c) * e1 + (k * b + d) * e2 + h2 - k ^ 2 * h1
  rcases mul_eq_zero.1 this with h | h
  · exact hk1 (by linarith)
  · linarith

theorem mem_closedEdges (p0 p1 p2 p3 v : Vec ℝ) : v ∈ edgesPoints (closedEdges [p0, p1, p2, p3]) ↔
    v ∈ segmentPoints p0 p1 ∨ v ∈ segmentPoints p1 p2 ∨ v ∈ segmentPoints p2 p3 ∨ v ∈ segmentPoints p3 p0 := by
  simp [edgesPoints, closedEdges]

/-- Two numbers of the same sign, with a sum which is not the greater one. -/
theorem flat (c d s t : ℝ) (hc : c ≠ 0) (hs : 0 ≤ s) (ht : 0 ≤ t) (ht1 : t ≤ 1) (h1 : d = s * (c + d)) (h2 : c + d = t * c) : d = 0 := by
  have : t * (1 - s) = 1 := by
    have : c * (t * (1 - s) - 1) = 0 := by linear_combination h1 + (s - 1) * h2
    rcases mul_eq_zero.1 this with h | h
    · exact absurd h hc
    · linarith
  have : t = 1 := by nlinarith
  rw [this] at h2
  linarith

/-- A parallelogram which is not flat is the rectangle between two of its opposite corners only if its sides are along the axes. -/
theorem para_rectangle (o : Vec ℝ) (a b c d : ℝ) (hdet : a * d - b * c ≠ 0) :
    edgesPoints (closedEdges (corners o ⟨o.x + (a + b), o.y + (c + d)⟩)) =
      edgesPoints (closedEdges [o, ⟨o.x + b, o.y + d⟩, ⟨o.x + (a + b), o.y + (c + d)⟩, ⟨o.x + a, o.y + c⟩]) ↔
    (b = 0 ∧ c = 0) ∨ (a = 0 ∧ d = 0) := by
  constructor
  · intro h
    have m1 : (⟨o.x + a, o.y + c⟩ : Vec ℝ) ∈ edgesPoints (closedEdges (corners o ⟨o.x + (a + b), o.y + (c + d)⟩)) := by
      rw [h, mem_closedEdges]
      exact .inr (.inr (.inr ⟨0, le_rfl, zero_le_one, by simp⟩))
    have m2 : (⟨o.x + b, o.y + d⟩ : Vec ℝ) ∈ edgesPoints (closedEdges (corners o ⟨o.x + (a + b), o.y + (c + d)⟩)) := by
      rw [h, mem_closedEdges]
      exact .inl ⟨1, zero_le_one, le_rfl, by simp⟩
    have m3 : (⟨o.x + (a + b), o.y⟩ : Vec ℝ) ∈
        edgesPoints (closedEdges [o, ⟨o.x + b, o.y + d⟩, ⟨o.x + (a + b), o.y + (c + d)⟩, ⟨o.x + a, o.y + c⟩]) := by
      rw [← h, corners, mem_closedEdges]
      exact .inr (.inr (.inr ⟨0, le_rfl, zero_le_one, by simp⟩))
    have m4 : (⟨o.x, o.y + (c + d)⟩ : Vec ℝ) ∈
        edgesPoints (closedEdges [o, ⟨o.x + b, o.y + d⟩, ⟨o.x + (a + b), o.y + (c + d)⟩, ⟨o.x + a, o.y + c⟩]) := by
      rw [← h, corners, mem_closedEdges]
      exact .inl ⟨1, zero_le_one, le_rfl, by simp⟩
    clear h
    simp only [corners, mem_closedEdges, segmentPoints, Set.mem_setOf_eq, Vec.mk.injEq] at m1 m2 m3 m4
    -- the place of the two other corners in the rectangle
    have place : ∀ x y : ℝ, (∃ t, 0 ≤ t ∧ t ≤ 1 ∧ o.x + x = (1 - t) * o.x + t * o.x ∧ o.y + y = (1 - t) * o.y + t * (o.y + (c + d))) ∨
        (∃ t, 0 ≤ t ∧ t ≤ 1 ∧ o.x + x = (1 - t) * o.x + t * (o.x + (a + b)) ∧ o.y + y = (1 - t) * (o.y + (c + d)) + t * (o.y + (c + d))) ∨
        (∃ t, 0 ≤ t ∧ t ≤ 1 ∧ o.x + x = (1 - t) * (o.x + (a + b)) + t * (o.x + (a + b)) ∧ o.y + y = (1 - t) * (o.y + (c + d)) + t * o.y) ∨
        (∃ t, 0 ≤ t ∧ t ≤ 1 ∧ o.x + x = (1 - t) * (o.x + (a + b)) + t * o.x ∧ o.y + y = (1 - t) * o.y + t * o.y) →
        ((x = 0 ∨ x = a + b) ∧ ∃ t, 0 ≤ t ∧ t ≤ 1 ∧ y = t * (c + d)) ∨ ((y = 0 ∨ y = c + d) ∧ ∃ t, 0 ≤ t ∧ t ≤ 1 ∧ x = t * (a + b)) := by
      rintro x y (⟨t, h0, h1, hx, hy⟩ | ⟨t, h0, h1, hx, hy⟩ | ⟨t, h0, h1, hx, hy⟩ | ⟨t, h0, h1, hx, hy⟩)
      · exact .inl ⟨.inl (by linarith), t, h0, h1, by linarith⟩
      · exact .inr ⟨.inr (by linarith), t, h0, h1, by linarith⟩
      · exact .inl ⟨.inr (by linarith), 1 - t, by linarith, by linarith, by linarith⟩
      · exact .inr ⟨.inl (by linarith), 1 - t, by linarith, by linarith, by linarith⟩
    replace m1 := place _ _ m1
    replace m2 := place _ _ m2
    clear place
    -- the place of the two other corners of the rectangle
    have place : ∀ x y : ℝ, (∃ t, 0 ≤ t ∧ t ≤ 1 ∧ o.x + x = (1 - t) * o.x + t * (o.x + b) ∧ o.y + y = (1 - t) * o.y + t * (o.y + d)) ∨
        (∃ t, 0 ≤ t ∧ t ≤ 1 ∧ o.x + x = (1 - t) * (o.x + b) + t * (o.x + (a + b)) ∧ o.y + y = (1 - t) * (o.y + d) + t * (o.y + (c + d))) ∨
        (∃ t, 0 ≤ t ∧ t ≤ 1 ∧ o.x + x = (1 - t) * (o.x + (a + b)) + t * (o.x + a) ∧ o.y + y = (1 - t) * (o.y + (c + d)) + t * (o.y + c)) ∨
        (∃ t, 0 ≤ t ∧ t ≤ 1 ∧ o.x + x = (1 - t) * (o.x + a) + t * o.x ∧ o.y + y = (1 - t) * (o.y + c) + t * o.y) →
        ∃ s t, (0 ≤ s ∧ s ≤ 1) ∧ (0 ≤ t ∧ t ≤ 1) ∧ x = s * a + t * b ∧ y = s * c + t * d := by
      rintro x y (⟨t, h0, h1, hx, hy⟩ | ⟨t, h0, h1, hx, hy⟩ | ⟨t, h0, h1, hx, hy⟩ | ⟨t, h0, h1, hx, hy⟩)
      · exact ⟨0, t, ⟨le_rfl, zero_le_one⟩, ⟨h0, h1⟩, by linarith, by linarith⟩
      · exact ⟨t, 1, ⟨h0, h1⟩, ⟨zero_le_one, le_rfl⟩, by linarith, by linarith⟩
      · exact ⟨1, 1 - t, ⟨zero_le_one, le_rfl⟩, ⟨by linarith, by linarith⟩, by linarith, by linarith⟩
      · exact ⟨1 - t, 0, ⟨by linarith, by linarith⟩, ⟨le_rfl, zero_le_one⟩, by linarith, by linarith⟩
    obtain ⟨s3, t3, hs3, ht3, e3, f3⟩ := place (a + b) 0 (by simpa using m3)
    obtain ⟨s4, t4, hs4, ht4, e4, f4⟩ := place 0 (c + d) (by simpa using m4)
    clear place m3 m4
    have c1 : a = 0 → (∃ t, 0 ≤ t ∧ t ≤ 1 ∧ c = t * (c + d)) → d = 0 := by
      intro ha _
      have hb : b ≠ 0 := fun hb => hdet (by rw [ha, hb]; ring)
      have hc : c ≠ 0 := fun hc => hdet (by rw [ha, hc]; ring)
      have h4 : t4 = 0 := by
        rw [ha, mul_zero, zero_add] at e4
        exact (mul_eq_zero.1 e4.symm).resolve_right hb
      rw [h4, zero_mul, add_zero] at f4
      rcases m2 with ⟨-, t, g0, -, g⟩ | ⟨g | g, -⟩
      · exact flat c d t s4 hc g0 hs4.1 hs4.2 g f4
      · exact g
      · exact absurd (by linarith) hc
    rcases m1 with ⟨ha | hb, g⟩ | ⟨hc | hd, t, g0, -, g⟩
    · exact .inr ⟨ha, c1 ha g⟩
    · have hb : b = 0 := by linarith
      have ha : a ≠ 0 := fun ha => hdet (by rw [ha, hb]; ring)
      have hd : d ≠ 0 := fun hd => hdet (by rw [hd, hb]; ring)
      have h4 : s4 = 0 := by
        rw [hb, mul_zero, add_zero] at e4
        exact (mul_eq_zero.1 e4.symm).resolve_right ha
      rw [h4, zero_mul, zero_add] at f4
      obtain ⟨t, g0, -, g⟩ := g
      exact .inl ⟨hb, flat d c t t4 hd g0 ht4.1 ht4.2 (by rw [add_comm d]; exact g) (by rw [add_comm d]; exact f4)⟩
    · have ha : a ≠ 0 := fun ha => hdet (by rw [ha, hc]; ring)
      have hd : d ≠ 0 := fun hd => hdet (by rw [hd, hc]; ring)
      have h3 : t3 = 0 := by
        rw [hc, mul_zero, zero_add] at f3
        exact (mul_eq_zero.1 f3.symm).resolve_right hd
      rw [h3, zero_mul, add_zero] at e3
      rcases m2 with ⟨g | g, -⟩ | ⟨-, t, g0, -, g⟩
      · exact .inl ⟨g, hc⟩
      · exact absurd (by linarith) ha
      · exact .inl ⟨flat a b t s3 ha g0 hs3.1 hs3.2 g e3, hc⟩
    · have hd : d = 0 := by linarith
      have hb : b ≠ 0 := fun hb => hdet (by rw [hd, hb]; ring)
      have hc : c ≠ 0 := fun hc => hdet (by rw [hd, hc]; ring)
      have h3 : s3 = 0 := by
        rw [hd, mul_zero, add_zero] at f3
        exact (mul_eq_zero.1 f3.symm).resolve_right hc
      rw [h3, zero_mul, zero_add] at e3
      exact .inr ⟨flat b a t t3 hb g0 ht3.1 ht3.2 (by rw [add_comm b]; exact g) (by rw [add_comm b]; exact e3), hd⟩
  · have comm : ∀ p q : Vec ℝ, segmentPoints p q = segmentPoints q p := by
      have : ∀ p q : Vec ℝ, segmentPoints p q ⊆ segmentPoints q p := by
        rintro p q v ⟨t, h0, h1, rfl⟩
        exact ⟨1 - t, by linarith, by linarith, by ext <;> simp only <;> ring⟩
      exact fun p q => Set.Subset.antisymm (this p q) (this q p)
    rintro (⟨rfl, rfl⟩ | ⟨rfl, rfl⟩)
    · simp [corners]
    · ext v
      simp only [corners, mem_closedEdges, add_zero, zero_add]
      rw [comm o ⟨o.x, o.y + c⟩, comm ⟨o.x, o.y + c⟩ ⟨o.x + b, o.y + c⟩, comm ⟨o.x + b, o.y + c⟩ ⟨o.x + b, o.y⟩, comm ⟨o.x + b, o.y⟩ o]
      tauto

/-- C151, exactly: in a scene whose transformation can be inverted, the geometry of a rectangle which is not flat is the image of what is drawn
when the directions of the axes are kept or exchanged, and only then. -/
theorem transformed_rectangle_wrong (t : Aff ℝ) (hdet : t.m 0 0 * t.m 1 1 - t.m 0 1 * t.m 1 0 ≠ 0) (p q : Vec ℝ) (hx : p.x ≠ q.x)
    (hy : p.y ≠ q.y) :
    (∃ s, (Item.rectangle p q).drawn = some s ∧ ((Item.rectangle p q).geometry t.apply).points = some (t.apply '' s)) ↔
      (t.m 0 1 = 0 ∧ t.m 1 0 = 0) ∨ (t.m 0 0 = 0 ∧ t.m 1 1 = 0) := by
  have hx' : q.x - p.x ≠ 0 := fun h => hx (by linarith)
  have hy' : q.y - p.y ≠ 0 := fun h => hy (by linarith)
  have key := para_rectangle (t.apply p) (t.m 0 0 * (q.x - p.x)) (t.m 0 1 * (q.y - p.y)) (t.m 1 0 * (q.x - p.x)) (t.m 1 1 * (q.y - p.y))
    (by
      have : t.m 0 0 * (q.x - p.x) * (t.m 1 1 * (q.y - p.y)) - t.m 0 1 * (q.y - p.y) * (t.m 1 0 * (q.x - p.x)) =
        (t.m 0 0 * t.m 1 1 - t.m 0 1 * t.m 1 0) * ((q.x - p.x) * (q.y - p.y)) := by ring
      rw [this]
      exact mul_ne_zero hdet (mul_ne_zero hx' hy'))
  have eq : (⟨(t.apply p).x + (t.m 0 0 * (q.x - p.x) + t.m 0 1 * (q.y - p.y)),
      (t.apply p).y + (t.m 1 0 * (q.x - p.x) + t.m 1 1 * (q.y - p.y))⟩ : Vec ℝ) = t.apply q := by
    rw [aff_apply, aff_apply]
    ext <;> simp only <;> ring
  have e1 : (⟨(t.apply p).x + t.m 0 1 * (q.y - p.y), (t.apply p).y + t.m 1 1 * (q.y - p.y)⟩ : Vec ℝ) = t.apply ⟨p.x, q.y⟩ := by
    rw [aff_apply, aff_apply]
    ext <;> simp only <;> ring
  have e2 : (⟨(t.apply p).x + t.m 0 0 * (q.x - p.x), (t.apply p).y + t.m 1 0 * (q.x - p.x)⟩ : Vec ℝ) = t.apply ⟨q.x, p.y⟩ := by
    rw [aff_apply, aff_apply]
    ext <;> simp only <;> ring
  rw [eq, e1, e2] at key
  simp only [mul_eq_zero, hx', hy', or_false] at key
  rw [← key]
  have image : t.apply '' edgesPoints (closedEdges (corners p q)) =
      edgesPoints (closedEdges [t.apply p, t.apply ⟨p.x, q.y⟩, t.apply q, t.apply ⟨q.x, p.y⟩]) := by
    rw [← edges_image, ← closedEdges_map]
    rfl
  rw [← image]
  constructor
  · rintro ⟨s, h1, h2⟩
    cases h1
    exact Option.some.inj h2
  · intro h
    exact ⟨_, rfl, congrArg some h⟩

/-- The square from (0, 0) to (1, 1), turned by 45 degrees and enlarged, becomes flat. -/
example : ∃ (t : Aff ℝ) (s s' : Set (Vec ℝ)), (∀ v : Vec ℝ, t.apply v = ⟨v.x + v.y, v.y - v.x⟩) ∧
    (Item.rectangle ⟨0, 0⟩ ⟨1, 1⟩).drawn = some s ∧ ((Item.rectangle ⟨0, 0⟩ ⟨1, 1⟩).geometry t.apply).points = some s' ∧
    (⟨1, 0⟩ : Vec ℝ) ∈ s ∧ t.apply ⟨1, 0⟩ ∉ s' := by
  have ht : ∀ v : Vec ℝ, (⟨!![1, 1, 0; -1, 1, 0; 0, 0, 1], none⟩ : Aff ℝ).apply v = ⟨v.x + v.y, v.y - v.x⟩ := by
    intro v
    rw [aff_apply]
    ext <;> simp <;> ring
  refine ⟨⟨!![1, 1, 0; -1, 1, 0; 0, 0, 1], none⟩, _, _, ht, rfl, rfl, ?_, ?_⟩
  · refine ⟨(⟨1, 0⟩, ⟨0, 0⟩), by simp [corners, closedEdges], 0, le_refl _, zero_le_one, by simp⟩
  · rintro ⟨e, he, s, -, -, h⟩
    rw [ht] at h
    have h2 := congrArg Vec.y h
    simp only [corners, closedEdges, ht] at he
    norm_num at he h2
    rcases he with rfl | rfl | rfl | rfl <;> norm_num at h2

/-- C151 is false of the arcs of ellipses, whatever the transformation: the geometry of the item is the whole ellipse. -/
theorem ellipse_item_wrong (t : Vec ℝ → Vec ℝ) (center : Vec ℝ) (rx ry angle start stop : ℝ) :
    ((Item.ellipse center rx ry angle start stop).geometry t).points = some (ellipseArc (t center) rx ry angle 0 360) := rfl

example : ∃ t : Aff ℝ, ∀ v, t.apply v = v.smul 2 := ⟨⟨!![2, 0, 0; 0, 2, 0; 0, 0, 1], none⟩, fun v => by
  rw [aff_apply]; ext <;> simp⟩

end Patro.SceneGeometry
