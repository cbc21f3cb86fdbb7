import Verif.Spec.DxfImport
import Verif.Props.Dxf
import Verif.Props.Spline
import Verif.Props.Ellipse
import Mathlib.Tactic.IntervalCases
import Mathlib.Data.List.Forall2
/-! # Properties of the import of DXF files: C175 to C177 -/

namespace Patro.DxfImport

open Conic Dxf
open Spline (BSpline)

/-! ## The points of the items -/

theorem line_points (a b : P3) (q : Vec ℝ) : (onLine a b).Has q ↔ (Entity.line a b).Has q := by
  constructor
  · rintro ⟨s, h0, h1, rfl⟩
    exact ⟨s, h0, h1, by ext <;> simp [toVector, mul_comm]⟩
  · rintro ⟨s, h0, h1, rfl⟩
    exact ⟨s, h0, h1, by ext <;> simp [toVector, mul_comm]⟩

theorem place_false (c : P3) (r a : ℝ) :
    place false (c.1 + r * Real.cos (a * Real.pi / 180)) (c.2.1 + r * Real.sin (a * Real.pi / 180)) = Conic.onCircle (toVector c) r a := rfl

theorem distance_zero {p q : Vec ℝ} : distance p q = 0 ↔ p = q := by
  rw [← distance_eq, Vec.magnitude_eq_zero]
  constructor
  · intro h
    have h1 := congrArg Vec.x h
    have h2 := congrArg Vec.y h
    simp only [Vec.sub_x, Vec.sub_y, Vec.zero_x, Vec.zero_y] at h1 h2
    ext <;> linarith
  · rintro rfl
    ext <;> simp

theorem circle_points (c : P3) (r : ℝ) (hr : 0 ≤ r) (q : Vec ℝ) :
    (Item.circle ⟨toVector c, r, none⟩).Has q ↔ (Entity.circle false c r).Has q := by
  simp only [Item.Has, Entity.Has, place_false, Circle.distanceToPoint, Circle.signedDistanceToPoint, abs_eq_zero, sub_eq_zero, distance_eq]
  constructor
  · intro h
    obtain ⟨_, _, h3⟩ := angleForPoint_spec ⟨toVector c, r, none⟩ q
    exact ⟨_, by rw [← h]; exact h3⟩
  · rintro ⟨a, rfl⟩
    exact onCircle_distance _ _ _ hr

theorem arc_points (c : P3) (r a b : ℝ) (hr : 0 ≤ r) (h1 : 0 ≤ a) (h2 : a < 360) (h3 : 0 ≤ b) (h4 : b ≤ 360) (hab : a ≠ b) (q : Vec ℝ) :
    (Item.circle ⟨toVector c, r, some ⟨a, b⟩⟩).Has q ↔ (Entity.arc false c r a b).Has q := by
  have key : (Entity.arc false c r a b).Has q ↔ q ∈ arcPoints (toVector c) r a (Domain.sweep ⟨a, b⟩) := by
    simp only [Entity.Has, place_false, Between, arcPoints, Set.mem_setOf_eq, Domain.sweep]
    have e : (if a ≤ b then b - a else b - a + 360) = (if a < b then b else b + 360) - a := by
      rcases lt_or_gt_of_ne hab with h | h
      · rw [if_pos h.le, if_pos h]
      · rw [if_neg (not_le.2 h), if_neg (not_lt.2 h.le)]; ring
    rw [e]
    constructor
    · rintro ⟨t, ⟨h1, h2⟩, rfl⟩
      exact ⟨t - a, by linarith, by linarith, by congr 1; ring⟩
    · rintro ⟨s, h1, h2, rfl⟩
      exact ⟨a + s, ⟨by linarith, by linarith⟩, rfl⟩
  rw [key]
  rcases h4.lt_or_eq with h4 | rfl
  · obtain ⟨⟨p, hp, hd⟩, hmin⟩ := distance_arc_partial ⟨toVector c, r, some ⟨a, b⟩⟩ hr ⟨a, b⟩ rfl h1 h2.le h3 h4 q
    change Circle.distanceToPoint _ q = 0 ↔ _
    constructor
    · intro h
      rw [h] at hd
      rw [distance_zero.1 hd.symm]
      exact hp
    · intro h
      have := hmin ⟨q, h, rfl⟩
      rw [distance_zero.2 rfl] at this
      rw [hd] at this ⊢
      exact le_antisymm this (Real.sqrt_nonneg _)
  · have hsw : Domain.sweep ⟨a, (360 : ℝ)⟩ = 360 - a := if_pos h2.le
    obtain ⟨g1, g2, g3⟩ := angleForPoint_spec ⟨toVector c, r, some ⟨a, 360⟩⟩ q
    rw [hsw]
    simp only [Item.Has, Circle.distanceToPoint]
    have hin : Domain.isInside ⟨a, (360 : ℝ)⟩ (Circle.angleForPoint ⟨toVector c, r, some ⟨a, 360⟩⟩ q) = true ↔
        a ≤ Circle.angleForPoint ⟨toVector c, r, some ⟨a, 360⟩⟩ q := by
      simp [Domain.isInside, Domain.isCounterclockwise, h2.le, g2.le]
    have estop : Conic.onCircle (toVector c) r 360 = Conic.onCircle (toVector c) r (a + (360 - a)) := by congr 1; ring
    split
    · rename_i hi
      rw [hin] at hi
      simp only [Circle.signedDistanceToPoint, abs_eq_zero, sub_eq_zero, distance_eq]
      constructor
      · intro h
        refine ⟨_, sub_nonneg.2 hi, by linarith, ?_⟩
        rw [add_sub_cancel, ← h]
        exact g3
      · rintro ⟨s, -, -, rfl⟩
        exact onCircle_distance _ _ _ hr
    · rename_i hi
      rw [hin, not_le] at hi
      rw [distance_eq, distance_eq, pointAtAngle_eq, pointAtAngle_eq]
      have n1 : 0 ≤ distance q (Conic.onCircle (toVector c) r a) := Real.sqrt_nonneg _
      have n2 : 0 ≤ distance q (Conic.onCircle (toVector c) r 360) := Real.sqrt_nonneg _
      constructor
      · intro h
        rcases min_choice (distance q (Conic.onCircle (toVector c) r a)) (distance q (Conic.onCircle (toVector c) r 360)) with hm | hm
        · rw [hm] at h
          exact ⟨0, le_refl _, by linarith, by rw [add_zero]; exact distance_zero.1 h⟩
        · rw [hm] at h
          exact ⟨360 - a, by linarith, le_refl _, by rw [← estop]; exact distance_zero.1 h⟩
      · rintro ⟨s, s0, s1, rfl⟩
        by_cases hs : a + s = 360
        · have hq : Conic.onCircle (toVector c) r (a + s) = Conic.onCircle (toVector c) r 360 := by rw [hs]
          rw [hq] at n1 ⊢
          rw [(distance_zero (p := Conic.onCircle (toVector c) r 360)).2 rfl]
          exact min_eq_right n1
        · rcases hr.lt_or_eq with hr' | rfl
          · have := angle_roundtrip ⟨toVector c, r, some ⟨a, 360⟩⟩ hr' (a + s) (by linarith) (lt_of_le_of_ne (by linarith) hs)
            rw [pointAtAngle_eq] at this
            rw [this] at hi
            linarith
          · have e : ∀ t, Conic.onCircle (toVector c) 0 t = toVector c := by
              intro t; unfold Conic.onCircle; ext <;> simp
            rw [e, e, e, distance_zero.2 rfl, min_self]

/-- The point of an imported ellipse at an angle. -/
theorem rotate_major (v : Vec ℝ) (h : v ≠ 0) :
    v.x = v.magnitude * Real.cos (Vec.radians v.orientation) ∧ v.y = v.magnitude * Real.sin (Vec.radians v.orientation) := by
  obtain ⟨h, -, -⟩ := Vec.fromPolar_orientation v h
  constructor
  · conv_lhs => rw [← h]
    simp [Vec.fromPolar, Vec.fromAngle]
  · conv_lhs => rw [← h]
    simp [Vec.fromPolar, Vec.fromAngle]

theorem orientation_ninety (v : Vec ℝ) : v.orientation = 90 ↔ v.x = 0 ∧ 0 ≤ v.y := by
  constructor
  · intro h
    by_cases hv : v = 0
    · subst hv; simp
    · obtain ⟨hx, hy⟩ := rotate_major v hv
      rw [h] at hx hy
      have : Vec.radians 90 = Real.pi / 2 := by unfold Vec.radians; ring
      rw [this, Real.cos_pi_div_two, mul_zero] at hx
      rw [this, Real.sin_pi_div_two, mul_one] at hy
      exact ⟨hx, hy ▸ Vec.magnitude_nonneg v⟩
  · rintro ⟨h1, h2⟩
    unfold Vec.orientation
    rw [if_pos h1, if_pos h2]

theorem onEllipse_tilted (c major : P3) (ratio a b : ℝ) (h : major.1 ≠ 0 ∨ major.2.1 < 0) (hr : 0 ≤ ratio) :
    ∃ e : Ellipse, onEllipse c major ratio a b = .ellipse e ∧ e.domain = some ⟨Vec.degrees a, Vec.degrees b⟩ ∧
      ∀ t, e.pointAtAngle (Vec.degrees t) = ellipsePoint false c major ratio t := by
  have hne : toVector major ≠ 0 := by
    intro hv
    have h1 := congrArg Vec.x hv
    have h2 := congrArg Vec.y hv
    simp only [toVector, Vec.zero_x, Vec.zero_y] at h1 h2
    rcases h with h | h
    · exact h h1
    · exact absurd h2 h.ne
  have h90 : (toVector major).orientation ≠ 90 := by
    rw [Ne, orientation_ninety]
    rintro ⟨h1, h2⟩
    rcases h with h | h
    · exact h h1
    · exact absurd h2 (not_le.2 h)
  unfold onEllipse
  simp only [if_neg h90]
  refine ⟨_, rfl, rfl, ?_⟩
  intro t
  obtain ⟨hx, hy⟩ := rotate_major _ hne
  have hx' : major.1 = _ := hx
  have hy' : major.2.1 = _ := hy
  unfold ellipsePoint
  simp only [Bool.false_eq_true, if_false]
  have e1 : ∀ p : Vec ℝ, (if (toVector major).orientation ≠ 0 then p.rotate (toVector major).orientation else p) =
      p.rotate (toVector major).orientation := by
    intro p
    split
    · rfl
    · rename_i h0
      rw [not_not] at h0
      rw [h0]
      ext <;> simp [Vec.rotate, Vec.radians]
  simp only [Ellipse.pointAtAngle, Ellipse.new, e1, Vec.fromEllipse, Vec.radians_degrees, Vec.magnitude_smul, abs_of_nonneg hr]
  rw [hx', hy']
  ext
  · simp only [Vec.rotate, Vec.add_x, if_true, toVector]; ring
  · simp only [Vec.rotate, Vec.add_y, if_true, toVector]; ring

theorem degrees_le {x y : ℝ} : Vec.degrees x ≤ Vec.degrees y ↔ x ≤ y := by
  unfold Vec.degrees
  have : 0 < 180 / Real.pi := by positivity
  exact mul_le_mul_iff_left₀ this

theorem degrees_lt {x y : ℝ} : Vec.degrees x < Vec.degrees y ↔ x < y := by
  rw [← not_le, degrees_le, not_le]

theorem degrees_zero : Vec.degrees 0 = 0 := by simp [Vec.degrees]

theorem degrees_turn : Vec.degrees (2 * Real.pi) = 360 := by
  unfold Vec.degrees
  have := Real.pi_ne_zero
  field_simp
  norm_num

theorem ellipsePoint_turn (m : Bool) (c major : P3) (ratio t : ℝ) :
    ellipsePoint m c major ratio (t + 2 * Real.pi) = ellipsePoint m c major ratio t := by
  simp only [ellipsePoint, Real.cos_add_two_pi, Real.sin_add_two_pi]

/-- An angle from 0 to 360 is inside the domain exactly when its parameter is met, up to one turn. -/
theorem inside_iff {a b : ℝ} (h1 : 0 ≤ a) (h2 : a < 2 * Real.pi) (h3 : 0 ≤ b) (h4 : b ≤ 2 * Real.pi) (hab : a ≠ b) (P : ℝ → Prop)
    (hP : ∀ t, P (t + 2 * Real.pi) ↔ P t) :
    (∃ x, 0 ≤ x ∧ x ≤ 360 ∧ Domain.isInside ⟨Vec.degrees a, Vec.degrees b⟩ x = true ∧ P (Vec.radians x)) ↔
      ∃ t, Between (2 * Real.pi) a b t ∧ P t := by
  have hpi := Real.pi_pos
  unfold Between Domain.isInside Domain.isCounterclockwise
  simp only [degrees_le]
  rcases lt_or_gt_of_ne hab with hlt | hgt
  · simp only [hlt.le, hlt, decide_true, if_true, Bool.and_eq_true, decide_eq_true_eq]
    constructor
    · rintro ⟨x, -, -, ⟨h5, h6⟩, hx⟩
      rw [← Vec.degrees_radians x, degrees_le] at h5 h6
      exact ⟨_, ⟨h5, h6⟩, hx⟩
    · rintro ⟨t, ⟨h5, h6⟩, ht⟩
      refine ⟨Vec.degrees t, ?_, ?_, ⟨degrees_le.2 h5, degrees_le.2 h6⟩, by rwa [Vec.radians_degrees]⟩
      · rw [← degrees_zero, degrees_le]; linarith
      · rw [← degrees_turn, degrees_le]; linarith
  · simp only [not_le.2 hgt, not_lt.2 hgt.le, decide_false, Bool.false_eq_true, if_false, Bool.not_eq_true', Bool.and_eq_false_iff,
      decide_eq_false_iff_not, not_lt]
    constructor
    · rintro ⟨x, h0, h360, h, hx⟩
      rw [← Vec.degrees_radians x, ← degrees_zero, degrees_le] at h0
      rw [← Vec.degrees_radians x, ← degrees_turn, degrees_le] at h360
      rw [← Vec.degrees_radians x, degrees_le, degrees_le] at h
      rcases h with h | h
      · exact ⟨Vec.radians x + 2 * Real.pi, ⟨by linarith, by linarith⟩, (hP _).2 hx⟩
      · exact ⟨Vec.radians x, ⟨h, by linarith⟩, hx⟩
    · rintro ⟨t, ⟨h5, h6⟩, ht⟩
      by_cases hcut : t ≤ 2 * Real.pi
      · refine ⟨Vec.degrees t, ?_, ?_, .inr (degrees_le.2 h5), by rwa [Vec.radians_degrees]⟩
        · rw [← degrees_zero, degrees_le]; linarith
        · rw [← degrees_turn, degrees_le]; exact hcut
      · rw [not_le] at hcut
        refine ⟨Vec.degrees (t - 2 * Real.pi), ?_, ?_, .inl (degrees_le.2 (by linarith)), ?_⟩
        · rw [← degrees_zero, degrees_le]; linarith
        · rw [← degrees_turn, degrees_le]; linarith
        · rw [Vec.radians_degrees, ← hP, sub_add_cancel]; exact ht

theorem ellipse_points (c major : P3) (ratio a b : ℝ) (hr : 0 ≤ ratio) (h1 : 0 ≤ a) (h2 : a < 2 * Real.pi) (h3 : 0 ≤ b)
    (h4 : b ≤ 2 * Real.pi) (hab : a ≠ b) (hm : major.1 ≠ 0 ∨ major.2.1 < 0) (q : Vec ℝ) :
    (onEllipse c major ratio a b).Has q ↔ (Entity.ellipse false c major ratio a b).Has q := by
  obtain ⟨e, he, hd, hp⟩ := onEllipse_tilted c major ratio a b hm hr
  rw [he]
  simp only [Item.Has, Entity.Has, hd, Option.some.injEq, forall_eq']
  rw [← inside_iff h1 h2 h3 h4 hab (fun t => q = ellipsePoint false c major ratio t) (fun t => by rw [ellipsePoint_turn])]
  simp only [← hp, Vec.degrees_radians]

/-! ## C175 -/

theorem onPolyline_eq (closed : Bool) (points : List (ℝ × ℝ × ℝ × ℝ × ℝ)) :
    onPolyline closed points = if closed = true ∧ points = [] then .error .indexError
      else .ok (.polyline ((successive closed (vertices points)).map fun (v, w) => Dxf.item v w w)) := by
  have key : ∀ (l : List (ℝ × ℝ × ℝ × ℝ × ℝ)) (p : Dxf.Polyline),
      l.foldl (fun (p : Dxf.Polyline) (x, y, _, _, b) => p.add ⟨x, y⟩ b) p = ⟨p.vertices ++ vertices l, p.closed⟩ := by
    intro l
    induction l with
    | nil => intro p; simp [vertices]
    | cons x l ih =>
      intro p
      rw [List.foldl_cons, ih]
      simp [Dxf.Polyline.add, vertices]
  unfold onPolyline
  simp only
  rw [key, polyline_items]
  have hv : vertices points = [] ↔ points = [] := by simp [vertices]
  simp only [List.nil_append, hv]
  split <;> rfl

theorem onSpline_eq (points : List P3) (degree : Nat) (closed : Bool) :
    (points.length ≤ degree → onSpline points degree closed = .error .valueError) ∧
    (¬ points.length ≤ degree → ∃ s : BSpline ℝ, onSpline points degree closed = .ok (.spline s) ∧ s.points = plane points ∧ s.degree = degree ∧
      s.uniform = true ∧ s.closed = closed ∧ StandardKnots degree points.length s.knots ∧ Spline.IsUniform s) := by
  have hl : (toVectors points).length = points.length := by simp [toVectors]
  constructor
  · intro h
    unfold onSpline BSpline.new
    simp only [hl, (Spline.uniformKnots_spec (K := ℝ) degree points.length).1 (by omega)]
    rfl
  · intro h
    obtain ⟨knots, hk, -⟩ := (Spline.uniformKnots_spec (K := ℝ) degree points.length).2 (by omega)
    have hnew : BSpline.new (toVectors points) degree closed = .ok ⟨toVectors points, degree, closed, knots, true⟩ := by
      unfold BSpline.new
      simp only [hl, hk]
      rfl
    obtain ⟨-, h2, h3⟩ := Spline.uniform_knot degree points.length knots hk
    refine ⟨⟨toVectors points, degree, closed, knots, true⟩, ?_, rfl, rfl, rfl, rfl, ⟨h2, h3⟩, rfl, hnew⟩
    unfold onSpline
    rw [hnew]
    rfl

theorem onEntity_good {e : Entity} (hk : known e = true) (hb : ¬ Bad e) : ∃ i, onEntity e = .ok (some i) ∧ Represents e i := by
  cases e with
  | line a b => exact ⟨_, rfl, ⟨_, rfl⟩, line_points a b⟩
  | circle m c r =>
    refine ⟨_, rfl, ⟨_, rfl, rfl⟩, ?_⟩
    rintro ⟨rfl, h⟩
    exact circle_points c r h
  | arc m c r a b =>
    refine ⟨_, rfl, ⟨_, rfl, by simp⟩, ?_⟩
    rintro ⟨rfl, h0, h1, h2, h3, h4, h5⟩
    exact arc_points c r a b h0 h1 h2 h3 h4 h5
  | ellipse m c major ratio a b =>
    refine ⟨_, rfl, ?_, ?_⟩
    · unfold onEllipse
      simp only
      split
      · exact ⟨_, rfl, by simp [Ellipse.new]⟩
      · exact ⟨_, rfl, by simp [Ellipse.new]⟩
    · rintro ⟨rfl, h0, h1, h2, h3, h4, h5, h6⟩
      exact ellipse_points c major ratio a b h0 h1 h2 h3 h4 h5 h6
  | lwpolyline m closed points =>
    refine ⟨_, ?_, rfl⟩
    simp only [onEntity, onPolyline_eq]
    rw [if_neg (c := closed = true ∧ points = []) hb]
    rfl
  | spline points degree closed knots weights fit =>
    obtain ⟨s, h1, h2, h3, h4, -, h5, -⟩ := (onSpline_eq points degree closed).2 hb
    exact ⟨.spline s, by simp only [onEntity, h1]; rfl, s, rfl, h2, h3, h4, h5⟩
  | other t => cases hk

theorem onEntity_bad {e : Entity} (hb : Bad e) :
    onEntity e = .error (refusal e) := by
  cases e with
  | lwpolyline m closed points =>
    simp only [onEntity, onPolyline_eq]
    rw [if_pos (c := closed = true ∧ points = []) hb]
    rfl
  | spline points degree closed knots weights fit =>
    simp only [onEntity, (onSpline_eq points degree closed).1 hb]
    rfl
  | _ => exact hb.elim

theorem readLoop_good : ∀ (l : List Entity) (items : List Item), (∀ e ∈ l, ¬ Bad e) →
    ∃ new, readLoop items l = .ok (items ++ new) ∧ List.Forall₂ Represents (l.filter known) new
  | [], items, _ => ⟨[], by simp [readLoop], .nil⟩
  | e :: l, items, h => by
    by_cases hk : known e = true
    · obtain ⟨i, h1, h2⟩ := onEntity_good hk (h e List.mem_cons_self)
      obtain ⟨new, h3, h4⟩ := readLoop_good l (items ++ [i]) fun e' he' => h e' (List.mem_cons_of_mem _ he')
      refine ⟨i :: new, ?_, ?_⟩
      · simp only [readLoop, h1, h3, List.append_assoc, List.singleton_append]
      · rw [List.filter_cons_of_pos hk]
        exact .cons h2 h4
    · obtain ⟨new, h3, h4⟩ := readLoop_good l items fun e' he' => h e' (List.mem_cons_of_mem _ he')
      have : onEntity e = .ok none := by
        cases e with
        | other t => rfl
        | _ => exact absurd rfl hk
      refine ⟨new, by simp only [readLoop, this, h3], ?_⟩
      rw [List.filter_cons_of_neg hk]
      exact h4

theorem readLoop_append : ∀ (l l' : List Entity) (items new : List Item), readLoop items l = .ok new →
    readLoop items (l ++ l') = readLoop new l'
  | [], l', items, new, h => by
    simp only [readLoop, Except.ok.injEq] at h
    rw [h]; rfl
  | e :: l, l', items, new, h => by
    simp only [readLoop, List.cons_append] at h ⊢
    cases he : onEntity e with
    | error x => rw [he] at h; cases h
    | ok o =>
      rw [he] at h
      cases o with
      | none => exact readLoop_append l l' items new h
      | some i => exact readLoop_append l l' _ new h

/-- C175. The importer gives one item per line, circle, arc, ellipse, light-weight polyline and spline of the model space, in this order, and
skips the other entities. A line gives a segment with the same points; a circle gives a closed circle, an arc and an ellipse an open one, with
the same points when their attributes are the usual ones; a polyline gives the list of its segments and arcs; a spline gives a spline with its
control points and its degree, and the uniform knots. -/
theorem import_items (doc : List Entity) (h : ∀ e ∈ doc, ¬ Bad e) :
    ∃ items, new doc = .ok items ∧ List.Forall₂ Represents (doc.filter known) items := by
  obtain ⟨new', h1, h2⟩ := readLoop_good doc [] h
  exact ⟨new', h1, h2⟩

/-- C175. One closed polyline without points, or one spline with fewer control points than its degree plus one, and the whole file is refused:
the first one raises `IndexError` or `ValueError`. Nothing else is refused. -/
theorem import_refused (doc : List Entity) :
    (∀ pre e post, doc = pre ++ e :: post → (∀ e' ∈ pre, ¬ Bad e') → Bad e →
      new doc = .error (refusal e)) ∧
    ((∃ err, new doc = .error err) ↔ ∃ e ∈ doc, Bad e) := by
  have key : ∀ pre e post, doc = pre ++ e :: post → (∀ e' ∈ pre, ¬ Bad e') → Bad e →
      new doc = .error (refusal e) := by
    rintro pre e post rfl hpre hb
    obtain ⟨n, h1, -⟩ := readLoop_good pre [] hpre
    unfold new
    rw [readLoop_append pre _ [] _ h1]
    simp only [readLoop, onEntity_bad hb]
  refine ⟨key, ?_, ?_⟩
  · rintro ⟨err, herr⟩
    by_contra hc
    obtain ⟨items, h1, -⟩ := import_items doc fun e he hb => hc ⟨e, he, hb⟩
    rw [h1] at herr
    cases herr
  · rintro ⟨e, he, hb⟩
    classical
    obtain ⟨as, a, bs, h1, h2, h3⟩ : ∃ as a bs, doc = as ++ a :: bs ∧ (∀ x ∈ as, ¬ Bad x) ∧ Bad a := by
      clear key
      induction doc with
      | nil => cases he
      | cons x l ih =>
        by_cases hx : Bad x
        · exact ⟨[], x, l, rfl, by simp, hx⟩
        · rcases List.mem_cons.1 he with rfl | he
          · exact absurd hb hx
          · obtain ⟨as, a, bs, h1, h2, h3⟩ := ih he
            refine ⟨x :: as, a, bs, by rw [h1]; rfl, ?_, h3⟩
            intro y hy
            rcases List.mem_cons.1 hy with rfl | hy
            · exact hx
            · exact h2 y hy
    exact ⟨_, key as a bs h1 h2 h3⟩

/-! ## C176 -/

theorem onEllipse_vertical (c major : P3) (ratio a b : ℝ) (h : major.1 = 0) (h' : 0 ≤ major.2.1) (hr : 0 ≤ ratio) :
    ∃ e : Ellipse, onEllipse c major ratio a b = .ellipse e ∧ e.domain = some ⟨Vec.degrees a, Vec.degrees b⟩ ∧
      ∀ t, e.pointAtAngle (Vec.degrees t) = ellipsePoint false c major ratio (t - Real.pi / 2) := by
  have h90 : (toVector major).orientation = 90 := (orientation_ninety _).2 ⟨h, h'⟩
  have hmag : (toVector major).magnitude = major.2.1 := by
    simp only [Vec.magnitude, Vec.magnitudeSquare, toVector, h, mul_zero, zero_add]
    exact Real.sqrt_mul_self h'
  unfold onEllipse
  simp only [if_pos h90]
  refine ⟨_, rfl, rfl, ?_⟩
  intro t
  simp only [Ellipse.pointAtAngle, Ellipse.new, Vec.fromEllipse, Vec.radians_degrees, Vec.magnitude_smul, abs_of_nonneg hr, ellipsePoint,
    Real.cos_sub_pi_div_two, Real.sin_sub_pi_div_two, hmag, h, ne_eq, not_true_eq_false, if_false, Bool.false_eq_true]
  ext
  · simp only [Vec.add_x, toVector]; ring
  · simp only [Vec.add_y, toVector]; ring

/-- C176. For an ellipse which is not mirrored and whose major axis does not point upwards, the parameters of the file are, in degrees, the
angles of the item: the domain is the one of the file, and the point at the angle of a parameter is the one the file means. -/
theorem ellipse_parameters (c major : P3) (ratio a b : ℝ) (h : major.1 ≠ 0 ∨ major.2.1 < 0) (hr : 0 ≤ ratio) :
    ∃ e : Ellipse, onEntity (.ellipse false c major ratio a b) = .ok (some (.ellipse e)) ∧
      e.domain = some ⟨a * (180 / Real.pi), b * (180 / Real.pi)⟩ ∧
      (∀ t, e.pointAtAngle (t * (180 / Real.pi)) = ellipsePoint false c major ratio t) ∧
      e.startStopPoint true = some (ellipsePoint false c major ratio a) ∧ e.startStopPoint false = some (ellipsePoint false c major ratio b) := by
  obtain ⟨e, h1, h2, h3⟩ := onEllipse_tilted c major ratio a b h hr
  refine ⟨e, by simp only [onEntity, h1], h2, h3, ?_, ?_⟩
  · simp only [Ellipse.startStopPoint, h2, if_true, h3]
  · simp only [Ellipse.startStopPoint, h2, Bool.false_eq_true, if_false, h3]

/-- C176. A whole ellipse whose major axis points upwards has the right points. -/
theorem ellipse_vertical_full (c major : P3) (ratio : ℝ) (h : major.1 = 0) (h' : 0 ≤ major.2.1) (hr : 0 ≤ ratio) :
    ∃ i, onEntity (.ellipse false c major ratio 0 (2 * Real.pi)) = .ok (some i) ∧
      ∀ q, i.Has q ↔ (Entity.ellipse false c major ratio 0 (2 * Real.pi)).Has q := by
  obtain ⟨e, h1, h2, h3⟩ := onEllipse_vertical c major ratio 0 (2 * Real.pi) h h' hr
  refine ⟨.ellipse e, by simp only [onEntity, h1], ?_⟩
  intro q
  have hpi := Real.pi_pos
  simp only [Item.Has, h2, Option.some.injEq, forall_eq']
  have := inside_iff (a := 0) (b := 2 * Real.pi) le_rfl (by linarith) (by linarith) le_rfl (by linarith)
    (fun t => q = ellipsePoint false c major ratio (t - Real.pi / 2))
    (fun t => by rw [show t + 2 * Real.pi - Real.pi / 2 = t - Real.pi / 2 + 2 * Real.pi by ring, ellipsePoint_turn])
  simp only [← h3, Vec.degrees_radians] at this
  rw [this]
  simp only [h3, Entity.Has, Between]
  rw [if_pos (by linarith)]
  constructor
  · rintro ⟨t, ⟨g1, g2⟩, rfl⟩
    by_cases hc : 0 ≤ t - Real.pi / 2
    · exact ⟨_, ⟨hc, by linarith⟩, rfl⟩
    · exact ⟨t - Real.pi / 2 + 2 * Real.pi, ⟨by linarith, by linarith⟩, by rw [ellipsePoint_turn]⟩
  · rintro ⟨t, ⟨g1, g2⟩, rfl⟩
    by_cases hc : t + Real.pi / 2 ≤ 2 * Real.pi
    · exact ⟨t + Real.pi / 2, ⟨by linarith, hc⟩, by rw [add_sub_cancel_right]⟩
    · refine ⟨t + Real.pi / 2 - 2 * Real.pi, ⟨by linarith, by linarith⟩, ?_⟩
      rw [show t + Real.pi / 2 - 2 * Real.pi - Real.pi / 2 = t - 2 * Real.pi by ring]
      conv_lhs => rw [show t = t - 2 * Real.pi + 2 * Real.pi by ring]
      rw [ellipsePoint_turn]

/-- C176 fails for every ellipse whose major axis points upwards: the radii are swapped to make the angle null, but the parameters are kept.
The item starts and ends a quarter of a turn before the entity, at other points. -/
theorem ellipse_vertical_wrong (c major : P3) (ratio a b : ℝ) (h : major.1 = 0) (h' : 0 < major.2.1) (hr : 0 < ratio) :
    ∃ e : Ellipse, onEntity (.ellipse false c major ratio a b) = .ok (some (.ellipse e)) ∧
      e.startStopPoint true = some (ellipsePoint false c major ratio (a - Real.pi / 2)) ∧
      e.startStopPoint false = some (ellipsePoint false c major ratio (b - Real.pi / 2)) ∧
      e.startStopPoint true ≠ some (ellipsePoint false c major ratio a) ∧ e.startStopPoint false ≠ some (ellipsePoint false c major ratio b) := by
  obtain ⟨e, h1, h2, h3⟩ := onEllipse_vertical c major ratio a b h h'.le hr.le
  have e1 : e.startStopPoint true = some (ellipsePoint false c major ratio (a - Real.pi / 2)) := by
    simp only [Ellipse.startStopPoint, h2, if_true, h3]
  have e2 : e.startStopPoint false = some (ellipsePoint false c major ratio (b - Real.pi / 2)) := by
    simp only [Ellipse.startStopPoint, h2, Bool.false_eq_true, if_false, h3]
  have key : ∀ t, ellipsePoint false c major ratio (t - Real.pi / 2) ≠ ellipsePoint false c major ratio t := by
    intro t heq
    have hx := congrArg Vec.x heq
    have hy := congrArg Vec.y heq
    simp only [ellipsePoint, h, Bool.false_eq_true, if_false, Real.cos_sub_pi_div_two, Real.sin_sub_pi_div_two] at hx hy
    have hs := Real.sin_sq_add_cos_sq t
    have p : ratio * major.2.1 ≠ 0 := by positivity
    have g1 : Real.cos t = -Real.sin t := by
      apply mul_right_cancel₀ p
      linarith
    have g2 : Real.sin t = Real.cos t := by
      apply mul_right_cancel₀ h'.ne'
      linarith
    nlinarith
  refine ⟨e, by simp only [onEntity, h1], e1, e2, ?_, ?_⟩
  · rw [e1]; exact fun hc => key a (Option.some.inj hc)
  · rw [e2]; exact fun hc => key b (Option.some.inj hc)

/-- C176 fails: an ellipse, even whole, is never closed. -/
theorem ellipse_closed_wrong (m : Bool) (c major : P3) (ratio a b : ℝ) :
    ∃ e : Ellipse, onEntity (.ellipse m c major ratio a b) = .ok (some (.ellipse e)) ∧ e.domain ≠ none := by
  simp only [onEntity, onEllipse]
  split
  · exact ⟨_, rfl, by simp [Ellipse.new]⟩
  · exact ⟨_, rfl, by simp [Ellipse.new]⟩

/-- C176 fails for mirrored entities: the extrusion is not read. A mirrored circle or arc out of the y axis has a point which its item has
not, namely for a circle its top, and an ellipse is drawn in the other direction. -/
theorem mirrored_wrong :
    (∀ (c : P3) (r : ℝ), c.1 ≠ 0 → ∃ i q, onEntity (.circle true c r) = .ok (some i) ∧ (Entity.circle true c r).Has q ∧ ¬ i.Has q) ∧
    (∀ (c major : P3) (ratio a b t : ℝ), (major.1 ≠ 0 ∨ major.2.1 < 0) → 0 < ratio → Real.sin t ≠ 0 →
      ∃ e : Ellipse, onEntity (.ellipse true c major ratio a b) = .ok (some (.ellipse e)) ∧
        e.pointAtAngle (t * (180 / Real.pi)) = ellipsePoint true c major ratio (-t) ∧
        e.pointAtAngle (t * (180 / Real.pi)) ≠ ellipsePoint true c major ratio t) := by
  constructor
  · intro c r hc
    refine ⟨_, ⟨-c.1, c.2.1 + r⟩, rfl, ⟨90, ?_⟩, ?_⟩
    · rw [show (90 : ℝ) * Real.pi / 180 = Real.pi / 2 by ring, Real.cos_pi_div_two, Real.sin_pi_div_two]
      simp [place]
    · simp only [Item.Has, Circle.distanceToPoint, Circle.signedDistanceToPoint, abs_eq_zero, sub_eq_zero, distance_eq, distance, toVector]
      intro hd
      rw [if_neg (by simp)] at hd
      have h0 : 0 ≤ r := hd ▸ Real.sqrt_nonneg _
      rw [Real.sqrt_eq_iff_mul_self_eq (by positivity) h0] at hd
      have : c.1 ^ 2 = 0 := by ring_nf at hd ⊢; linarith
      exact hc (pow_eq_zero_iff (two_ne_zero) |>.1 this)
  · intro c major ratio a b t hm hr ht
    obtain ⟨e, h1, h2, h3⟩ := onEllipse_tilted c major ratio a b hm hr.le
    have e1 : e.pointAtAngle (t * (180 / Real.pi)) = ellipsePoint true c major ratio (-t) := by
      refine (h3 t).trans ?_
      simp only [ellipsePoint, Bool.false_eq_true, if_false, if_true, Real.cos_neg, Real.sin_neg]
      ext <;> simp
    refine ⟨e, by simp only [onEntity, h1], e1, ?_⟩
    rw [e1]
    intro heq
    have hx := congrArg Vec.x heq
    have hy := congrArg Vec.y heq
    simp only [ellipsePoint, if_true, Real.cos_neg, Real.sin_neg] at hx hy
    have p : Real.sin t * ratio ≠ 0 := mul_ne_zero ht hr.ne'
    have g1 : major.1 = 0 := by
      apply mul_left_cancel₀ p
      linarith
    have g2 : major.2.1 = 0 := by
      apply mul_left_cancel₀ p
      linarith
    rcases hm with hm | hm
    · exact hm g1
    · exact hm.ne g2

/-- C176 fails for every arc with a negative start that crosses the origin: the points of the arc before the origin are not points of the item. -/
theorem arc_range_wrong (c : P3) (r : ℝ) (hr : 0 < r) (a b : ℝ) (ha : -360 < a) (ha' : a < 0) (hb : 0 ≤ b) (hb' : b < a + 360) :
    ∃ i q, onEntity (.arc false c r a b) = .ok (some i) ∧ (Entity.arc false c r a b).Has q ∧ ¬ i.Has q := by
  obtain ⟨h1, h2⟩ := distance_arc_wrong (toVector c) r hr a b ha ha' hb hb' (a / 2 + 360) (by linarith) (by linarith)
  refine ⟨_, _, rfl, ?_, h2⟩
  obtain ⟨s, s0, s1, hs⟩ := h1
  refine ⟨a + s, ⟨by linarith, ?_⟩, ?_⟩
  · rw [if_pos (by linarith)]
    linarith
  · rw [place_false, ← hs]

/-! ## C177 -/

/-- C177, splines with uniform knots and without weights: every point of the item inside its range is the one of the curve of the file. -/
theorem spline_points_partial (points : List P3) (degree : Nat) (closed : Bool) (knots : List ℝ) (fit : List P3)
    (hn : degree < points.length) (hk : StandardKnots degree points.length knots) :
    ∃ s, onEntity (.spline points degree closed knots [] fit) = .ok (some (.spline s)) ∧
      ∀ t : ℝ, 0 ≤ t → t < (points.length : ℝ) - degree → s.pointAt t = .ok (Spline.curve knots degree (plane points) t) := by
  obtain ⟨s, h1, h2, h3, h4, -, h5, h6⟩ := (onSpline_eq points degree closed).2 (by omega)
  refine ⟨s, by simp only [onEntity, h1]; rfl, ?_⟩
  intro t t0 t1
  have hkn : s.knots = knots := by
    apply List.ext_getElem?
    intro i
    by_cases hi : i < points.length + degree + 1
    · rw [h5.2 i hi, hk.2 i hi]
    · rw [List.getElem?_eq_none (by rw [h5.1]; omega), List.getElem?_eq_none (by rw [hk.1]; omega)]
  obtain ⟨hv, hrange, -⟩ := Spline.pointAt_uniform s h6
  have hl : s.points.length = points.length := by rw [h2]; simp [plane]
  have := Spline.pointAt_curve s hv t ((hrange t).2 ⟨t0, by rw [hl, h3]; exact t1⟩)
  rw [this, hkn, h3, h2]

/-- C177 fails: whatever the knots, the weights and the fit points of the file, the imported curve is the same one. -/
theorem spline_data_wrong (points : List P3) (degree : Nat) (closed : Bool) (knots knots' weights weights' : List ℝ) (fit fit' : List P3) :
    onEntity (.spline points degree closed knots weights fit) = onEntity (.spline points degree closed knots' weights' fit') := rfl

/-- C177 fails for other knots: the knots of the file are not read, and a point of the curve of the file is not on the imported curve. -/
theorem spline_knots_wrong :
    let points : List P3 := [(0, 1, 0), (0, 0, 0), (1, 0, 0), (1, 1, 0)]
    let knots : List ℝ := [0, 0, 0, 1, 4, 4, 4]
    ∃ s, onEntity (.spline points 2 false knots [] []) = .ok (some (.spline s)) ∧
      Spline.curve knots 2 (plane points) 1 = ⟨1 / 4, 0⟩ ∧ ∀ t, s.pointAt t ≠ .ok ⟨1 / 4, 0⟩ := by
  intro points knots
  obtain ⟨s, h1, h2, h3, h4, -, h5, h6⟩ := (onSpline_eq points 2 false).2 (by simp [points])
  refine ⟨s, by simp only [onEntity, h1]; rfl, ?_, ?_⟩
  · simp only [Spline.curve, Spline.weighted, plane, points, knots, Spline.N, Spline.knotAt, List.map_cons, List.map_nil, List.length_cons,
      List.length_nil, Finset.sum_range_succ, Finset.sum_range_zero]
    norm_num
  · intro t ht
    obtain ⟨hv, hrange, -, ⟨p, hp1, hp2⟩, hout⟩ := Spline.pointAt_uniform s h6
    have hl : s.points.length = 4 := by rw [h2]; rfl
    rw [h3, hl] at hp2 hout
    have e2 : ((4 : Nat) : ℝ) - (2 : Nat) = 2 := by norm_num
    rw [e2] at hp2 hout
    by_cases hr : 0 ≤ t ∧ t < 2
    · rw [Spline.pointAt_curve s hv t ((hrange t).2 ⟨hr.1, by rw [hl, h3, e2]; exact hr.2⟩)] at ht
      injection ht with ht
      have hk : s.knots = [0, 0, 0, 1, 2, 2, 2] := by
        apply List.ext_getElem?
        intro i
        have := h5.2 i
        by_cases hi : i < 7
        · rw [this (by simp [points]; omega)]
          interval_cases i <;> simp [points]
        · rw [List.getElem?_eq_none (by rw [h5.1]; simp [points]; omega), List.getElem?_eq_none (by simp; omega)]
      rw [hk, h3, h2] at ht
      have hx := congrArg Vec.x ht
      have hy := congrArg Vec.y ht
      simp only [Spline.curve, Spline.weighted, plane, points, Spline.N, Spline.knotAt, List.map_cons, List.map_nil, List.length_cons,
        List.length_nil, Finset.sum_range_succ, Finset.sum_range_zero] at hx hy
      obtain ⟨t0, t2⟩ := hr
      by_cases h1 : t < 1
      · norm_num [t0, t2, h1, not_le.2 h1] at hx hy
        nlinarith
      · rw [not_lt] at h1
        norm_num [t0, t2, h1, not_lt.2 h1, not_lt.2 t0] at hx hy
        nlinarith
    · have : t = 2 ∨ t < 0 ∨ 2 < t := by
        by_cases g : t < 0
        · exact .inr (.inl g)
        · rcases lt_trichotomy t 2 with g2 | g2 | g2
          · exact absurd ⟨not_lt.1 g, g2⟩ hr
          · exact .inl g2
          · exact .inr (.inr g2)
      rcases this with rfl | hout'
      · rw [hp2] at ht
        injection ht with ht
        rw [h2] at hp1
        simp only [plane, points, List.map_cons, List.map_nil, List.getLast?_cons_cons, List.getLast?_singleton, Option.some.injEq] at hp1
        rw [← hp1] at ht
        have := congrArg Vec.y ht
        norm_num at this
      · rw [hout t hout'] at ht
        cases ht

/-- C177 fails for a spline which is defined by points to pass through: it has no control points, and it makes the importer refuse the
file. -/
theorem spline_fit_wrong (pre post : List Entity) (degree : Nat) (closed : Bool) (knots weights : List ℝ) (fit : List P3) :
    ∃ err, new (pre ++ .spline [] degree closed knots weights fit :: post) = .error err :=
  ((import_refused _).2).2 ⟨.spline [] degree closed knots weights fit, by simp, Nat.zero_le _⟩

/-! ## Examples -/

/-- A drawing with a line, an arc, a text and a tilted ellipse is read. -/
example : ∃ items, new [.line (0, 0, 0) (1, 2, 0), .arc false (0, 0, 0) 1 350 10, .other "TEXT", .ellipse false (0, 0, 0) (2, 1, 0) (1 / 2) 0 3] =
    .ok items ∧ items.length = 3 := ⟨_, rfl, rfl⟩

example : Usual (.arc false (0, 0, 0) 1 350 10) := by norm_num [Usual]

example : Usual (.ellipse false (0, 0, 0) (2, 1, 0) (1 / 2) 0 3) := by
  have := Real.pi_gt_three
  refine ⟨rfl, ?_, le_rfl, ?_, ?_, ?_, ?_, .inl ?_⟩ <;> norm_num <;> linarith

/-- The knots of four points of degree two. -/
example : StandardKnots 2 4 [0, 0, 0, 1, 2, 2, 2] := by
  refine ⟨rfl, ?_⟩
  intro i hi
  interval_cases i <;> simp

end Patro.DxfImport
