import Verif.Props.ScenePath
import Verif.Model.PathShapes
/-! # The rounded rectangles and the circles made of paths -/

namespace Patro.SceneGeometry

open Conic Transformation

/-- The path of `rounded_rectangle`. -/
noncomputable def rectanglePath (point : Vec ℝ) (width height radius : ℝ) : Path.Path ℝ := ⟨point,
  [.dir ⟨1, 0⟩ width (some |radius|) true, .dir ⟨0, 1⟩ height (some |radius|) false, .dir ⟨1, 0⟩ (-width) (some |radius|) false,
    .line point true (some |radius|) true false], true⟩

theorem rectangle_eq (point : Vec ℝ) (width height radius : ℝ) :
    Path.roundedRectangle point width height (some radius) = (.ok (some 3), rectanglePath point width height radius) ∧
    Path.Reach (rectanglePath point width height radius) := by
  have e : (((((Path.Path.new point).horizontalTo width).2.verticalTo height (some radius)).2.horizontalTo (-width) (some radius)).2.close
      (some radius) (some radius)).2 = rectanglePath point width height radius := by
    simp [rectanglePath, Path.Path.horizontalTo, Path.Path.verticalTo, Path.Path.addPart, Path.Path.new, Path.setRadius, Path.Part.radius,
      Path.Part.isLinear, Path.Path.close, Path.Path.closeStart, Path.Part.close]
  constructor
  · simp [rectanglePath, Path.roundedRectangle, Path.Path.horizontalTo, Path.Path.verticalTo, Path.Path.addPart, Path.Path.new, Path.setRadius,
      Path.Part.radius, Path.Part.isLinear, Path.Path.close, Path.Path.closeStart, Path.Part.close]
  · rw [← e]
    exact .close _ _ _ (.horizontal _ _ _ _ (.vertical _ _ _ _ (.horizontal _ _ _ _ (.new _))))

/-- The arc is the quarter of the circle which starts in the direction `u` from the centre, a unit vector, and goes counter-clockwise. -/
def Quarter (center : Vec ℝ) (radius start stop : ℝ) (u : Vec ℝ) : Prop :=
  Domain.sweep ⟨start, stop⟩ = 90 ∧ onCircle center radius start = center + u.smul radius

/-- A right angle turned to the left is rounded by a quarter of a circle. -/
theorem rounds_right (c e : Vec ℝ) (w h r : ℝ) (arc : Arc) (hw : 0 < w) (hh : 0 < h) (hr : 0 < r) (he : e.x ^ 2 + e.y ^ 2 = 1)
    (hR : Rounds (c + e.smul w) c (c + (⟨e.y, -e.x⟩ : Vec ℝ).smul h) r arc) :
    arc.p = c + e.smul r ∧ arc.q = c + (⟨e.y, -e.x⟩ : Vec ℝ).smul r ∧ arc.center = c + e.smul r + (⟨e.y, -e.x⟩ : Vec ℝ).smul r ∧
      Domain.sweep ⟨arc.start, arc.stop⟩ = 90 ∧ arc.p = onCircle arc.center r arc.start ∧ arc.q = onCircle arc.center r (arc.start + 90) := by
  obtain ⟨⟨k, hk, hp⟩, ⟨k', hk', hq⟩, hs, t1, t2, ⟨s1, s2⟩, hl, -⟩ := hR
  obtain ⟨cx, cy⟩ := c
  obtain ⟨ex, ey⟩ := e
  obtain ⟨⟨gx, gy⟩, start, stop, ⟨px, py⟩, ⟨qx, qy⟩⟩ := arc
  have hcross : 0 < ((⟨cx, cy⟩ : Vec ℝ) - (⟨cx, cy⟩ + (⟨ex, ey⟩ : Vec ℝ).smul w)).cross
      ((⟨cx, cy⟩ : Vec ℝ) + (⟨ey, -ex⟩ : Vec ℝ).smul h - ⟨cx, cy⟩) := by
    simp only [Vec.cross, Vec.sub_x, Vec.sub_y, Vec.add_x, Vec.add_y, Vec.smul_x, Vec.smul_y] at he ⊢
    have : 0 < w * h * (ex ^ 2 + ey ^ 2) := by rw [he]; positivity
    nlinarith
  obtain ⟨hp1, hq1⟩ := hl hcross
  generalize Domain.sweep ⟨start, stop⟩ = sw at *
  simp only [Vec.ext_iff, onCircle, Vec.dot, Vec.sub_x, Vec.sub_y, Vec.add_x, Vec.add_y, Vec.smul_x, Vec.smul_y] at *
  obtain ⟨hpx, hpy⟩ := hp
  obtain ⟨hqx, hqy⟩ := hq
  have hd : (k * w) ^ 2 = (k' * h) ^ 2 := by
    unfold distance at hs
    rw [Real.sqrt_inj (by positivity) (by positivity)] at hs
    simp only [hpx, hpy, hqx, hqy] at hs
    linear_combination hs + ((k' * h) ^ 2 - (k * w) ^ 2) * he
  have hm : k' * h = k * w := by
    have := abs_eq_abs.2 ((sq_eq_sq_iff_eq_or_eq_neg).1 hd)
    rw [abs_of_pos (by positivity), abs_of_pos (by positivity)] at this
    exact this.symm
  obtain ⟨m, hmk⟩ : ∃ m, m = k * w := ⟨_, rfl⟩
  have hm0 : 0 < m := by rw [hmk]; positivity
  rw [← hmk] at hm
  have px' : px = cx + m * ex := by rw [hpx, hmk]; ring
  have py' : py = cy + m * ey := by rw [hpy, hmk]; ring
  have qx' : qx = cx + m * ey := by rw [hqx, ← hm]; ring
  have qy' : qy = cy - m * ex := by rw [hqy, ← hm]; ring
  have u1 : (gx - px) * ex + (gy - py) * ey = 0 := by
    have : w * ((gx - px) * ex + (gy - py) * ey) = 0 := by linear_combination -t1
    exact (mul_eq_zero.1 this).resolve_left hw.ne'
  have u2 : (gx - qx) * ey - (gy - qy) * ex = 0 := by
    have : h * ((gx - qx) * ey - (gy - qy) * ex) = 0 := by linear_combination t2
    exact (mul_eq_zero.1 this).resolve_left hh.ne'
  rw [px', py'] at u1
  rw [qx', qy'] at u2
  have gx' : gx = cx + m * ex + m * ey := by linear_combination ex * u1 + ey * u2 + (m * ex + m * ey - gx + cx) * he
  have gy' : gy = cy + m * ey - m * ex := by linear_combination ey * u1 - ex * u2 + (m * ey - m * ex - gy + cy) * he
  obtain ⟨a1, a2⟩ := hp1
  obtain ⟨b1, b2⟩ := hq1
  have hr2 : r ^ 2 = m ^ 2 := by
    have c1 : r * Real.cos (start * Real.pi / 180) = - (m * ey) := by linear_combination -a1 + px' - gx'
    have c2 : r * Real.sin (start * Real.pi / 180) = m * ex := by linear_combination -a2 + py' - gy'
    have := Real.sin_sq_add_cos_sq (start * Real.pi / 180)
    calc r ^ 2 = (r * Real.cos (start * Real.pi / 180)) ^ 2 + (r * Real.sin (start * Real.pi / 180)) ^ 2 := by
          linear_combination -r ^ 2 * this
      _ = m ^ 2 := by rw [c1, c2]; linear_combination m ^ 2 * he
  have hrm : m = r := by
    rw [sq_eq_sq₀ hr.le hm0.le] at hr2
    exact hr2.symm
  subst hrm
  have hsw : sw = 90 := by
    have e1 : (start + sw) * Real.pi / 180 - start * Real.pi / 180 = sw * Real.pi / 180 := by ring
    have hc : Real.cos (sw * Real.pi / 180) = 0 := by
      rw [← e1, Real.cos_sub]
      have c1 : m * Real.cos (start * Real.pi / 180) = - (m * ey) := by linear_combination -a1 + px' - gx'
      have c2 : m * Real.sin (start * Real.pi / 180) = m * ex := by linear_combination -a2 + py' - gy'
      have d1 : m * Real.cos ((start + sw) * Real.pi / 180) = - (m * ex) := by linear_combination -b1 + qx' - gx'
      have d2 : m * Real.sin ((start + sw) * Real.pi / 180) = - (m * ey) := by linear_combination -b2 + qy' - gy'
      have : m ^ 2 * (Real.cos ((start + sw) * Real.pi / 180) * Real.cos (start * Real.pi / 180) +
          Real.sin ((start + sw) * Real.pi / 180) * Real.sin (start * Real.pi / 180)) = 0 := by
        calc _ = (m * Real.cos ((start + sw) * Real.pi / 180)) * (m * Real.cos (start * Real.pi / 180)) +
            (m * Real.sin ((start + sw) * Real.pi / 180)) * (m * Real.sin (start * Real.pi / 180)) := by ring
          _ = 0 := by rw [c1, c2, d1, d2]; ring
      exact (mul_eq_zero.1 this).resolve_left (by positivity)
    have hpi := Real.pi_pos
    have hi := Real.injOn_cos (x₁ := sw * Real.pi / 180) (x₂ := Real.pi / 2) ⟨by positivity, by nlinarith⟩ ⟨by positivity, by linarith⟩
      (by rw [hc, Real.cos_pi_div_two])
    have : Real.pi * (sw - 90) = 0 := by linear_combination 180 * hi
    linarith [(mul_eq_zero.1 this).resolve_left hpi.ne']
  subst hsw
  exact ⟨⟨px', py'⟩, ⟨qx', by rw [qy']; ring⟩, ⟨gx', by rw [gy']; ring⟩, rfl, ⟨a1, a2⟩, ⟨b1, b2⟩⟩

/-- C243. A rounded rectangle is drawn, counter-clockwise from its first corner, as four quarters of circles of the given radius, tangent to
the sides, and four segments on the sides, each one from where a quarter stops to where the next one starts. -/
theorem rounded_rectangle_items (point : Vec ℝ) (width height radius : ℝ) (hw : 0 < width) (hh : 0 < height) (hr : 0 < radius) :
    ∃ path s0 t0 s1 t1 s2 t2 s3 t3, Path.roundedRectangle point width height (some radius) = (.ok (some 3), path) ∧
      addAsPathSegments path = ([
        .circle ⟨point.x + radius, point.y + radius⟩ radius s0 t0,
        .segment ⟨point.x + radius, point.y⟩ ⟨point.x + width - radius, point.y⟩,
        .circle ⟨point.x + width - radius, point.y + radius⟩ radius s1 t1,
        .segment ⟨point.x + width, point.y + radius⟩ ⟨point.x + width, point.y + height - radius⟩,
        .circle ⟨point.x + width - radius, point.y + height - radius⟩ radius s2 t2,
        .segment ⟨point.x + width - radius, point.y + height⟩ ⟨point.x + radius, point.y + height⟩,
        .circle ⟨point.x + radius, point.y + height - radius⟩ radius s3 t3,
        .segment ⟨point.x, point.y + height - radius⟩ ⟨point.x, point.y + radius⟩], .ok ()) ∧
      Quarter ⟨point.x + radius, point.y + radius⟩ radius s0 t0 ⟨-1, 0⟩ ∧
      Quarter ⟨point.x + width - radius, point.y + radius⟩ radius s1 t1 ⟨0, -1⟩ ∧
      Quarter ⟨point.x + width - radius, point.y + height - radius⟩ radius s2 t2 ⟨1, 0⟩ ∧
      Quarter ⟨point.x + radius, point.y + height - radius⟩ radius s3 t3 ⟨0, 1⟩ := by
  obtain ⟨h1, h2⟩ := rectangle_eq point width height radius
  have hne : width ≠ 0 := hw.ne'
  have hhe : height ≠ 0 := hh.ne'
  have ht : Path.trace (rectanglePath point width height radius).p0 (rectanglePath point width height radius).parts = some
      [[point, ⟨point.x + width, point.y⟩], [⟨point.x + width, point.y⟩, ⟨point.x + width, point.y + height⟩],
        [⟨point.x + width, point.y + height⟩, ⟨point.x, point.y + height⟩], [⟨point.x, point.y + height⟩, point]] := by
    simp [rectanglePath, Path.trace, Path.draw, Vec.ext_iff]
  have hro : ∀ i, rounded (rectanglePath point width height radius).parts i = if i < 4 then some radius else none := by
    intro i
    rcases i with _ | _ | _ | _ | i <;> simp [rounded, rectanglePath, Path.Part.radius, abs_of_pos hr]
  obtain ⟨arcs, ha, hitems⟩ := path_items_partial _ h2 _ ht (by simp [rectanglePath, isArc])
    ⟨by intro i p a r b hi; rcases i with _ | _ | _ | _ | i <;> simp [rectanglePath] at hi ⊢, fun _ => ⟨_, _, _, _, rfl⟩⟩
    (by
      intro i r hi
      rw [hro] at hi
      split at hi
      · cases hi
        refine ⟨hr, ?_⟩
        rcases i with _ | _ | _ | _ | i
        all_goals first | omega | simp [startOf, stopOf, beforeOf, Vec.cross, hne, hhe]
      · cases hi)
  have k : ∀ i (c e : Vec ℝ) (w h : ℝ), i < 4 → 0 < w → 0 < h → e.x ^ 2 + e.y ^ 2 = 1 →
      startOf [[point, ⟨point.x + width, point.y⟩], [⟨point.x + width, point.y⟩, ⟨point.x + width, point.y + height⟩],
        [⟨point.x + width, point.y + height⟩, ⟨point.x, point.y + height⟩], [⟨point.x, point.y + height⟩, point]] i = c →
      beforeOf [[point, ⟨point.x + width, point.y⟩], [⟨point.x + width, point.y⟩, ⟨point.x + width, point.y + height⟩],
        [⟨point.x + width, point.y + height⟩, ⟨point.x, point.y + height⟩], [⟨point.x, point.y + height⟩, point]] i = c + e.smul w →
      stopOf [[point, ⟨point.x + width, point.y⟩], [⟨point.x + width, point.y⟩, ⟨point.x + width, point.y + height⟩],
        [⟨point.x + width, point.y + height⟩, ⟨point.x, point.y + height⟩], [⟨point.x, point.y + height⟩, point]] i =
          c + (⟨e.y, -e.x⟩ : Vec ℝ).smul h →
      (arcs i).p = c + e.smul radius ∧ (arcs i).q = c + (⟨e.y, -e.x⟩ : Vec ℝ).smul radius ∧
        (arcs i).center = c + e.smul radius + (⟨e.y, -e.x⟩ : Vec ℝ).smul radius ∧
        Quarter (arcs i).center radius (arcs i).start (arcs i).stop ⟨-e.y, e.x⟩ := by
    intro i c e w h hi hw hh he h1 h2 h3
    have := ha i radius (by rw [hro, if_pos hi])
    rw [h1, h2, h3] at this
    obtain ⟨r1, r2, r3, r4, r5, -⟩ := rounds_right c e w h radius (arcs i) hw hh hr he this
    refine ⟨r1, r2, r3, r4, ?_⟩
    rw [← r5, r1, r3]
    ext <;> simp
  obtain ⟨p0, q0, c0, g0⟩ := k 0 point ⟨0, 1⟩ height width (by decide) hh hw (by norm_num) rfl (by simp [beforeOf, startOf, Vec.ext_iff])
    (by simp [stopOf, Vec.ext_iff])
  obtain ⟨p1, q1, c1, g1⟩ := k 1 ⟨point.x + width, point.y⟩ ⟨-1, 0⟩ width height (by decide) hw hh (by norm_num) rfl
    (by simp [beforeOf, startOf, Vec.ext_iff]) (by simp [stopOf, Vec.ext_iff])
  obtain ⟨p2, q2, c2, g2⟩ := k 2 ⟨point.x + width, point.y + height⟩ ⟨0, -1⟩ height width (by decide) hh hw (by norm_num) rfl
    (by simp [beforeOf, startOf, Vec.ext_iff]) (by simp [stopOf, Vec.ext_iff])
  obtain ⟨p3, q3, c3, g3⟩ := k 3 ⟨point.x, point.y + height⟩ ⟨1, 0⟩ width height (by decide) hw hh (by norm_num) rfl
    (by simp [beforeOf, startOf, Vec.ext_iff]) (by simp [stopOf, Vec.ext_iff])
  replace c0 : (arcs 0).center = ⟨point.x + radius, point.y + radius⟩ := by rw [c0]; ext <;> simp
  replace c1 : (arcs 1).center = ⟨point.x + width - radius, point.y + radius⟩ := by rw [c1]; ext <;> simp [sub_eq_add_neg]
  replace c2 : (arcs 2).center = ⟨point.x + width - radius, point.y + height - radius⟩ := by rw [c2]; ext <;> simp [sub_eq_add_neg]
  replace c3 : (arcs 3).center = ⟨point.x + radius, point.y + height - radius⟩ := by rw [c3]; ext <;> simp [sub_eq_add_neg]
  rw [c0] at g0
  rw [c1] at g1
  rw [c2] at g2
  rw [c3] at g3
  refine ⟨_, (arcs 0).start, (arcs 0).stop, (arcs 1).start, (arcs 1).stop, (arcs 2).start, (arcs 2).stop, (arcs 3).start, (arcs 3).stop, h1, ?_,
    by simpa using g0, by simpa using g1, by simpa using g2, by simpa using g3⟩
  rw [hitems]
  have hlen : (rectanglePath point width height radius).parts.length = 4 := rfl
  rw [hlen]
  simp only [List.range_succ, List.range_zero, List.nil_append, List.flatMap_append, List.flatMap_cons, List.flatMap_nil, List.append_nil,
    expected, hro, hlen]
  norm_num [c0, c1, c2, c3, p0, p1, p2, p3, q0, q1, q2, q3, Vec.ext_iff]
  refine ⟨?_, ?_, ?_, ?_⟩ <;> ring

/-- The points of a quarter of a circle. -/
theorem quarter_points (center : Vec ℝ) (radius start stop : ℝ) (u : Vec ℝ) (hr : 0 < radius) (h : Quarter center radius start stop u) :
    arcPoints center radius start (Domain.sweep ⟨start, stop⟩) =
      {q | ∃ a b : ℝ, 0 ≤ a ∧ 0 ≤ b ∧ a ^ 2 + b ^ 2 = 1 ∧ q = center + u.smul (radius * a) + (⟨-u.y, u.x⟩ : Vec ℝ).smul (radius * b)} := by
  obtain ⟨hs, ho⟩ := h
  have hc : Real.cos (start * Real.pi / 180) = u.x := by
    have := congrArg Vec.x ho
    simp only [onCircle, Vec.add_x, Vec.smul_x, add_right_inj] at this
    exact mul_left_cancel₀ hr.ne' this
  have hn : Real.sin (start * Real.pi / 180) = u.y := by
    have := congrArg Vec.y ho
    simp only [onCircle, Vec.add_y, Vec.smul_y, add_right_inj] at this
    exact mul_left_cancel₀ hr.ne' this
  have key : ∀ s, onCircle center radius (start + s) = center + u.smul (radius * Real.cos (s * Real.pi / 180)) +
      (⟨-u.y, u.x⟩ : Vec ℝ).smul (radius * Real.sin (s * Real.pi / 180)) := by
    intro s
    have e : (start + s) * Real.pi / 180 = start * Real.pi / 180 + s * Real.pi / 180 := by ring
    ext <;> simp only [onCircle, Vec.add_x, Vec.add_y, Vec.smul_x, Vec.smul_y, e, Real.cos_add, Real.sin_add, hc, hn] <;> ring
  have hpi := Real.pi_pos
  rw [hs]
  ext q
  simp only [arcPoints, Set.mem_setOf_eq]
  constructor
  · rintro ⟨s, h0, h90, rfl⟩
    refine ⟨Real.cos (s * Real.pi / 180), Real.sin (s * Real.pi / 180), ?_, ?_, ?_, key s⟩
    · exact Real.cos_nonneg_of_neg_pi_div_two_le_of_le (by nlinarith) (by nlinarith)
    · exact Real.sin_nonneg_of_nonneg_of_le_pi (by positivity) (by nlinarith)
    · rw [add_comm]; exact Real.sin_sq_add_cos_sq _
  · rintro ⟨a, b, ha, hb, hab, rfl⟩
    have ha1 : a ≤ 1 := by nlinarith
    refine ⟨Real.arccos a * 180 / Real.pi, by have := Real.arccos_nonneg a; positivity, ?_, ?_⟩
    · rw [div_le_iff₀ hpi]
      have := Real.arccos_le_pi_div_two.2 ha
      linarith
    · have e : Real.arccos a * 180 / Real.pi * Real.pi / 180 = Real.arccos a := by field_simp
      rw [key, e, Real.cos_arccos (by linarith) ha1, Real.sin_arccos]
      have : 1 - a ^ 2 = b ^ 2 := by linarith
      rw [this, Real.sqrt_sq hb]

/-- C243. `Path2D.circle(point, radius)` is drawn as four quarters of one circle, and segments without length: the points of the quarters are
those of the circle inscribed in the square whose first corner is the point. -/
theorem circle_items (point : Vec ℝ) (radius : ℝ) (hr : 0 < radius) :
    ∃ path center s0 t0 s1 t1 s2 t2 s3 t3 p0 p1 p2 p3, Path.circle point radius = (.ok (some 3), path) ∧
      center = ⟨point.x + radius, point.y + radius⟩ ∧
      addAsPathSegments path = ([.circle center radius s0 t0, .segment p0 p0, .circle center radius s1 t1, .segment p1 p1,
        .circle center radius s2 t2, .segment p2 p2, .circle center radius s3 t3, .segment p3 p3], .ok ()) ∧
      (∀ p ∈ [p0, p1, p2, p3], p ∈ circlePoints center radius) ∧
      arcPoints center radius s0 (Domain.sweep ⟨s0, t0⟩) ∪ arcPoints center radius s1 (Domain.sweep ⟨s1, t1⟩) ∪
        arcPoints center radius s2 (Domain.sweep ⟨s2, t2⟩) ∪ arcPoints center radius s3 (Domain.sweep ⟨s3, t3⟩) =
        circlePoints center radius := by
  obtain ⟨path, s0, t0, s1, t1, s2, t2, s3, t3, h1, h2, g0, g1, g2, g3⟩ :=
    rounded_rectangle_items point (2 * radius) (2 * radius) radius (by linarith) (by linarith) hr
  have ex : point.x + 2 * radius - radius = point.x + radius := by ring
  have ey : point.y + 2 * radius - radius = point.y + radius := by ring
  rw [ex, ey] at h2
  rw [ex] at g1
  rw [ex, ey] at g2
  rw [ey] at g3
  refine ⟨path, ⟨point.x + radius, point.y + radius⟩, s0, t0, s1, t1, s2, t2, s3, t3, _, _, _, _, h1, rfl, h2, ?_, ?_⟩
  · intro p hp
    simp only [List.mem_cons, List.not_mem_nil, or_false] at hp
    have key : ∀ x y : ℝ, x ^ 2 + y ^ 2 = radius ^ 2 → (⟨point.x + radius + x, point.y + radius + y⟩ : Vec ℝ) ∈
        circlePoints ⟨point.x + radius, point.y + radius⟩ radius := by
      intro x y e
      show distance _ _ = radius
      unfold distance
      rw [show (point.x + radius + x - (point.x + radius)) ^ 2 + (point.y + radius + y - (point.y + radius)) ^ 2 = radius ^ 2 by
        rw [← e]; ring, Real.sqrt_sq hr.le]
    rcases hp with rfl | rfl | rfl | rfl
    · convert key 0 (-radius) (by ring) using 2 <;> ring
    · convert key radius 0 (by ring) using 2 <;> ring
    · convert key 0 radius (by ring) using 2 <;> ring
    · convert key (-radius) 0 (by ring) using 2 <;> ring
  · rw [quarter_points _ _ _ _ _ hr g0, quarter_points _ _ _ _ _ hr g1, quarter_points _ _ _ _ _ hr g2, quarter_points _ _ _ _ _ hr g3]
    ext q
    simp only [Set.mem_union, Set.mem_setOf_eq, circlePoints, distance]
    rw [Real.sqrt_eq_iff_mul_self_eq (by positivity) hr.le]
    constructor
    · rintro (((⟨a, b, -, -, hab, rfl⟩ | ⟨a, b, -, -, hab, rfl⟩) | ⟨a, b, -, -, hab, rfl⟩) | ⟨a, b, -, -, hab, rfl⟩) <;>
        simp <;> linear_combination radius ^ 2 * hab
    · intro h
      have hab : ((q.x - (point.x + radius)) / radius) ^ 2 + ((q.y - (point.y + radius)) / radius) ^ 2 = 1 := by
        field_simp
        linarith
      obtain ⟨a, ea⟩ : ∃ a, a = (q.x - (point.x + radius)) / radius := ⟨_, rfl⟩
      obtain ⟨b, eb⟩ : ∃ b, b = (q.y - (point.y + radius)) / radius := ⟨_, rfl⟩
      rw [← ea, ← eb] at hab
      have qx : q.x = point.x + radius + radius * a := by rw [ea]; field_simp; ring
      have qy : q.y = point.y + radius + radius * b := by rw [eb]; field_simp; ring
      rcases le_total 0 a with ha | ha <;> rcases le_total 0 b with hb | hb
      · exact .inl (.inr ⟨a, b, ha, hb, hab, by ext <;> simp [qx, qy]⟩)
      · exact .inl (.inl (.inr ⟨-b, a, by linarith, ha, by linarith, by ext <;> simp [qx, qy]⟩))
      · exact .inr ⟨b, -a, hb, by linarith, by linarith, by ext <;> simp [qx, qy]⟩
      · exact .inl (.inl (.inl ⟨-a, -b, by linarith, by linarith, by linarith, by ext <;> simp [qx, qy]⟩))

/-- C243 fails if the point is taken as the centre, as for the circles of the library: the centre of the circle which is drawn is never the
point. -/
theorem circle_center_wrong (point : Vec ℝ) (radius : ℝ) (hr : 0 < radius) :
    ∃ path center s t rest, Path.circle point radius = (.ok (some 3), path) ∧
      addAsPathSegments path = (.circle center radius s t :: rest, .ok ()) ∧ center ≠ point := by
  obtain ⟨path, center, s0, t0, s1, t1, s2, t2, s3, t3, p0, p1, p2, p3, h1, h2, h3, -⟩ := circle_items point radius hr
  refine ⟨path, center, s0, t0, _, h1, h3, fun h => ?_⟩
  have := congrArg Vec.x (h2.symm.trans h)
  simp only at this
  linarith

example : ∃ path center s0 t0 rest, Path.circle ⟨1, 1⟩ (2 : ℝ) = (.ok (some 3), path) ∧ center = ⟨3, 3⟩ ∧
    addAsPathSegments path = (.circle center 2 s0 t0 :: rest, .ok ()) := by
  obtain ⟨path, center, s0, t0, s1, t1, s2, t2, s3, t3, p0, p1, p2, p3, h1, h2, h3, -⟩ := circle_items ⟨1, 1⟩ 2 (by norm_num)
  exact ⟨path, center, s0, t0, _, h1, by rw [h2]; norm_num, h3⟩

end Patro.SceneGeometry
