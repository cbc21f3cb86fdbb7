import Verif.Spec.Dxf
import Verif.Props.PathBulge
import Verif.Proof.IterTools
/-! # DXF polylines -/

namespace Patro.Dxf

open Conic MathFunctions

theorem direction_frame (p q : Vec ℝ) (h : p ≠ q) : ∃ (u : Vec ℝ) (L : ℝ), 0 < L ∧ u.x ^ 2 + u.y ^ 2 = 1 ∧
    (q - p).toNormalised = some u ∧ (q - p).magnitude / 2 = L ∧ q.x = p.x + 2 * L * u.x ∧ q.y = p.y + 2 * L * u.y := by
  have hne : q - p ≠ 0 := by
    intro h0
    apply h
    have hx := congrArg Vec.x h0
    have hy := congrArg Vec.y h0
    simp only [Vec.sub_x, Vec.sub_y, Vec.zero_x, Vec.zero_y] at hx hy
    ext <;> linarith
  have hp := Vec.magnitude_pos _ hne
  have hsq := Vec.magnitude_sq (q - p)
  unfold Vec.magnitudeSquare at hsq
  simp only [Vec.sub_x, Vec.sub_y] at hsq
  refine ⟨(q - p).sdiv (q - p).magnitude, (q - p).magnitude / 2, by positivity, ?_, if_neg hp.ne', rfl, ?_, ?_⟩
  · simp only [Vec.sdiv_x, Vec.sdiv_y, Vec.sub_x, Vec.sub_y, div_pow]
    rw [← add_div, div_eq_one_iff_eq (by positivity)]
    linarith
  · simp only [Vec.sdiv_x, Vec.sub_x]
    field_simp
    ring
  · simp only [Vec.sdiv_y, Vec.sub_y]
    field_simp
    ring

/-- The cosine and the sine of twice the arc tangent. -/
theorem cos_sin_two_arctan (b : ℝ) :
    Real.cos (2 * Real.arctan b) * (1 + b ^ 2) = 1 - b ^ 2 ∧ Real.sin (2 * Real.arctan b) * (1 + b ^ 2) = 2 * b := by
  have hc := Real.cos_arctan_pos b
  have ht : Real.sin (Real.arctan b) = b * Real.cos (Real.arctan b) := by
    have := Real.tan_arctan b
    rw [Real.tan_eq_sin_div_cos, div_eq_iff hc.ne'] at this
    exact this
  have h1 := Real.sin_sq_add_cos_sq (Real.arctan b)
  rw [ht] at h1
  rw [Real.cos_two_mul, Real.sin_two_mul, ht]
  constructor
  · linear_combination 2 * h1
  · linear_combination 2 * b * h1

/-- The arc made for a pair of vertices, in the frame of the chord. -/
theorem item_arc (p q : Vec ℝ) (b c0 : ℝ) (hb : b ≠ 0) (u : Vec ℝ) (L : ℝ) (hL : (q - p).magnitude / 2 = L)
    (hn : (q - p).toNormalised = some u) (hx : q.x = p.x + 2 * L * u.x) (hy : q.y = p.y + 2 * L * u.y) :
    ∃ c : Circle ℝ, item ⟨p, b⟩ ⟨q, c0⟩ ⟨q, c0⟩ = some (.arc c) ∧ c.radius = L / 2 * (b + 1 / b) ∧
      c.center = ⟨p.x + L * u.x - u.y * (sign b * (L / 2 * (1 / b - b))), p.y + L * u.y + u.x * (sign b * (L / 2 * (1 / b - b)))⟩ ∧
      c.domain = some (if b < 0 then ⟨c.angleForPoint q, c.angleForPoint p⟩ else ⟨c.angleForPoint p, c.angleForPoint q⟩) := by
  unfold item
  simp only [segmentVector, hn, ne_eq, hb, not_false_iff, if_true, Option.some.injEq, Item.arc.injEq, exists_eq_left']
  refine ⟨?_, ?_, ?_⟩
  · simp [bulgeRadius, hb, demiChord, segmentVector, hL]
  · ext
    · simp only [Segment.center, sagittaDual, hb, if_false, demiChord, segmentVector, hL, Vec.normal, Vec.add_x, Vec.sdiv_x, Vec.smul_x, hx]
      ring
    · simp only [Segment.center, sagittaDual, hb, if_false, demiChord, segmentVector, hL, Vec.normal, Vec.add_y, Vec.sdiv_y, Vec.smul_y, hy]
      ring
  · have h0 : ∀ (c : Circle ℝ) (x : Vec ℝ), ¬ c.angleForPoint x < 0 := fun c x => not_lt.2 (angleForPoint_spec c x).1
    simp only [if_neg (h0 _ _)]
    rfl

/-- C63. The arc made for a positive bulge between two different vertices is the arc DXF means: its radius is the distance of the centre to
both vertices, it is drawn counter-clockwise from the first vertex to the second one, over four times the angle whose tangent is the bulge,
and its summit is on the right of the chord, at the distance `bulge` times half the chord. -/
theorem positive_bulge (p q : Vec ℝ) (b c0 : ℝ) (hne : p ≠ q) (hb : 0 < b) :
    ∃ c d, item ⟨p, b⟩ ⟨q, c0⟩ ⟨q, c0⟩ = some (.arc c) ∧ c.domain = some d ∧ 0 < c.radius ∧
      distance p c.center = c.radius ∧ distance q c.center = c.radius ∧
      0 ≤ d.start ∧ d.start < 360 ∧ 0 ≤ d.stop ∧ d.stop < 360 ∧
      d.sweep = Vec.degrees (4 * Real.arctan b) ∧ onCircle c.center c.radius d.start = p ∧ onCircle c.center c.radius d.stop = q ∧
      onCircle c.center c.radius (d.start + d.sweep / 2) = summit p q b := by
  obtain ⟨u, L, hL, hu, hn, hm, hx, hy⟩ := direction_frame p q hne
  obtain ⟨c, e1, e2, e3, e4⟩ := item_arc p q b c0 hb.ne' u L hm hn hx hy
  rw [if_neg (not_lt.2 hb.le)] at e4
  have hs : sign b = 1 := if_pos hb.le
  rw [hs] at e3
  obtain ⟨k1, k2⟩ := cos_sin_two_arctan b
  set t := 2 * Real.arctan b with ht
  have hbb : (0 : ℝ) < 1 + b ^ 2 := by positivity
  have hr : 0 < c.radius := by rw [e2]; positivity
  have r1 : c.radius * Real.sin t = L := by
    rw [e2]
    have : Real.sin t = 2 * b / (1 + b ^ 2) := by rw [eq_div_iff hbb.ne', k2]
    rw [this]; field_simp; ring
  have r2 : c.radius * Real.cos t = L / 2 * (1 / b - b) := by
    rw [e2]
    have : Real.cos t = (1 - b ^ 2) / (1 + b ^ 2) := by rw [eq_div_iff hbb.ne', k1]
    rw [this]; field_simp; ring
  obtain ⟨h, hh⟩ : ∃ h, h = L / 2 * (1 / b - b) := ⟨_, rfl⟩
  rw [← hh] at r2 e3
  have hcx : c.center.x = p.x + L * u.x - u.y * h := by rw [e3]; ring
  have hcy : c.center.y = p.y + L * u.y + u.x * h := by rw [e3]; ring
  have hsq : h ^ 2 + L ^ 2 = c.radius ^ 2 := by
    rw [← r1, ← r2]; linear_combination c.radius ^ 2 * Real.sin_sq_add_cos_sq t
  have hdp : distance p c.center = c.radius := by
    unfold distance
    rw [Real.sqrt_eq_iff_mul_self_eq (by positivity) hr.le, hcx, hcy]
    linear_combination hsq + (L ^ 2 + h ^ 2) * hu
  have hdq : distance q c.center = c.radius := by
    unfold distance
    rw [Real.sqrt_eq_iff_mul_self_eq (by positivity) hr.le, hcx, hcy, hx, hy]
    linear_combination hsq + (L ^ 2 + h ^ 2) * hu
  have ha : 0 < Real.arctan b := Real.arctan_pos.2 hb
  have hpi := Real.pi_pos
  have ha2 := Real.arctan_lt_pi_div_two b
  have hrot : ∀ y, (p - c.center).rotate (Vec.degrees y) =
      ⟨Real.cos y * (p.x - c.center.x) - Real.sin y * (p.y - c.center.y),
        Real.sin y * (p.x - c.center.x) + Real.cos y * (p.y - c.center.y)⟩ := by
    intro y
    simp [Vec.rotate, Vec.radians_degrees]
  have hq : q - c.center = (p - c.center).rotate (Vec.degrees (2 * t)) := by
    rw [hrot]
    have s2 := Real.sin_sq_add_cos_sq t
    ext
    · simp only [Vec.sub_x, hcx, hcy, hx, ← r2, Real.cos_two_mul, Real.sin_two_mul]
      rw [← r1]
      linear_combination (-2 * c.radius * Real.cos t * u.y) * s2
    · simp only [Vec.sub_y, hcx, hcy, hy, ← r2, Real.cos_two_mul, Real.sin_two_mul]
      rw [← r1]
      linear_combination (2 * c.radius * Real.cos t * u.x) * s2
  obtain ⟨a1, a2, a3⟩ := Path.arc_sweep c hr p q (2 * t) (by rw [ht]; linarith) (by rw [ht]; linarith) hdp hq
  refine ⟨c, _, e1, e4, hr, hdp, hdq, (angleForPoint_spec c p).1, (angleForPoint_spec c p).2.1, (angleForPoint_spec c q).1,
    (angleForPoint_spec c q).2.1, ?_, a2.symm, ?_, ?_⟩
  · rw [a1, ht]; congr 1; ring
  · have := (angleForPoint_spec c q).2.2
    rw [hdq] at this
    exact this.symm
  · rw [a1]
    have hs2 : summit p q b - c.center = (p - c.center).rotate (Vec.degrees t) := by
      rw [hrot]
      have h3 : c.radius = h + b * L := by rw [e2, hh]; ring
      have s2 := Real.sin_sq_add_cos_sq t
      have k4 : b * L = c.radius - c.radius * Real.cos t := by rw [r2]; linear_combination -h3
      ext
      · simp only [Vec.sub_x, summit, hcx, hcy, hx, hy, ← r2]
        rw [← r1] at k4 ⊢
        linear_combination (-c.radius * u.y) * s2 + u.y * k4
      · simp only [Vec.sub_y, summit, hcx, hcy, hx, hy, ← r2]
        rw [← r1] at k4 ⊢
        linear_combination (c.radius * u.x) * s2 - u.x * k4
    have := Path.onCircle_turn c.center p (summit p q b) c.radius _ t a2 hs2
    rw [this]
    congr 2
    unfold Vec.degrees; ring

example : ∃ c d, item ⟨⟨0, 0⟩, 1⟩ ⟨⟨2, 0⟩, 0⟩ ⟨⟨2, 0⟩, 0⟩ = some (.arc c) ∧ c.domain = some d ∧ 0 < c.radius ∧ d.sweep = 180 ∧
    onCircle c.center c.radius (d.start + d.sweep / 2) = ⟨1, -1⟩ := by
  obtain ⟨c, d, h1, h2, h3, -, -, -, -, -, -, h4, -, -, h5⟩ :=
    positive_bulge ⟨0, 0⟩ ⟨2, 0⟩ 1 0 (by intro h; simpa using congrArg Vec.x h) one_pos
  refine ⟨c, d, h1, h2, h3, ?_, ?_⟩
  · rw [h4, Real.arctan_one]
    have := Real.pi_pos.ne'
    unfold Vec.degrees; field_simp
  · rw [h5]; ext <;> norm_num [summit]

/-- C63. The arc made for a negative bulge is never the arc DXF means: its radius is negative, and the summit of the arc is not one of its
points. Its centre is on the wrong side of the chord. -/
theorem negative_bulge_wrong (p q : Vec ℝ) (b c0 : ℝ) (hne : p ≠ q) (hb : b < 0) :
    ∃ c, item ⟨p, b⟩ ⟨q, c0⟩ ⟨q, c0⟩ = some (.arc c) ∧ c.radius < 0 ∧ summit p q b ∉ drawn c ∧
      (b ≠ -1 → distance (summit p q b) c.center ≠ |c.radius|) := by
  obtain ⟨u, L, hL, hu, hn, hm, hx, hy⟩ := direction_frame p q hne
  obtain ⟨c, e1, e2, e3, e4⟩ := item_arc p q b c0 hb.ne u L hm hn hx hy
  rw [if_pos hb] at e4
  have hs : sign b = -1 := if_neg (not_le.2 hb)
  rw [hs] at e3
  have hr : c.radius < 0 := by
    rw [e2]
    apply mul_neg_of_pos_of_neg (by positivity)
    have := one_div_neg.2 hb
    linarith
  have hcx : c.center.x = p.x + L * u.x + u.y * (L / 2 * (1 / b - b)) := by rw [e3]; ring
  have hcy : c.center.y = p.y + L * u.y - u.x * (L / 2 * (1 / b - b)) := by rw [e3]; ring
  have key : b ≠ -1 → distance (summit p q b) c.center ≠ |c.radius| := by
    intro h1 h
    unfold distance at h
    have h2 := congrArg (· ^ 2) h
    rw [Real.sq_sqrt (by positivity), sq_abs, e2, hcx, hcy] at h2
    simp only [summit, hx, hy] at h2
    have h3 : (L / 2) ^ 2 * (1 / b - 3 * b) ^ 2 = (L / 2) ^ 2 * (b + 1 / b) ^ 2 := by
      linear_combination h2 - (L / 2) ^ 2 * (1 / b - 3 * b) ^ 2 * (hu)
    have h4 : (1 / b - 3 * b) ^ 2 = (b + 1 / b) ^ 2 := mul_left_cancel₀ (by positivity) h3
    have h5 : 8 * (b ^ 2 - 1) = 0 := by
      have : (1 / b) * b = 1 := by rw [one_div, inv_mul_cancel₀ hb.ne]
      linear_combination h4 + 8 * this
    have h6 : (b - 1) * (b + 1) = 0 := by linear_combination h5 / 8
    rcases mul_eq_zero.1 h6 with h | h
    · linarith
    · exact h1 (by linarith)
  refine ⟨c, e1, hr, ?_, key⟩
  intro hd
  unfold drawn at hd
  rw [e4] at hd
  obtain ⟨s, s0, s1, hd⟩ := hd
  by_cases hb1 : b = -1
  · subst hb1
    have hrad : c.radius = -L := by rw [e2]; ring
    have hc : c.center = ⟨p.x + L * u.x, p.y + L * u.y⟩ := by rw [e3]; ext <;> simp
    have hdq : distance q c.center = L := by
      unfold distance
      rw [hc, Real.sqrt_eq_iff_mul_self_eq (by positivity) hL.le, hx, hy]
      linear_combination L ^ 2 * hu
    have hpi := Real.pi_pos
    have hdeg : Vec.degrees Real.pi = 180 := by unfold Vec.degrees; field_simp
    obtain ⟨a1, a2, -⟩ := Path.arc_sweep ⟨c.center, L, none⟩ hL q p Real.pi hpi.le (by linarith) hdq (by
      simp only [Vec.rotate, Vec.radians_degrees, hc]
      ext <;> simp [hx, hy] <;> ring)
    change _ = onCircle c.center L (c.angleForPoint q) at a2
    change (⟨c.angleForPoint q, c.angleForPoint p⟩ : Domain ℝ).sweep = _ at a1
    rw [a1, hdeg] at s1
    dsimp only at hd
    have ax := congrArg Vec.x a2
    have ay := congrArg Vec.y a2
    have dx := congrArg Vec.x hd
    have dy := congrArg Vec.y hd
    simp only [onCircle, hc, hrad, summit, hx, hy] at ax ay dx dy
    have split : (c.angleForPoint q + s) * Real.pi / 180 = c.angleForPoint q * Real.pi / 180 + s * Real.pi / 180 := by ring
    rw [split] at dx dy
    rw [Real.cos_add] at dx
    rw [Real.sin_add] at dy
    have cx : Real.cos (c.angleForPoint q * Real.pi / 180) = u.x := by
      apply mul_left_cancel₀ hL.ne'; linarith
    have cy : Real.sin (c.angleForPoint q * Real.pi / 180) = u.y := by
      apply mul_left_cancel₀ hL.ne'; linarith
    rw [cx, cy] at dx dy
    have hsin : 0 ≤ Real.sin (s * Real.pi / 180) := by
      apply Real.sin_nonneg_of_nonneg_of_le_pi (by positivity)
      rw [div_le_iff₀ (by norm_num)]
      nlinarith
    have : L * (1 + Real.sin (s * Real.pi / 180)) = 0 := by
      linear_combination -u.y * dx + u.x * dy - L * (1 + Real.sin (s * Real.pi / 180)) * hu
    rcases mul_eq_zero.1 this with h | h <;> linarith
  · apply key hb1
    rw [hd]
    unfold distance onCircle
    rw [← Real.sqrt_sq_eq_abs]
    congr 1
    linear_combination c.radius ^ 2 * Real.sin_sq_add_cos_sq ((c.angleForPoint q + s) * Real.pi / 180)

example : ∃ c, item ⟨⟨0, 0⟩, -1 / 2⟩ ⟨⟨4, 0⟩, 0⟩ ⟨⟨4, 0⟩, 0⟩ = some (.arc c) ∧ c.radius < 0 ∧ (⟨2, 1⟩ : Vec ℝ) ∉ drawn c := by
  obtain ⟨c, h1, h2, h3, -⟩ := negative_bulge_wrong ⟨0, 0⟩ ⟨4, 0⟩ (-1 / 2) 0 (by intro h; simpa using congrArg Vec.x h) (by norm_num)
  refine ⟨c, h1, h2, ?_⟩
  have e : summit ⟨0, 0⟩ ⟨4, 0⟩ (-1 / 2) = ⟨2, 1⟩ := by ext <;> norm_num [summit]
  rwa [e] at h3

/-- C63. A vertex without bulge gives the segment, and a bulge between two vertices at the same place gives an item without coordinates. -/
theorem flat_or_null (p q : Vec ℝ) (b c0 : ℝ) :
    item ⟨p, 0⟩ ⟨q, c0⟩ ⟨q, c0⟩ = some (.segment ⟨p, q⟩) ∧ (b ≠ 0 → item ⟨p, b⟩ ⟨p, c0⟩ ⟨p, c0⟩ = none) := by
  refine ⟨by simp [item], fun hb => ?_⟩
  have : (p - p).toNormalised = none := by
    unfold Vec.toNormalised
    rw [if_pos]
    simp [Vec.magnitude, Vec.magnitudeSquare]
  simp only [item, segmentVector, this, ne_eq, hb, not_false_iff, if_true]

theorem getItem_getD {α : Type _} (l : List α) (i : Nat) (d : α) (h : i < l.length) : Py.getItem l i = .ok (l.getD i d) := by
  unfold Py.getItem
  rw [List.getD_eq_getElem?_getD, List.getElem?_eq_getElem h]
  rfl

/-- The pairs of vertices on which the polyline iterates. -/
theorem iterOnSegment_eq (p : Polyline) (h : p.vertices ≠ []) :
    p.iterOnSegment = .ok ((successive p.closed p.vertices).mapIdx fun i x => (i, x.1, x.2)) := by
  obtain ⟨vs, closed⟩ := p
  obtain ⟨a, t, rfl⟩ := List.exists_cons_of_ne_nil h
  unfold Polyline.iterOnSegment
  dsimp only
  rw [IterTools.mapM_ok_of_forall _ (fun i => (i, (a :: t).getD i a, (a :: t).getD (i + 1) a))]
  · cases closed with
    | false =>
      simp only [bind, Except.bind, pure, Except.pure, successive, Bool.false_eq_true, if_false]
      congr 1
      apply List.ext_getElem
      · simp
      · intro i h1 h2
        simp at h1 h2 ⊢
        rw [List.getElem?_eq_getElem (by simp; omega), List.getElem?_eq_getElem (by omega)]
        simp
    | true =>
      have e1 : Py.getItemInt (a :: t) (-1) = .ok ((a :: t).getD t.length a) := by
        unfold Py.getItemInt
        rw [if_neg (by decide), if_pos (by simp), getItem_getD _ _ a (by simp)]
        congr 2
        simp
      have e2 : Py.getItem (a :: t) 0 = .ok a := rfl
      simp only [bind, Except.bind, pure, Except.pure, successive, if_true, e1, e2]
      congr 1
      apply List.ext_getElem
      · simp
      · intro i h1 h2
        simp only [List.length_append, List.length_map, List.length_range, List.length_cons, List.length_nil] at h1
        rcases Nat.lt_or_ge i t.length with hi | hi
        · rw [List.getElem_append_left (by simpa using hi)]
          simp [List.getElem_append_left, hi]
          rw [List.getElem?_eq_getElem (by simp; omega)]
          simp
        · obtain rfl : i = t.length := by omega
          rw [List.getElem_append_right (by simp)]
          simp
  · intro i hi
    simp only [List.length_cons, Nat.add_sub_cancel, List.mem_range] at hi
    rw [getItem_getD _ i a (by simp; omega), getItem_getD _ (i + 1) a (by simp; omega)]
    rfl

/-- C63. The items of a polyline are those of its pairs of successive vertices, in this order: one less than vertices when it is open, as
many when it is closed. A closed polyline without vertices raises an index error. -/
theorem polyline_items (p : Polyline) :
    p.geometry = if p.closed = true ∧ p.vertices = [] then .error .indexError
      else .ok ((successive p.closed p.vertices).map fun (v, w) => item v w w) := by
  by_cases hv : p.vertices = []
  · obtain ⟨vs, closed⟩ := p
    subst hv
    cases closed <;> simp [Polyline.geometry, Polyline.iterOnSegment, successive, Py.getItemInt, bind, Except.bind, pure, Except.pure]
  · rw [if_neg (fun h => hv h.2)]
    unfold Polyline.geometry
    rw [iterOnSegment_eq p hv]
    simp only [bind, Except.bind]
    rw [IterTools.mapM_ok_of_forall _ (fun x => item x.2.1 x.2.2 x.2.2)]
    · congr 1
      apply List.ext_getElem
      · simp
      · intro i h1 h2
        simp
    · rintro ⟨i, v, w⟩ hm
      dsimp only
      by_cases hb : v.bulge = 0
      · rw [if_pos hb]
      · rw [if_neg hb]
        have : p.next i = .ok (some w) := by
          obtain ⟨j, hj, e⟩ := List.mem_iff_getElem.1 hm
          simp only [List.getElem_mapIdx, Prod.mk.injEq] at e
          obtain ⟨rfl, -, e⟩ := e
          simp only [List.length_mapIdx] at hj
          obtain ⟨vs, closed⟩ := p
          obtain ⟨a, t, rfl⟩ := List.exists_cons_of_ne_nil hv
          unfold Polyline.next
          cases closed with
          | false =>
            simp [successive] at hj e
            rw [if_neg (by simp; omega)]
            simp [Py.getItem, hj, e, Except.map]
          | true =>
            simp [successive] at hj e
            by_cases hl : j = t.length
            · subst hl
              simp at e
              simp [Py.getItem, e, Except.map]
            · have hl' : j < t.length := by omega
              rw [List.getElem_append_left hl'] at e
              simp [Py.getItem, hl, hl', e, Except.map]
        rw [this]
        rfl

example : ∃ l, (⟨[⟨⟨0, 0⟩, 0⟩, ⟨⟨4, 0⟩, 0⟩, ⟨⟨4, 3⟩, 0⟩], true⟩ : Polyline).geometry = .ok l ∧ l.length = 3 ∧
    l.getLast? = some (some (.segment ⟨⟨4, 3⟩, ⟨0, 0⟩⟩)) := by
  rw [polyline_items, if_neg (by simp)]
  exact ⟨_, rfl, rfl, by simp [successive, (flat_or_null _ _ 0 _).1]⟩

/-- C63. The `angle` of a vertex with a positive bulge is the supplement of the angle of the arc. -/
theorem vertex_angle (p q : Vec ℝ) (b c0 : ℝ) (hne : p ≠ q) (hb : 0 < b) :
    angle ⟨p, b⟩ ⟨q, c0⟩ = .ok (180 - Vec.degrees (4 * Real.arctan b)) := by
  obtain ⟨u, L, hL, hu, hn, hm, hx, hy⟩ := direction_frame p q hne
  unfold angle
  have hd : demiChord ⟨p, b⟩ ⟨q, c0⟩ = L := hm
  rw [if_neg hb.ne', if_neg (by rw [hd]; exact hL.ne'), bulgeRadius, if_neg hb.ne', hd]
  dsimp only
  congr 1
  have hpi := Real.pi_pos
  have ha := Real.arctan_pos.2 hb
  have ha2 := Real.arctan_lt_pi_div_two b
  have e : L / 2 * (b + 1 / b) / L - b = Real.tan (Real.pi / 2 - 2 * Real.arctan b) := by
    rw [Real.tan_eq_sin_div_cos, Real.sin_pi_div_two_sub, Real.cos_pi_div_two_sub]
    obtain ⟨k1, k2⟩ := cos_sin_two_arctan b
    have hs : 0 < Real.sin (2 * Real.arctan b) := Real.sin_pos_of_pos_of_lt_pi (by linarith) (by linarith)
    rw [eq_div_iff hs.ne']
    have hbb : (0 : ℝ) < 1 + b ^ 2 := by positivity
    apply mul_right_cancel₀ hbb.ne'
    rw [k1, mul_assoc, k2]
    field_simp
    ring
  rw [e, Real.arctan_tan (by linarith) (by linarith)]
  unfold Vec.degrees
  field_simp
  ring

/-- C63. A polyline filled with `add` has the items of the successive points which were added, with their bulges. -/
theorem added_items (l : List (Vec ℝ × ℝ)) (closed : Bool) (h : l ≠ []) :
    (l.foldl (fun (p : Polyline) x => p.add x.1 x.2) ⟨[], closed⟩).geometry =
      .ok ((successive closed (l.map fun x => ⟨x.1, x.2⟩)).map fun (v, w) => item v w w) := by
  have key : ∀ (l : List (Vec ℝ × ℝ)) (p : Polyline), l.foldl (fun (p : Polyline) x => p.add x.1 x.2) p =
      ⟨p.vertices ++ l.map fun x => ⟨x.1, x.2⟩, p.closed⟩ := by
    intro l
    induction l with
    | nil => intro p; simp
    | cons x t ih => intro p; rw [List.foldl_cons, ih]; simp [Polyline.add]
  rw [key, polyline_items, if_neg (by simp [h])]
  rfl

/-- C63. The sagitta is the signed distance of the summit of the arc to the middle of the chord, and with the distance of the centre to the
chord it makes the radius. A straight segment is given the radius zero. -/
theorem sagitta_spec (p q : Vec ℝ) (b c0 : ℝ) :
    |sagitta ⟨p, b⟩ ⟨q, c0⟩| = distance (summit p q b) (mid p q) ∧ (0 ≤ b → 0 ≤ sagitta ⟨p, b⟩ ⟨q, c0⟩) ∧
      (b ≤ 0 → sagitta ⟨p, b⟩ ⟨q, c0⟩ ≤ 0) ∧
      (b ≠ 0 → sagitta ⟨p, b⟩ ⟨q, c0⟩ + sagittaDual ⟨p, b⟩ ⟨q, c0⟩ = bulgeRadius ⟨p, b⟩ ⟨q, c0⟩) ∧
      (b = 0 → bulgeRadius ⟨p, b⟩ ⟨q, c0⟩ = 0) := by
  have h0 : 0 ≤ demiChord ⟨p, b⟩ ⟨q, c0⟩ := by unfold demiChord Vec.magnitude; positivity
  refine ⟨?_, fun hb => mul_nonneg hb h0, fun hb => mul_nonpos_of_nonpos_of_nonneg hb h0, fun hb => ?_, fun hb => by simp [bulgeRadius, hb]⟩
  · have e : sagitta ⟨p, b⟩ ⟨q, c0⟩ ^ 2 = (summit p q b - mid p q).magnitudeSquare := by
      have := Vec.magnitude_sq (q - p)
      simp only [sagitta, demiChord, segmentVector, summit, mid, Vec.magnitudeSquare, Vec.sub_x, Vec.sub_y] at this ⊢
      rw [mul_pow, div_pow, this]
      ring
    rw [← Real.sqrt_sq_eq_abs, e]
    unfold distance Vec.magnitudeSquare
    simp only [Vec.sub_x, Vec.sub_y]
    congr 1
    ring
  · simp only [sagitta, sagittaDual, bulgeRadius, hb, if_false]
    ring

example : sagitta ⟨⟨0, 0⟩, 1 / 2⟩ ⟨⟨4, 0⟩, 0⟩ = 1 := by
  have : Real.sqrt 16 = 4 := by rw [show (16 : ℝ) = 4 ^ 2 by norm_num]; exact Real.sqrt_sq (by norm_num)
  norm_num [sagitta, demiChord, segmentVector, Vec.magnitude, Vec.magnitudeSquare, this]

end Patro.Dxf
