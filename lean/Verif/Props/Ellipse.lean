import Verif.Spec.Ellipse
import Verif.Props.Conic
import Mathlib.Tactic.LinearCombination
/-! # C133 to C136: frame, points, bounding box and transformations of ellipses -/

namespace Patro.Conic

open Classical MathFunctions Transformation

theorem radians_eq (a : ℝ) : Vec.radians a = a * Real.pi / 180 := by unfold Vec.radians; ring

theorem rotate_zero (v : Vec ℝ) : v.rotate 0 = v := by
  ext <;> simp [Vec.rotate, Vec.radians]

/-- The test of the angle in `point_at_angle` changes nothing. -/
theorem Ellipse.pointAtAngle_frame (e : Ellipse) (t : ℝ) :
    e.pointAtAngle t = e.pointFromFrame (Vec.fromEllipse e.radiusX e.radiusY t) := by
  unfold Ellipse.pointAtAngle Ellipse.pointFromFrame
  by_cases h : e.angle = 0
  · simp [h, rotate_zero]
  · simp [h]

/-! ## C133 -/

/-- C133. `point_in_ellipse_frame` gives the coordinates of the point along the two axes of the ellipse. -/
theorem frame_coordinates (e : Ellipse) (q : Vec ℝ) :
    (e.pointInFrame q).x = along e.center e.angle q ∧ (e.pointInFrame q).y = across e.center e.angle q := by
  have h : Vec.radians (-e.angle) = -(e.angle * Real.pi / 180) := by unfold Vec.radians; ring
  constructor
  · simp [Ellipse.pointInFrame, Vec.rotate, along, h]; ring
  · simp [Ellipse.pointInFrame, Vec.rotate, across, h]; ring

/-- C133. The two changes of frame are inverse of each other. -/
theorem frame_roundtrip (e : Ellipse) (q : Vec ℝ) :
    e.pointFromFrame (e.pointInFrame q) = q ∧ e.pointInFrame (e.pointFromFrame q) = q := by
  have h : Vec.radians (-e.angle) = -Vec.radians e.angle := by unfold Vec.radians; ring
  have hs := Real.sin_sq_add_cos_sq (Vec.radians e.angle)
  constructor
  · ext
    · simp [Ellipse.pointInFrame, Ellipse.pointFromFrame, Vec.rotate, h]
      linear_combination (q.x - e.center.x) * hs
    · simp [Ellipse.pointInFrame, Ellipse.pointFromFrame, Vec.rotate, h]
      linear_combination (q.y - e.center.y) * hs
  · ext
    · simp [Ellipse.pointInFrame, Ellipse.pointFromFrame, Vec.rotate, h]
      linear_combination q.x * hs
    · simp [Ellipse.pointInFrame, Ellipse.pointFromFrame, Vec.rotate, h]
      linear_combination q.y * hs

/-- C133. The changes of frame keep distances. -/
theorem frame_isometry (e : Ellipse) (p q : Vec ℝ) :
    distance (e.pointInFrame p) (e.pointInFrame q) = distance p q ∧
    distance (e.pointFromFrame p) (e.pointFromFrame q) = distance p q := by
  have h : Vec.radians (-e.angle) = -Vec.radians e.angle := by unfold Vec.radians; ring
  have hs := Real.sin_sq_add_cos_sq (Vec.radians e.angle)
  constructor
  · unfold distance
    congr 1
    simp [Ellipse.pointInFrame, Vec.rotate, h]
    linear_combination ((p.x - q.x) ^ 2 + (p.y - q.y) ^ 2) * hs
  · unfold distance
    congr 1
    simp [Ellipse.pointFromFrame, Vec.rotate]
    linear_combination ((p.x - q.x) ^ 2 + (p.y - q.y) ^ 2) * hs

example : (Ellipse.new ⟨1, 2⟩ 3 2 90).pointInFrame ⟨1, 5⟩ = ⟨3, 0⟩ := by
  have h := frame_coordinates (Ellipse.new ⟨1, 2⟩ 3 2 90) ⟨1, 5⟩
  have h90 : (90 : ℝ) * Real.pi / 180 = Real.pi / 2 := by ring
  ext
  · rw [h.1]; simp [along, Ellipse.new, h90]; norm_num
  · rw [h.2]; simp [across, Ellipse.new, h90]

theorem ellipseValue_frame (e : Ellipse) (q : Vec ℝ) :
    ellipseValue e.center e.radiusX e.radiusY e.angle q =
      ((e.pointInFrame q).x / e.radiusX) ^ 2 + ((e.pointInFrame q).y / e.radiusY) ^ 2 := by
  unfold ellipseValue
  rw [(frame_coordinates e q).1, (frame_coordinates e q).2]

theorem mem_points (e : Ellipse) (q : Vec ℝ) :
    q ∈ e.points ↔ ((e.pointInFrame q).x / e.radiusX) ^ 2 + ((e.pointInFrame q).y / e.radiusY) ^ 2 = 1 := by
  rw [← ellipseValue_frame]; rfl

/-! ## C134 -/

/-- C134. `point_at_angle` gives a point of the ellipse, with coordinates `radius_x cos t` and `radius_y sin t` along the
axes; it has period 360 and every point of the ellipse is a value for an angle in [0, 360). -/
theorem ellipse_points (e : Ellipse) (hx : e.radiusX ≠ 0) (hy : e.radiusY ≠ 0) :
    (∀ t, e.pointAtAngle t ∈ e.points ∧ along e.center e.angle (e.pointAtAngle t) = e.radiusX * Real.cos (t * Real.pi / 180) ∧
      across e.center e.angle (e.pointAtAngle t) = e.radiusY * Real.sin (t * Real.pi / 180)) ∧
    (∀ (t : ℝ) (k : ℤ), e.pointAtAngle (t + 360 * k) = e.pointAtAngle t) ∧
    ∀ q ∈ e.points, ∃ t, 0 ≤ t ∧ t < 360 ∧ e.pointAtAngle t = q := by
  refine ⟨fun t => ?_, fun t k => ?_, fun q hq => ?_⟩
  · have h := (frame_roundtrip e (Vec.fromEllipse e.radiusX e.radiusY t)).2
    rw [mem_points, ← (frame_coordinates e _).1, ← (frame_coordinates e _).2, Ellipse.pointAtAngle_frame, h]
    refine ⟨?_, ?_, ?_⟩
    · simp only [Vec.fromEllipse]
      rw [mul_div_cancel_left₀ _ hx, mul_div_cancel_left₀ _ hy]
      exact Real.cos_sq_add_sin_sq _
    · simp only [Vec.fromEllipse, radians_eq]
    · simp only [Vec.fromEllipse, radians_eq]
  · rw [Ellipse.pointAtAngle_frame, Ellipse.pointAtAngle_frame]
    congr 1
    have : Vec.radians (t + 360 * k) = Vec.radians t + k * (2 * Real.pi) := by unfold Vec.radians; ring
    simp only [Vec.fromEllipse, this, Real.cos_add_int_mul_two_pi, Real.sin_add_int_mul_two_pi]
  · rw [mem_points] at hq
    obtain ⟨h0, h1, h2⟩ := angleForPoint_inverse ⟨⟨0, 0⟩, 1, none⟩
      ⟨(e.pointInFrame q).x / e.radiusX, (e.pointInFrame q).y / e.radiusY⟩ (by
        show distance _ _ = 1
        unfold distance
        rw [Real.sqrt_eq_one]
        simpa using hq)
    refine ⟨_, h0, h1, ?_⟩
    rw [pointAtAngle_eq] at h2
    generalize Circle.angleForPoint _ _ = t at h2
    rw [Ellipse.pointAtAngle_frame]
    have : Vec.fromEllipse e.radiusX e.radiusY t = e.pointInFrame q := by
      have hx' := congrArg Vec.x h2
      have hy' := congrArg Vec.y h2
      simp only [onCircle, zero_add, one_mul] at hx' hy'
      ext
      · simp only [Vec.fromEllipse, radians_eq, hx']; field_simp
      · simp only [Vec.fromEllipse, radians_eq, hy']; field_simp
    rw [this]
    exact (frame_roundtrip e q).1

/-- C134. `start_point` and `stop_point` are the points at the bounds of the domain; a closed ellipse has none. -/
theorem ellipse_ends (e : Ellipse) :
    (∀ d, e.domain = some d → e.startStopPoint true = some (e.pointAtAngle d.start) ∧
      e.startStopPoint false = some (e.pointAtAngle d.stop)) ∧
    (e.domain = none → e.startStopPoint true = none ∧ e.startStopPoint false = none) := by
  unfold Ellipse.startStopPoint
  constructor
  · intro d h; simp [h]
  · intro h; simp [h]

example : (⟨1, 5⟩ : Vec ℝ) ∈ (Ellipse.new ⟨1, 2⟩ 3 2 90).points := by
  have h90 : (90 : ℝ) * Real.pi / 180 = Real.pi / 2 := by ring
  show ellipseValue _ _ _ _ _ = 1
  simp [ellipseValue, along, across, Ellipse.new, h90]
  norm_num

/-! ## C135 -/

/-- C135. The bounding box of a closed ellipse whose axes are parallel to the coordinate axes is the smallest box which
contains it. -/
theorem ellipse_box_partial (e : Ellipse) (ha : e.angle = 0) (hx : 0 < e.radiusX) (hy : 0 < e.radiusY) :
    ∃ b, e.computeBox = some b ∧ IsSmallestBox b e.points := by
  refine ⟨_, by unfold Ellipse.computeBox; rw [if_pos ha], ?_⟩
  have hf : ∀ q, e.pointInFrame q = q - e.center := by
    intro q; unfold Ellipse.pointInFrame; rw [ha, neg_zero, rotate_zero]
  have hp : ∀ t, e.pointAtAngle t ∈ e.points := fun t => ((ellipse_points e hx.ne' hy.ne').1 t).1
  have hv : ∀ t, e.pointAtAngle t = e.center + Vec.fromEllipse e.radiusX e.radiusY t := by
    intro t; unfold Ellipse.pointAtAngle; simp [ha]
  have h180 : Vec.radians 180 = Real.pi := by unfold Vec.radians; ring
  have h90 : Vec.radians 90 = Real.pi / 2 := by unfold Vec.radians; ring
  have h90' : Vec.radians (-90) = -(Real.pi / 2) := by unfold Vec.radians; ring
  refine ⟨?_, ⟨_, hp 180, ?_⟩, ⟨_, hp 0, ?_⟩, ⟨_, hp (-90), ?_⟩, ⟨_, hp 90, ?_⟩⟩
  · intro q hq
    rw [mem_points, hf] at hq
    simp only [Vec.sub_x, Vec.sub_y] at hq
    have h1 : ((q.x - e.center.x) / e.radiusX) ^ 2 ≤ 1 := by nlinarith [sq_nonneg ((q.y - e.center.y) / e.radiusY)]
    have h2 : ((q.y - e.center.y) / e.radiusY) ^ 2 ≤ 1 := by nlinarith [sq_nonneg ((q.x - e.center.x) / e.radiusX)]
    obtain ⟨a1, a2⟩ := abs_le.1 ((sq_le_one_iff_abs_le_one _).1 h1)
    obtain ⟨b1, b2⟩ := abs_le.1 ((sq_le_one_iff_abs_le_one _).1 h2)
    rw [div_le_iff₀ hx] at a2
    rw [le_div_iff₀ hx] at a1
    rw [div_le_iff₀ hy] at b2
    rw [le_div_iff₀ hy] at b1
    unfold Box.Contains
    simp only [Box.ofPoint]
    refine ⟨?_, ?_, ?_, ?_⟩ <;> linarith
  · rw [hv]; simp [Vec.fromEllipse, Box.ofPoint, h180]; ring
  · rw [hv]; simp [Vec.fromEllipse, Box.ofPoint, Vec.radians]
  · rw [hv]; simp [Vec.fromEllipse, Box.ofPoint, h90']; ring
  · rw [hv]; simp [Vec.fromEllipse, Box.ofPoint, h90]

example : (Ellipse.new ⟨1, 2⟩ 3 2).computeBox = some ⟨-2, 4, 0, 4⟩ := by
  simp [Ellipse.computeBox, Ellipse.new, Box.ofPoint]; norm_num

/-- C135. But the arguments of `from_polar` are swapped for an ellipse with another angle: whenever the angle is positive and
both radii are less than 90, the box does not even contain the center of the ellipse. -/
theorem ellipse_box_wrong (e : Ellipse) (ha : 0 < e.angle) (hx : 0 < e.radiusX) (hx' : e.radiusX < 90) (hy : 0 < e.radiusY)
    (hy' : e.radiusY < 90) : ∃ b, e.computeBox = some b ∧ ¬ b.Contains e.center := by
  refine ⟨_, by unfold Ellipse.computeBox; rw [if_neg ha.ne']; rfl, ?_⟩
  have hpi := Real.pi_pos
  have hc : ∀ r : ℝ, -90 < r → r < 90 → 0 < Real.cos (Vec.radians r) := by
    intro r h1 h2
    apply Real.cos_pos_of_mem_Ioo
    unfold Vec.radians
    constructor <;> nlinarith
  have h1 := hc e.radiusX (by linarith) hx'
  have h2 := hc (-e.radiusX) (by linarith) (by linarith)
  have h3 := hc e.radiusY (by linarith) hy'
  have h4 := hc (-e.radiusY) (by linarith) (by linarith)
  have g1 : 0 < e.angle * Real.cos (Vec.radians e.radiusX) := by positivity
  have g2 : 0 < e.angle * Real.cos (Vec.radians (-e.radiusX)) := by positivity
  have g3 : 0 < (e.angle + 90) * Real.cos (Vec.radians e.radiusY) := by positivity
  have g4 : 0 < (e.angle + 90) * Real.cos (Vec.radians (-e.radiusY)) := by positivity
  rintro ⟨h, -⟩
  simp only [Box.union, Box.ofPoint, Vec.add_x, Vec.fromPolar, Vec.fromAngle, Vec.smul_x] at h
  simp only [min_le_iff] at h
  rcases h with ((h | h) | h) | h <;> linarith

example : ∃ b, (Ellipse.new ⟨0, 0⟩ 20 10 60).computeBox = some b ∧ ¬ b.Contains ⟨0, 0⟩ :=
  ellipse_box_wrong (Ellipse.new ⟨0, 0⟩ 20 10 60) (by norm_num [Ellipse.new]) (by norm_num [Ellipse.new])
    (by norm_num [Ellipse.new]) (by norm_num [Ellipse.new]) (by norm_num [Ellipse.new])

/-- C135. `major_vector` and `minor_vector` have the same fault: for the angle 0 the first is the null vector, and the second
has length 90 whatever the radii. -/
theorem major_vector_wrong (e : Ellipse) (ha : e.angle = 0) : e.majorVector = ⟨0, 0⟩ ∧ e.minorVector.magnitude = 90 := by
  unfold Ellipse.majorVector Ellipse.minorVector
  constructor
  · rw [ha]; ext <;> simp [Vec.fromPolar]
  · rw [(Vec.fromPolar_magnitude _ _).1, ha]; norm_num

/-- C135. What they are: the length is the angle of the axis and the direction is the radius, in degrees. -/
theorem axis_vectors_wrong (e : Ellipse) :
    e.majorVector = ⟨e.angle * Real.cos (e.radiusX * (Real.pi / 180)), e.angle * Real.sin (e.radiusX * (Real.pi / 180))⟩ ∧
    e.minorVector = ⟨(e.angle + 90) * Real.cos (e.radiusY * (Real.pi / 180)), (e.angle + 90) * Real.sin (e.radiusY * (Real.pi / 180))⟩ :=
  ⟨rfl, rfl⟩

/-- The calls that keep the cached box right. -/
def EllipseOp.safe : EllipseOp → Prop
  | .setDomain _ | .readBox => True
  | .transform t => t.type ≠ some .shear ∧ t.type ≠ some .generic
  | _ => False

/-- The cached box is absent or is the box of the ellipse as it is now. -/
def Ellipse.fresh (e : Ellipse) : Prop := e.boundingBox.1 = e.computeBox

theorem scalarMul_ok (t : Aff ℝ) (s : ℝ) (h1 : t.type ≠ some .shear) (h2 : t.type ≠ some .generic) :
    ∃ r, scalarMul t.type (t.m 0 0) s = .ok r := by
  unfold scalarMul
  split
  · exact ⟨_, rfl⟩
  · simp [h1, h2]

theorem step_fresh (e : Ellipse) (h : e.cache = none ∨ e.cache = e.computeBox) (op : EllipseOp) (ho : op.safe) :
    (e.step op).cache = none ∨ (e.step op).cache = (e.step op).computeBox := by
  cases op with
  | setDomain d => exact h
  | readBox =>
    unfold Ellipse.step Ellipse.boundingBox
    cases hc : e.cache with
    | some b => simpa [hc] using h
    | none => right; rfl
  | transform t =>
    left
    obtain ⟨rx, hx⟩ := scalarMul_ok t e.radiusX ho.1 ho.2
    obtain ⟨ry, hy⟩ := scalarMul_ok t e.radiusY ho.1 ho.2
    simp [Ellipse.step, Ellipse.applyTransformation, hx, hy]
  | _ => exact absurd ho id

/-- C135. After any sequence of reads of the box, assignments of the domain and transformations that succeed, a read of
`bounding_box` gives the box of the ellipse as it is then. -/
theorem ellipse_cache_partial (center : Vec ℝ) (rx ry angle : ℝ) (d : Option (Domain ℝ)) (ops : List EllipseOp)
    (h : ∀ op ∈ ops, op.safe) :
    let e := ops.foldl Ellipse.step (Ellipse.new center rx ry angle d)
    e.boundingBox.1 = e.computeBox := by
  have key : ∀ (ops : List EllipseOp) (e : Ellipse), (∀ op ∈ ops, op.safe) → (e.cache = none ∨ e.cache = e.computeBox) →
      ((ops.foldl Ellipse.step e).cache = none ∨ (ops.foldl Ellipse.step e).cache = (ops.foldl Ellipse.step e).computeBox) := by
    intro ops
    induction ops with
    | nil => intro e _ h; exact h
    | cons op ops ih =>
      intro e ho h
      exact ih _ (fun o h => ho o (List.mem_cons_of_mem _ h)) (step_fresh e h op (ho op List.mem_cons_self))
  intro e
  have h2 : e.cache = none ∨ e.cache = e.computeBox := key ops _ h (.inl rfl)
  unfold Ellipse.boundingBox
  cases hc : e.cache with
  | none => rfl
  | some b =>
    rcases h2 with h2 | h2
    · rw [hc] at h2; cases h2
    · simp only; rw [← h2, hc]

example (t : Aff ℝ) (ht : t = Aff.translation ⟨5, 0⟩) :
    let e := [EllipseOp.readBox, .transform t, .readBox].foldl Ellipse.step (Ellipse.new ⟨0, 0⟩ 2 1 0 none)
    e.boundingBox.1 = e.computeBox :=
  ellipse_cache_partial _ _ _ _ _ _ (by
    intro op h; subst ht
    simp only [List.mem_cons, List.not_mem_nil, or_false] at h
    rcases h with rfl | rfl | rfl <;> simp [EllipseOp.safe, Aff.translation])

/-- C135. But the setters of the center, the radii and the angle do not reset the cached box, and neither does a
transformation that fails half-way. -/
theorem ellipse_cache_wrong (e : Ellipse) (hc : e.cache = none) (ha : e.angle = 0) (r : ℝ) (hr : r ≠ e.radiusX) (v : Vec ℝ)
    (hv : v ≠ e.center) (h : ℝ) (hh : e.center.y ≠ h - e.center.y) :
    (let e' := [EllipseOp.readBox, .setRadiusX r].foldl Ellipse.step e
     e'.boundingBox.1 = e.computeBox ∧ e'.boundingBox.1 ≠ e'.computeBox) ∧
    (let e' := [EllipseOp.readBox, .setCenter v].foldl Ellipse.step e
     e'.boundingBox.1 = e.computeBox ∧ e'.boundingBox.1 ≠ e'.computeBox) ∧
    (let e' := [EllipseOp.readBox, .transform (Aff.screen h)].foldl Ellipse.step e
     e'.boundingBox.1 = e.computeBox ∧ e'.boundingBox.1 ≠ e'.computeBox) := by
  have hb : ∀ e : Ellipse, e.angle = 0 → e.computeBox = some ⟨e.center.x - e.radiusX, e.center.x + e.radiusX,
      e.center.y - e.radiusY, e.center.y + e.radiusY⟩ := by
    intro e h; unfold Ellipse.computeBox; rw [if_pos h]; rfl
  have hread : e.step .readBox = { e with cache := e.computeBox } := by
    unfold Ellipse.step Ellipse.boundingBox; rw [hc]
  have hs : (Aff.screen h).apply e.center = ⟨e.center.x, h - e.center.y⟩ := by
    unfold Aff.apply Aff.screen
    ext <;> simp [Matrix.mulVec, dotProduct, Fin.sum_univ_three]
    ring
  refine ⟨?_, ?_, ?_⟩
  · simp only [List.foldl_cons, List.foldl_nil, hread]
    simp only [Ellipse.step, Ellipse.boundingBox]
    rw [hb e ha]
    simp only
    refine ⟨trivial, ?_⟩
    rw [hb _ (by exact ha)]
    intro heq
    obtain ⟨h1, h2, h3, h4⟩ := Box.mk.inj (Option.some.inj heq)
    exact hr (by linarith)
  · simp only [List.foldl_cons, List.foldl_nil, hread]
    simp only [Ellipse.step, Ellipse.boundingBox]
    rw [hb e ha]
    simp only
    refine ⟨trivial, ?_⟩
    rw [hb _ (by exact ha)]
    intro heq
    obtain ⟨h1, h2, h3, h4⟩ := Box.mk.inj (Option.some.inj heq)
    exact hv (by ext <;> linarith)
  · simp only [List.foldl_cons, List.foldl_nil, hread]
    unfold Ellipse.step Ellipse.applyTransformation
    have : scalarMul (Aff.screen h).type ((Aff.screen h).m 0 0) e.radiusX = .error .valueError := by
      simp [scalarMul, Aff.screen]
    simp only [this, hs]
    unfold Ellipse.boundingBox
    rw [hb e ha]
    simp only
    refine ⟨trivial, ?_⟩
    rw [hb _ (by exact ha)]
    intro heq
    obtain ⟨h1, h2, h3, h4⟩ := Box.mk.inj (Option.some.inj heq)
    exact hh (by linarith)

example : (Ellipse.new ⟨0, 1⟩ 2 1).cache = none ∧ (Ellipse.new ⟨0, 1⟩ 2 1).angle = 0 ∧ (3 : ℝ) ≠ (Ellipse.new ⟨0, 1⟩ 2 1).radiusX ∧
    (⟨0, 0⟩ : Vec ℝ) ≠ (Ellipse.new ⟨0, 1⟩ 2 1).center ∧
    (Ellipse.new ⟨0, 1⟩ 2 1).center.y ≠ 10 - (Ellipse.new ⟨0, 1⟩ 2 1).center.y := by
  simp [Ellipse.new]; norm_num

/-! ## C136 -/

/-- C136. `clone` gives an ellipse with the same center, radii, angle and domain. -/
theorem ellipse_clone (e : Ellipse) :
    e.clone.center = e.center ∧ e.clone.radiusX = e.radiusX ∧ e.clone.radiusY = e.radiusY ∧ e.clone.angle = e.angle ∧
    e.clone.domain = e.domain ∧ e.clone.points = e.points ∧ (∀ t, e.clone.pointAtAngle t = e.pointAtAngle t) ∧
    e.clone.boundingBox.1 = e.computeBox :=
  ⟨rfl, rfl, rfl, rfl, rfl, rfl, fun _ => rfl, rfl⟩

/-- C136. An ellipse that is translated, or scaled by a positive factor, has as points the images of the points, at the same
angles. -/
theorem ellipse_transform_partial (e : Ellipse) (v : Vec ℝ) (k : ℝ) (hk : 0 < k) (angle : ℝ) :
    (∃ e', e.applyTransformation (Aff.translation v) = (.ok (), e') ∧ e'.domain = e.domain ∧ e'.cache = none ∧
      e'.pointAtAngle angle = (Aff.translation v).apply (e.pointAtAngle angle)) ∧
    (∃ e', e.applyTransformation (Aff.scale k k) = (.ok (), e') ∧ e'.domain = e.domain ∧ e'.cache = none ∧
      e'.pointAtAngle angle = (Aff.scale k k).apply (e.pointAtAngle angle)) := by
  have ht : ∀ p, (Aff.translation v).apply p = p + v := by
    intro p; unfold Aff.apply Aff.translation
    ext <;> simp [Matrix.mulVec, dotProduct, Fin.sum_univ_three]
  have hs : ∀ p, (Aff.scale k k).apply p = p.smul k := by
    intro p; unfold Aff.apply Aff.scale
    ext <;> simp [Matrix.mulVec, dotProduct, Fin.sum_univ_three]
  have h1 : ∀ s, scalarMul (Aff.translation v).type ((Aff.translation v).m 0 0) s = .ok s := by
    intro s; simp [scalarMul, Aff.translation]
  have h2 : ∀ s, scalarMul (Aff.scale k k).type ((Aff.scale k k).m 0 0) s = .ok (k * s) := by
    intro s
    have : (Aff.scale k k).m 0 0 = k := rfl
    rw [this]
    unfold Aff.scale typeForScale
    simp only [if_true]
    by_cases hk1 : k = 1
    · simp [hk1, scalarMul]
    · have hk2 : k ≠ -1 := by linarith
      simp [hk1, hk2, scalarMul, abs_of_pos hk]
  constructor
  · refine ⟨{ e with center := (Aff.translation v).apply e.center, cache := none },
      by unfold Ellipse.applyTransformation; simp only [h1], rfl, rfl, ?_⟩
    rw [ht, ht, Ellipse.pointAtAngle_frame, Ellipse.pointAtAngle_frame]
    unfold Ellipse.pointFromFrame
    ext <;> simp <;> ring
  · refine ⟨{ e with center := (Aff.scale k k).apply e.center, radiusX := k * e.radiusX, radiusY := k * e.radiusY, cache := none },
      by unfold Ellipse.applyTransformation; simp only [h2], rfl, rfl, ?_⟩
    rw [hs, hs, Ellipse.pointAtAngle_frame, Ellipse.pointAtAngle_frame]
    unfold Ellipse.pointFromFrame
    ext <;> simp [Vec.fromEllipse, Vec.rotate] <;> ring

/-- C136 fails for the rotations: they move the center only, and the angle of the ellipse does not change. Whatever the ellipse with different
radii and the rotation which is not a multiple of half a turn, there is a point of the ellipse whose image is not on the result. -/
theorem ellipse_transform_wrong (e : Ellipse) (hx : e.radiusX ≠ 0) (hy : e.radiusY ≠ 0) (hne : e.radiusX ^ 2 ≠ e.radiusY ^ 2) (angle : ℝ)
    (ha : Real.sin (angle * Real.pi / 180) ≠ 0) :
    ∃ e', e.applyTransformation (Aff.rotation angle) = (.ok (), e') ∧ e'.angle = e.angle ∧
      ∃ q ∈ e.points, (Aff.rotation angle).apply q ∉ e'.points := by
  have h1 : ∀ s, scalarMul (Aff.rotation angle).type ((Aff.rotation angle).m 0 0) s = .ok s := by
    intro s; simp [scalarMul, Aff.rotation]
  have hang : Vec.radians angle = angle * Real.pi / 180 := by unfold Vec.radians; ring
  have hr : ∀ p, (Aff.rotation angle).apply p =
      ⟨Real.cos (angle * Real.pi / 180) * p.x - Real.sin (angle * Real.pi / 180) * p.y,
        Real.sin (angle * Real.pi / 180) * p.x + Real.cos (angle * Real.pi / 180) * p.y⟩ := by
    intro p; unfold Aff.apply Aff.rotation
    ext <;> simp [Matrix.mulVec, dotProduct, Fin.sum_univ_three, hang] <;> ring
  refine ⟨{ e with center := (Aff.rotation angle).apply e.center, cache := none },
    by unfold Ellipse.applyTransformation; simp only [h1], rfl,
    ⟨e.center.x + e.radiusX * Real.cos (e.angle * Real.pi / 180), e.center.y + e.radiusX * Real.sin (e.angle * Real.pi / 180)⟩, ?_, ?_⟩
  · show ellipseValue _ _ _ _ _ = 1
    have hsc := Real.sin_sq_add_cos_sq (e.angle * Real.pi / 180)
    have e1 : along e.center e.angle ⟨e.center.x + e.radiusX * Real.cos (e.angle * Real.pi / 180),
        e.center.y + e.radiusX * Real.sin (e.angle * Real.pi / 180)⟩ = e.radiusX := by
      unfold along
      simp only
      linear_combination e.radiusX * hsc
    have e2 : across e.center e.angle ⟨e.center.x + e.radiusX * Real.cos (e.angle * Real.pi / 180),
        e.center.y + e.radiusX * Real.sin (e.angle * Real.pi / 180)⟩ = 0 := by
      unfold across
      simp only
      ring
    unfold ellipseValue
    rw [e1, e2, div_self hx]
    simp
  · show ¬ ellipseValue _ _ _ _ _ = 1
    rw [hr, hr]
    simp only
    generalize hA : angle * Real.pi / 180 = A at *
    generalize hB : e.angle * Real.pi / 180 = B at *
    have hscA := Real.sin_sq_add_cos_sq A
    have hsc := Real.sin_sq_add_cos_sq B
    have e1 : along ⟨Real.cos A * e.center.x - Real.sin A * e.center.y, Real.sin A * e.center.x + Real.cos A * e.center.y⟩ e.angle
        ⟨Real.cos A * (e.center.x + e.radiusX * Real.cos B) - Real.sin A * (e.center.y + e.radiusX * Real.sin B),
          Real.sin A * (e.center.x + e.radiusX * Real.cos B) + Real.cos A * (e.center.y + e.radiusX * Real.sin B)⟩ =
        e.radiusX * Real.cos A := by
      unfold along
      simp only
      rw [hB]
      linear_combination e.radiusX * Real.cos A * hsc
    have e2 : across ⟨Real.cos A * e.center.x - Real.sin A * e.center.y, Real.sin A * e.center.x + Real.cos A * e.center.y⟩ e.angle
        ⟨Real.cos A * (e.center.x + e.radiusX * Real.cos B) - Real.sin A * (e.center.y + e.radiusX * Real.sin B),
          Real.sin A * (e.center.x + e.radiusX * Real.cos B) + Real.cos A * (e.center.y + e.radiusX * Real.sin B)⟩ =
        e.radiusX * Real.sin A := by
      unfold across
      simp only
      rw [hB]
      linear_combination e.radiusX * Real.sin A * hsc
    unfold ellipseValue
    rw [e1, e2, mul_div_cancel_left₀ _ hx]
    intro h
    have h2 : (e.radiusX * Real.sin A) ^ 2 / e.radiusY ^ 2 = Real.sin A ^ 2 := by
      rw [← div_pow]
      linarith
    rw [div_eq_iff (pow_ne_zero 2 hy)] at h2
    apply hne
    apply mul_left_cancel₀ (pow_ne_zero 2 ha)
    linarith

/-- The ellipse with radii 2 and 1 turned by 90°. -/
example :
    ∃ e', (Ellipse.new ⟨0, 0⟩ 2 1).applyTransformation (Aff.rotation 90) = (.ok (), e') ∧ e'.angle = 0 ∧
      (⟨2, 0⟩ : Vec ℝ) ∈ (Ellipse.new ⟨0, 0⟩ 2 1).points ∧ (Aff.rotation 90).apply ⟨2, 0⟩ = ⟨0, 2⟩ ∧
      (⟨0, 2⟩ : Vec ℝ) ∉ e'.points := by
  have h90 : Vec.radians 90 = Real.pi / 2 := by unfold Vec.radians; ring
  have h1 : ∀ s, scalarMul (Aff.rotation 90).type ((Aff.rotation 90).m 0 0) s = .ok s := by
    intro s; simp [scalarMul, Aff.rotation]
  have hr : ∀ p, (Aff.rotation 90).apply p = p.normal := by
    intro p; unfold Aff.apply Aff.rotation
    ext <;> simp [Matrix.mulVec, dotProduct, Fin.sum_univ_three, h90, Vec.normal]
  refine ⟨{ Ellipse.new ⟨0, 0⟩ 2 1 with center := (Aff.rotation 90).apply ⟨0, 0⟩ },
    by unfold Ellipse.applyTransformation; simp only [h1]; rfl, rfl, ?_, ?_, ?_⟩
  · show ellipseValue _ _ _ _ _ = 1
    simp [ellipseValue, along, across, Ellipse.new]
  · rw [hr]; simp [Vec.normal]
  · show ¬ ellipseValue _ _ _ _ _ = 1
    simp [ellipseValue, along, across, Ellipse.new, hr, Vec.normal]
    norm_num

/-- C136. A transformation that the product by a number refuses leaves the ellipse half-way: the center has moved, the radii
have not. -/
theorem ellipse_transform_torn (e : Ellipse) (h : ℝ) :
    e.applyTransformation (Aff.screen h) = (.error .valueError, { e with center := (Aff.screen h).apply e.center }) := by
  simp [Ellipse.applyTransformation, scalarMul, Aff.screen]

/-! ## C137 -/

/-- C137. For radii `radius_x ≥ radius_y > 0` the eccentricity `c` is in [0, 1), and the distances from any point of the
ellipse to the two foci, at `± c radius_x` on the first axis, add up to `2 radius_x`. -/
theorem eccentricity_foci (e : Ellipse) (hy : 0 < e.radiusY) (hxy : e.radiusY ≤ e.radiusX) :
    ∃ c, e.eccentricity = .ok c ∧ 0 ≤ c ∧ c < 1 ∧ ∀ q ∈ e.points,
      distance q (e.pointFromFrame ⟨c * e.radiusX, 0⟩) + distance q (e.pointFromFrame ⟨-(c * e.radiusX), 0⟩) = 2 * e.radiusX := by
  have hx : 0 < e.radiusX := hy.trans_le hxy
  set a := e.radiusX with ha
  set b := e.radiusY with hb
  have hq1 : (b / a) ^ 2 ≤ 1 := by
    rw [sq_le_one_iff_abs_le_one, abs_of_pos (by positivity), div_le_one hx]; exact hxy
  have hq0 : 0 < (b / a) ^ 2 := by positivity
  have hc : e.eccentricity = .ok (Real.sqrt (1 - (b / a) ^ 2)) := by
    unfold Ellipse.eccentricity Vec.pyDiv
    rw [← ha, ← hb, if_neg hx.ne']
    simp only [bind, Except.bind]
    rw [if_neg (by linarith)]; rfl
  set c := Real.sqrt (1 - (b / a) ^ 2) with hcd
  have hc0 : 0 ≤ c := Real.sqrt_nonneg _
  have hc2 : c ^ 2 = 1 - (b / a) ^ 2 := Real.sq_sqrt (by linarith)
  have hc1 : c < 1 := by nlinarith
  refine ⟨c, hc, hc0, hc1, fun q hq => ?_⟩
  rw [mem_points, ← ha, ← hb] at hq
  have hd : ∀ f, distance q (e.pointFromFrame f) = distance (e.pointInFrame q) f := by
    intro f
    rw [← (frame_isometry e q _).1, (frame_roundtrip e f).2]
  rw [hd, hd]
  generalize e.pointInFrame q = p at hq
  have hb2 : b ^ 2 = a ^ 2 * (1 - c ^ 2) := by rw [hc2]; field_simp; ring
  have hp : p.y ^ 2 = b ^ 2 * (1 - (p.x / a) ^ 2) := by
    have : p.y ^ 2 = b ^ 2 * (p.y / b) ^ 2 := by field_simp
    rw [this]; linear_combination b ^ 2 * hq
  have hpx : (p.x / a) ^ 2 ≤ 1 := by nlinarith [sq_nonneg (p.y / b)]
  obtain ⟨x1, x2⟩ := abs_le.1 ((sq_le_one_iff_abs_le_one _).1 hpx)
  rw [le_div_iff₀ hx] at x1
  rw [div_le_iff₀ hx] at x2
  have hp2 : p.y ^ 2 = (a ^ 2 - p.x ^ 2) * (1 - c ^ 2) := by
    rw [hp, hb2]; field_simp
  have e1 : distance p ⟨c * a, 0⟩ = a - c * p.x := by
    unfold distance
    rw [Real.sqrt_eq_iff_mul_self_eq (by positivity) (by nlinarith)]
    simp only
    linear_combination hp2
  have e2 : distance p ⟨-(c * a), 0⟩ = a + c * p.x := by
    unfold distance
    rw [Real.sqrt_eq_iff_mul_self_eq (by positivity) (by nlinarith)]
    simp only
    linear_combination hp2
  rw [e1, e2]; ring

example : (Ellipse.new ⟨0, 0⟩ 5 3).eccentricity = .ok (4 / 5) := by
  unfold Ellipse.eccentricity Vec.pyDiv Ellipse.new
  simp only [bind, Except.bind]
  rw [if_neg (by norm_num)]
  simp only
  rw [if_neg (by norm_num)]
  have : Real.sqrt (1 - (3 / 5) ^ 2) = 4 / 5 := by
    rw [show (1 : ℝ) - (3 / 5) ^ 2 = (4 / 5) ^ 2 by norm_num]; exact Real.sqrt_sq (by norm_num)
  rw [this]; rfl

/-- C137. An ellipse whose second radius is the greater has no eccentricity: `ValueError`. -/
theorem eccentricity_wrong (e : Ellipse) (hx : 0 < e.radiusX) (hxy : e.radiusX < e.radiusY) :
    e.eccentricity = .error .valueError := by
  unfold Ellipse.eccentricity Vec.pyDiv
  rw [if_neg hx.ne']
  simp only [bind, Except.bind]
  have : 1 < e.radiusY / e.radiusX := by rw [one_lt_div hx]; exact hxy
  rw [if_pos (by nlinarith)]

/-- The value of the quadratic form of a symmetric matrix at the point (x, y, 1). -/
def conicValue (m : Matrix (Fin 3) (Fin 3) ℝ) (q : Vec ℝ) : ℝ := ![q.x, q.y, 1] ⬝ᵥ m.mulVec ![q.x, q.y, 1]

/-- C137. `matrix` is not the matrix of the ellipse: for the angle 0 its conic is the pair of vertical lines tangent to the
ellipse. -/
theorem matrix_wrong (e : Ellipse) (ha : e.angle = 0) (_hx : 0 < e.radiusX) (hy : 0 < e.radiusY) (q : Vec ℝ) :
    conicValue e.matrix q = 0 ↔ q.x = e.center.x - e.radiusX ∨ q.x = e.center.x + e.radiusX := by
  have h0 : Vec.radians e.angle = 0 := by rw [ha]; simp [Vec.radians]
  have : conicValue e.matrix q =
      e.radiusY ^ 2 * ((q.x - (e.center.x - e.radiusX)) * (q.x - (e.center.x + e.radiusX))) := by
    unfold conicValue Ellipse.matrix
    simp only [h0]
    simp [Matrix.mulVec, dotProduct, Fin.sum_univ_three]
    ring
  rw [this, mul_eq_zero, mul_eq_zero, sub_eq_zero, sub_eq_zero]
  simp [hy.ne']

example : conicValue (Ellipse.new ⟨0, 0⟩ 2 1).matrix ⟨0, 1⟩ ≠ 0 ∧ (⟨0, 1⟩ : Vec ℝ) ∈ (Ellipse.new ⟨0, 0⟩ 2 1).points := by
  constructor
  · rw [ne_eq, matrix_wrong _ rfl (by norm_num [Ellipse.new]) (by norm_num [Ellipse.new])]
    norm_num [Ellipse.new]
  · show ellipseValue _ _ _ _ _ = 1
    simp [ellipseValue, along, across, Ellipse.new]

end Patro.Conic
