import Verif.Model.ArrowHead
import Verif.Props.Vector
/-! # Properties of arrow heads: C178, C179 -/

namespace Patro.ArrowHead

/-! ## C178 -/

theorem normalised {v : Vec ℝ} (h : v ≠ 0) : v.toNormalised = some (v.sdiv v.magnitude) := by
  unfold Vec.toNormalised
  rw [if_neg (by rw [Vec.magnitude_eq_zero]; exact h)]

/-- C178. A head with both sides and without offset is the triangle of the tip, the left point and the right one. The middle of the base is at
the given length behind the tip, against the direction, and the two other points are at the given width from it, at right angles, the first one
on the left of the direction. The length of the direction does not matter. -/
theorem head_triangle (point direction : Vec ℝ) (length width : ℝ) (h : direction ≠ 0) :
    ∃ m l r, triangularHead point direction length width = .ok (some m) ∧ m.shape = [point, l, r] ∧ m.head.point = point ∧
      ∃ u : Vec ℝ, u.smul direction.magnitude = direction ∧ u.magnitude = 1 ∧ m.head.direction = u ∧
        (l + r).sdiv 2 = point - u.smul length ∧
        l - (l + r).sdiv 2 = (⟨-u.y, u.x⟩ : Vec ℝ).smul width ∧ r - (l + r).sdiv 2 = (⟨u.y, -u.x⟩ : Vec ℝ).smul width := by
  have hm := Vec.magnitude_pos _ h
  obtain ⟨u, hu⟩ : ∃ u, u = direction.sdiv direction.magnitude := ⟨_, rfl⟩
  have hmake : triangularHead point direction length width = .ok (some ⟨mixin point u length width 0 true true 0,
      [point, point - u.smul length + u.normal.smul width, point - u.smul length - u.normal.smul width]⟩) := by
    unfold triangularHead make
    rw [normalised h, ← hu]
    simp [mixin, Head.makePoints, Head.hasAxialOffset, Head.bothSide, Head.leftPoint, Head.rightPoint, Head.backTipPoint, Head.vector,
      bind, Except.bind, pure, Except.pure]
  refine ⟨_, _, _, hmake, rfl, rfl, u, ?_, ?_, rfl, ?_, ?_, ?_⟩
  · rw [hu]
    ext
    · simp only [Vec.smul_x, Vec.sdiv_x]; field_simp
    · simp only [Vec.smul_y, Vec.sdiv_y]; field_simp
  · rw [Vec.magnitude_eq_iff _ _ zero_le_one, hu]
    have := Vec.magnitude_mul_self direction
    simp only [Vec.magnitudeSquare, Vec.sdiv_x, Vec.sdiv_y] at this ⊢
    field_simp
    nlinarith
  · ext <;> simp <;> ring
  · ext <;> simp <;> ring
  · ext <;> simp <;> ring

/-- C178. `angle` is the angle of the triangle at its tip, in degrees, for a positive length; the three points are those of `tip_point`,
`left_point` and `right_point`, and the area of the triangle is the length times the width. -/
theorem head_angle (point direction : Vec ℝ) (length width : ℝ) (h : direction ≠ 0) (hl : 0 < length) (hw : 0 ≤ width) :
    ∃ m l r, triangularHead point direction length width = .ok (some m) ∧ m.shape = [point, l, r] ∧
      m.head.leftPoint = .ok (some l) ∧ m.head.rightPoint = .ok (some r) ∧
      0 ≤ m.head.angle ∧ m.head.angle < 180 ∧
      (l - point).dot (r - point) = (l - point).magnitude * (r - point).magnitude * Real.cos (m.head.angle * Real.pi / 180) ∧
      (l - point).cross (r - point) / 2 = length * width := by
  have hm := Vec.magnitude_pos _ h
  obtain ⟨u, hu⟩ : ∃ u, u = direction.sdiv direction.magnitude := ⟨_, rfl⟩
  have hmake : triangularHead point direction length width = .ok (some ⟨mixin point u length width 0 true true 0,
      [point, point - u.smul length + u.normal.smul width, point - u.smul length - u.normal.smul width]⟩) := by
    unfold triangularHead make
    rw [normalised h, ← hu]
    simp [mixin, Head.makePoints, Head.hasAxialOffset, Head.bothSide, Head.leftPoint, Head.rightPoint, Head.backTipPoint, Head.vector,
      bind, Except.bind, pure, Except.pure]
  have hunit : u.x * u.x + u.y * u.y = 1 := by
    have := Vec.magnitude_mul_self direction
    rw [hu]
    simp only [Vec.magnitudeSquare, Vec.sdiv_x, Vec.sdiv_y] at this ⊢
    field_simp
    nlinarith
  have hne : (⟨length, width⟩ : Vec ℝ) ≠ 0 := by
    intro hc
    have := congrArg Vec.x hc
    simp only [Vec.zero_x] at this
    exact hl.ne' this
  obtain ⟨hp, -, -⟩ := Vec.fromPolar_orientation _ hne
  have hpx := congrArg Vec.x hp
  have hpy := congrArg Vec.y hp
  have hsq := Vec.magnitude_mul_self (⟨length, width⟩ : Vec ℝ)
  have hor : 0 ≤ (⟨length, width⟩ : Vec ℝ).orientation ∧ (⟨length, width⟩ : Vec ℝ).orientation < 90 := by
    have hpi := Real.pi_pos
    unfold Vec.orientation
    rw [if_neg (by exact hl.ne')]
    by_cases h0 : width = 0
    · rw [if_pos (by exact h0), if_pos (by exact hl.le)]
      norm_num
    · rw [if_neg (by exact h0)]
      simp only
      rw [if_neg (by exact not_lt.2 hl.le)]
      have h1 : 0 ≤ Real.arctan (width / length) := Real.arctan_nonneg.2 (by positivity)
      have h2 := Real.arctan_lt_pi_div_two (width / length)
      unfold Vec.degrees
      refine ⟨by positivity, ?_⟩
      calc Real.arctan (width / length) * (180 / Real.pi) < Real.pi / 2 * (180 / Real.pi) := by
            apply mul_lt_mul_of_pos_right h2; positivity
        _ = 90 := by field_simp; norm_num
  obtain ⟨θ, hθ⟩ : ∃ θ, θ = (⟨length, width⟩ : Vec ℝ).orientation := ⟨_, rfl⟩
  obtain ⟨ρ, hρ⟩ : ∃ ρ, ρ = (⟨length, width⟩ : Vec ℝ).magnitude := ⟨_, rfl⟩
  have hρ0 : 0 ≤ ρ := hρ ▸ Vec.magnitude_nonneg _
  rw [← hθ] at hpx hpy hor
  rw [← hρ] at hpx hpy hsq
  simp only [Vec.fromPolar, Vec.fromAngle, Vec.smul_x, Vec.smul_y, Vec.radians] at hpx hpy
  simp only [Vec.magnitudeSquare] at hsq
  have hmag : ∀ s : ℝ, s = 1 ∨ s = -1 → ∀ q : Vec ℝ, q.x = -(u.x * length) - s * (u.y * width) → q.y = -(u.y * length) + s * (u.x * width) →
      q.magnitude = ρ := by
    intro s hs q hx hy
    rw [Vec.magnitude_eq_iff _ _ hρ0]
    simp only [Vec.magnitudeSquare, hx, hy]
    rcases hs with rfl | rfl <;> linear_combination (length * length + width * width) * hunit - hsq
  refine ⟨_, _, _, hmake, rfl, ?_, ?_, ?_, ?_, ?_, ?_⟩
  · simp [mixin, Head.leftPoint, Head.backTipPoint, bind, Except.bind, pure, Except.pure]
  · simp [mixin, Head.rightPoint, Head.backTipPoint, bind, Except.bind, pure, Except.pure]
  · simp only [Head.angle, mixin, ← hθ]; linarith
  · simp only [Head.angle, mixin, ← hθ]; linarith
  · rw [hmag 1 (.inl rfl) _ (by simp; ring) (by simp; ring), hmag (-1) (.inr rfl) _ (by simp; ring) (by simp; ring)]
    simp only [Head.angle, mixin, ← hθ]
    have hcos : Real.cos (2 * θ * Real.pi / 180) = 2 * Real.cos (θ * (Real.pi / 180)) ^ 2 - 1 := by
      rw [← Real.cos_two_mul]; congr 1; ring
    rw [hcos]
    simp only [Vec.dot, Vec.sub_x, Vec.add_x, Vec.sub_y, Vec.add_y, Vec.smul_x, Vec.smul_y, Vec.normal_x, Vec.normal_y]
    generalize Real.cos (θ * (Real.pi / 180)) = c at *
    have hl2 : length * length = ρ * c * (ρ * c) := by rw [hpx]
    linear_combination (length * length - width * width) * hunit + hsq + 2 * hl2
  · simp only [Vec.cross, Vec.sub_x, Vec.add_x, Vec.sub_y, Vec.add_y, Vec.smul_x, Vec.smul_y, Vec.normal_x, Vec.normal_y]
    linear_combination length * width * hunit

theorem make_error {α : Type} {direction : Vec ℝ} {f : Vec ℝ → Head} {shape : Head → Except PyErr α} {e : PyErr}
    (h : ∀ u, shape (f u) = .error e) : make direction f shape = .error e := by
  unfold make
  split
  · rw [h]; rfl
  · rw [h]; rfl

/-- C178 fails: a head with one side, or none, is never made: `AttributeError` is raised, whatever the other arguments. -/
theorem one_side_wrong (point direction : Vec ℝ) (length width depth offset : ℝ) (left right : Bool) (h : (left && right) = false) :
    triangularHead point direction length width offset left right = .error .attributeError ∧
    triangularCurvyHead point direction length width depth offset left right = .error .attributeError := by
  constructor
  · refine make_error fun u => ?_
    by_cases ho : offset = 0 <;> cases left <;> cases right <;> first | cases h | skip
    all_goals simp [mixin, Head.makePoints, Head.hasAxialOffset, Head.bothSide, Head.onlyLeft, Head.leftPoint, Head.rightPoint,
      Head.backTipPoint, Head.offsetedBackTipPoint, bind, Except.bind, pure, Except.pure, ho]
  · refine make_error fun u => ?_
    by_cases ho : offset = 0 <;> cases left <;> cases right <;> first | cases h | skip
    all_goals simp [mixin, Head.makePath, Head.pathPoints, Head.hasAxialOffset, Head.bothSide, Head.onlyLeft, Head.leftPoint, Head.rightPoint,
      Head.leftCurvedPoint, Head.rightCurvedPoint, Head.backTipPoint, Head.offsetedBackTipPoint, bind, Except.bind, pure, Except.pure, ho]

/-- C178 fails: a head with an axial offset is never made. -/
theorem axial_offset_wrong (point direction : Vec ℝ) (length width depth offset : ℝ) (left right : Bool) (h : offset ≠ 0) :
    triangularHead point direction length width offset left right = .error .attributeError ∧
    triangularCurvyHead point direction length width depth offset left right = .error .attributeError := by
  by_cases hs : (left && right) = false
  · exact one_side_wrong point direction length width depth offset left right hs
  obtain ⟨rfl, rfl⟩ : left = true ∧ right = true := by simpa using hs
  constructor
  · refine make_error fun u => ?_
    simp [mixin, Head.makePoints, Head.hasAxialOffset, Head.bothSide, Head.leftPoint, Head.rightPoint,
      Head.backTipPoint, Head.offsetedBackTipPoint, bind, Except.bind, pure, Except.pure, h]
  · refine make_error fun u => ?_
    simp [mixin, Head.makePath, Head.pathPoints, Head.hasAxialOffset, Head.bothSide, Head.leftPoint, Head.rightPoint,
      Head.leftCurvedPoint, Head.rightCurvedPoint, Head.backTipPoint, Head.offsetedBackTipPoint, bind, Except.bind, pure, Except.pure, h]

/-- C178. With both sides and no offset a head is made for every direction: without exception, and with nan coordinates for a null one. -/
theorem head_made (point direction : Vec ℝ) (length width : ℝ) :
    (direction ≠ 0 → ∃ m, triangularHead point direction length width = .ok (some m)) ∧
    (direction = 0 → triangularHead point direction length width = .ok none) := by
  constructor
  · intro h
    obtain ⟨m, -, -, hm, -⟩ := head_triangle point direction length width h
    exact ⟨m, hm⟩
  · rintro rfl
    have : (0 : Vec ℝ).toNormalised = none := by
      unfold Vec.toNormalised
      rw [if_pos ((Vec.magnitude_eq_zero 0).2 rfl)]
    unfold triangularHead make
    rw [this]
    simp [mixin, Head.makePoints, Head.hasAxialOffset, Head.bothSide, Head.leftPoint, Head.rightPoint, Head.backTipPoint, Head.vector,
      bind, Except.bind, pure, Except.pure]

/-- C178 fails for transformed heads: a copy is never made, and a transformation in place moves the polygon but not the points of the head, so
that its tip is no more the first point of the polygon when the transformation moves it. -/
theorem head_transform_wrong (point direction : Vec ℝ) (length width : ℝ) (h : direction ≠ 0) (t : Vec ℝ → Vec ℝ) (ht : t point ≠ point) :
    ∃ m m', triangularHead point direction length width = .ok (some m) ∧ transform m t true = .error .notImplementedError ∧
      transform m t false = .ok m' ∧ m'.shape = m.shape.map t ∧ m'.shape.head? = some (t point) ∧ m'.head.point = point ∧
      m'.shape.head? ≠ some m'.head.point := by
  obtain ⟨m, l, r, h1, h2, h3, -⟩ := head_triangle point direction length width h
  refine ⟨m, _, h1, rfl, rfl, rfl, ?_, h3, ?_⟩
  · simp [h2]
  · simp [h2, h3, ht]

/-! ## C179 -/

/-- C179. A curved head with both sides and without offset is a closed path: a curve from the tip to the left point, a line to the right
point, a curve back to the tip, and a closing line of null length. The control point of the first curve is at the middle of the left side,
moved outwards by the depth times the length of the side. -/
theorem curvy_path (point direction : Vec ℝ) (length width depth : ℝ) (h : direction ≠ 0) :
    ∃ m m' l r c d, triangularHead point direction length width = .ok (some m) ∧ m.shape = [point, l, r] ∧
      triangularCurvyHead point direction length width depth = .ok (some m') ∧
      m'.shape.p0 = point ∧ m'.shape.closed = true ∧ m'.shape.parts.length = 4 ∧
      m'.shape.points 0 = .ok [point, c, l] ∧ m'.shape.points 1 = .ok [l, r] ∧ m'.shape.points 2 = .ok [r, d, point] ∧
      m'.shape.points 3 = .ok [point, point] ∧
      c - (l + point).sdiv 2 = (⟨(l - point).y, -(l - point).x⟩ : Vec ℝ).smul depth ∧
      d - (r + point).sdiv 2 = (⟨(r - point).y, -(r - point).x⟩ : Vec ℝ).smul depth := by
  obtain ⟨u, hu⟩ : ∃ u, u = direction.sdiv direction.magnitude := ⟨_, rfl⟩
  have hmake : triangularHead point direction length width = .ok (some ⟨mixin point u length width 0 true true 0,
      [point, point - u.smul length + u.normal.smul width, point - u.smul length - u.normal.smul width]⟩) := by
    unfold triangularHead make
    rw [normalised h, ← hu]
    simp [mixin, Head.makePoints, Head.hasAxialOffset, Head.bothSide, Head.leftPoint, Head.rightPoint, Head.backTipPoint, Head.vector,
      bind, Except.bind, pure, Except.pure]
  obtain ⟨l, hl⟩ : ∃ l, l = point - u.smul length + u.normal.smul width := ⟨_, rfl⟩
  obtain ⟨r, hr⟩ : ∃ r, r = point - u.smul length - u.normal.smul width := ⟨_, rfl⟩
  obtain ⟨c, hc⟩ : ∃ c, c = (l + point).sdiv 2 - (l - point).normal.smul depth := ⟨_, rfl⟩
  obtain ⟨d, hd⟩ : ∃ d, d = (r + point).sdiv 2 - (r - point).normal.smul depth := ⟨_, rfl⟩
  have hcurvy : triangularCurvyHead point direction length width depth = .ok (some ⟨mixin point u length width 0 true true depth,
      ⟨point, [.quad c l true, .line r true none false false, .quad d point true, .line point true none false false], true⟩⟩) := by
    unfold triangularCurvyHead make
    rw [normalised h, ← hu, hc, hd, hl, hr]
    simp [mixin, Head.makePath, Head.pathPoints, Head.hasAxialOffset, Head.bothSide, Head.leftPoint, Head.rightPoint, Head.backTipPoint,
      Head.leftCurvedPoint, Head.rightCurvedPoint, Head.vector, Head.call, Path.Path.quadraticTo, Path.Path.lineTo, Path.Path.close,
      Path.Path.addPart, Path.Path.new, Path.Part.radius, Path.setRadius, bind, Except.bind, pure, Except.pure]
  refine ⟨_, _, l, r, c, d, hmake, by rw [hl, hr], hcurvy, rfl, rfl, rfl, rfl, rfl, rfl, rfl, ?_, ?_⟩
  · rw [hc]; ext <;> simp <;> ring
  · rw [hd]; ext <;> simp <;> ring

/-- The mirror image of `q` in the line through `p` at right angles to `n`. -/
noncomputable def mirror (p n q : Vec ℝ) : Vec ℝ := q - n.smul (2 * ((q - p).x * n.x + (q - p).y * n.y) / (n.x * n.x + n.y * n.y))

theorem mirror_unit {u v n : Vec ℝ} {k : ℝ} (hk : k ≠ 0) (hv : v = u.smul k) (hu : u.x * u.x + u.y * u.y = 1) (hn : n = ⟨-v.y, v.x⟩) (p q : Vec ℝ) :
    mirror p n q = q - u.normal.smul (2 * (q - p).dot u.normal) := by
  subst hn hv
  ext
  · simp only [mirror, Vec.smul_x, Vec.smul_y, Vec.sub_x, Vec.sub_y, Vec.dot, Vec.normal_x, Vec.normal_y]
    field_simp
    rw [show u.y ^ 2 + u.x ^ 2 = 1 by linear_combination hu, div_one]
  · simp only [mirror, Vec.smul_x, Vec.smul_y, Vec.sub_x, Vec.sub_y, Vec.dot, Vec.normal_x, Vec.normal_y]
    field_simp
    rw [show u.y ^ 2 + u.x ^ 2 = 1 by linear_combination hu, div_one]

/-- C179 fails: the two curves are never mirror images of each other, but for a null depth or a null triangle: the control point of the right
side is moved to the same side as that of the left one. -/
theorem curvy_symmetric_wrong (point direction : Vec ℝ) (length width depth : ℝ) (h : direction ≠ 0) :
    ∃ m' l r c d, triangularCurvyHead point direction length width depth = .ok (some m') ∧
      m'.shape.points 0 = .ok [point, c, l] ∧ m'.shape.points 2 = .ok [r, d, point] ∧
      mirror point ⟨-direction.y, direction.x⟩ l = r ∧
      (mirror point ⟨-direction.y, direction.x⟩ c = d ↔ depth = 0 ∨ length = 0 ∧ width = 0) := by
  obtain ⟨u, hu⟩ : ∃ u, u = direction.sdiv direction.magnitude := ⟨_, rfl⟩
  have hm := Vec.magnitude_pos _ h
  have hunit : u.x * u.x + u.y * u.y = 1 := by
    have := Vec.magnitude_mul_self direction
    rw [hu]
    simp only [Vec.magnitudeSquare, Vec.sdiv_x, Vec.sdiv_y] at this ⊢
    field_simp
    nlinarith
  obtain ⟨l, hl⟩ : ∃ l, l = point - u.smul length + u.normal.smul width := ⟨_, rfl⟩
  obtain ⟨r, hr⟩ : ∃ r, r = point - u.smul length - u.normal.smul width := ⟨_, rfl⟩
  obtain ⟨c, hc⟩ : ∃ c, c = (l + point).sdiv 2 - (l - point).normal.smul depth := ⟨_, rfl⟩
  obtain ⟨d, hd⟩ : ∃ d, d = (r + point).sdiv 2 - (r - point).normal.smul depth := ⟨_, rfl⟩
  have hcurvy : triangularCurvyHead point direction length width depth = .ok (some ⟨mixin point u length width 0 true true depth,
      ⟨point, [.quad c l true, .line r true none false false, .quad d point true, .line point true none false false], true⟩⟩) := by
    unfold triangularCurvyHead make
    rw [normalised h, ← hu, hc, hd, hl, hr]
    simp [mixin, Head.makePath, Head.pathPoints, Head.hasAxialOffset, Head.bothSide, Head.leftPoint, Head.rightPoint, Head.backTipPoint,
      Head.leftCurvedPoint, Head.rightCurvedPoint, Head.vector, Head.call, Path.Path.quadraticTo, Path.Path.lineTo, Path.Path.close,
      Path.Path.addPart, Path.Path.new, Path.Part.radius, Path.setRadius, bind, Except.bind, pure, Except.pure]
  have hdir : direction = u.smul direction.magnitude := by
    rw [hu]
    ext
    · simp only [Vec.smul_x, Vec.sdiv_x]; field_simp
    · simp only [Vec.smul_y, Vec.sdiv_y]; field_simp
  have hmir := mirror_unit hm.ne' hdir hunit rfl point
  refine ⟨_, l, r, c, d, hcurvy, rfl, rfl, ?_, ?_⟩
  · rw [hmir, hl, hr]
    ext
    · simp only [Vec.sub_x, Vec.add_x, Vec.smul_x, Vec.normal_x, Vec.dot, Vec.sub_y, Vec.add_y, Vec.smul_y, Vec.normal_y]
      linear_combination 2 * u.y * width * hunit
    · simp only [Vec.sub_x, Vec.add_x, Vec.smul_x, Vec.normal_x, Vec.dot, Vec.sub_y, Vec.add_y, Vec.smul_y, Vec.normal_y]
      linear_combination -2 * u.x * width * hunit
  · have key : c - u.normal.smul (2 * (c - point).dot u.normal) - d =
        (u.smul width - u.normal.smul length).smul (2 * depth) := by
      rw [hc, hd, hl, hr]
      ext
      · simp only [Vec.sub_x, Vec.add_x, Vec.smul_x, Vec.normal_x, Vec.dot, Vec.sub_y, Vec.add_y, Vec.smul_y, Vec.normal_y, Vec.sdiv_x, Vec.sdiv_y]
        linear_combination (u.y * width + 2 * u.y * length * depth) * hunit
      · simp only [Vec.sub_x, Vec.add_x, Vec.smul_x, Vec.normal_x, Vec.dot, Vec.sub_y, Vec.add_y, Vec.smul_y, Vec.normal_y, Vec.sdiv_x, Vec.sdiv_y]
        linear_combination (-u.x * width - 2 * u.x * length * depth) * hunit
    rw [hmir]
    have hz : c - u.normal.smul (2 * (c - point).dot u.normal) = d ↔ (u.smul width - u.normal.smul length).smul (2 * depth) = 0 := by
      rw [← key]
      generalize c - u.normal.smul (2 * (c - point).dot u.normal) = q
      simp only [Vec.ext_iff, Vec.sub_x, Vec.sub_y, Vec.zero_x, Vec.zero_y, sub_eq_zero]
    rw [hz]
    simp only [Vec.ext_iff, Vec.sub_x, Vec.sub_y, Vec.smul_x, Vec.smul_y, Vec.zero_x, Vec.zero_y, Vec.normal_x, Vec.normal_y]
    constructor
    · rintro ⟨h1, h2⟩
      by_cases h0 : depth = 0
      · exact .inl h0
      · right
        have e1 : u.x * width - -u.y * length = 0 := by
          rcases mul_eq_zero.1 h1 with h1 | h1 <;> first | linear_combination h1 | (exfalso; apply h0; linarith)
        have e2 : u.y * width - u.x * length = 0 := by
          rcases mul_eq_zero.1 h2 with h2 | h2 <;> first | linear_combination h2 | (exfalso; apply h0; linarith)
        constructor
        · linear_combination u.y * e1 - u.x * e2 - length * hunit
        · linear_combination u.x * e1 + u.y * e2 - width * hunit
    · rintro (rfl | ⟨rfl, rfl⟩) <;> constructor <;> ring

/-! ## Examples -/

theorem direction_ne : (⟨3, 0⟩ : Vec ℝ) ≠ 0 := by
  intro h
  have := congrArg Vec.x h
  norm_num at this

/-- A head at (1, 2) pointing to the right: its points. -/
example : ∃ m, triangularHead ⟨1, 2⟩ ⟨3, 0⟩ 2 1 = .ok (some m) ∧ m.shape = [⟨1, 2⟩, ⟨-1, 3⟩, ⟨-1, 1⟩] := by
  obtain ⟨m, l, r, h1, h2, -, u, hu, -, -, h3, h4, h5⟩ := head_triangle ⟨1, 2⟩ ⟨3, 0⟩ 2 1 direction_ne
  have hm : (⟨3, 0⟩ : Vec ℝ).magnitude = 3 := by
    rw [Vec.magnitude_eq_iff _ _ (by norm_num)]; norm_num [Vec.magnitudeSquare]
  rw [hm] at hu
  simp only [Vec.ext_iff, Vec.smul_x, Vec.smul_y, Vec.sub_x, Vec.sub_y, Vec.add_x, Vec.add_y, Vec.sdiv_x, Vec.sdiv_y] at hu h3 h4 h5
  refine ⟨m, h1, ?_⟩
  have : l = ⟨-1, 3⟩ := by ext <;> simp only <;> linarith
  have : r = ⟨-1, 1⟩ := by ext <;> simp only <;> linarith
  subst l r
  exact h2

/-- It can be moved. -/
example : (fun q : Vec ℝ => q + ⟨1, 0⟩) ⟨1, 2⟩ ≠ ⟨1, 2⟩ := by
  intro h
  have := congrArg Vec.x h
  simp at this

end Patro.ArrowHead
