import Verif.Props.EllipseBezier
/-! # C141: arcs given by their ends -/

namespace Patro.Conic

open Classical Transformation Ellipse

/-- The coordinates of the rotation of a vector. -/
theorem rotation_apply (a : ℝ) (v : Vec ℝ) : (Lin.rotation a).apply v =
    ⟨Real.cos (Vec.radians a) * v.x - Real.sin (Vec.radians a) * v.y, Real.sin (Vec.radians a) * v.x + Real.cos (Vec.radians a) * v.y⟩ := by
  ext <;> simp [Lin.rotation, Lin.apply] <;> ring

theorem magnitude_one (v : Vec ℝ) (h : v.x ^ 2 + v.y ^ 2 = 1) : v.magnitude = 1 ∧ v ≠ 0 := by
  constructor
  · unfold Vec.magnitude Vec.magnitudeSquare
    rw [show v.x * v.x + v.y * v.y = 1 by linarith, Real.sqrt_one]
  · intro e
    rw [e] at h
    simp at h

/-- The angle from a unit vector to another. -/
theorem angleWith_unit (v d : Vec ℝ) (hv : v.x ^ 2 + v.y ^ 2 = 1) (hd : d.x ^ 2 + d.y ^ 2 = 1) :
    ∃ a, v.angleWith d = .ok a ∧ v.x = Real.cos (Vec.radians a) * d.x - Real.sin (Vec.radians a) * d.y ∧
      v.y = Real.sin (Vec.radians a) * d.x + Real.cos (Vec.radians a) * d.y := by
  obtain ⟨m1, n1⟩ := magnitude_one v hv
  obtain ⟨m2, n2⟩ := magnitude_one d hd
  obtain ⟨a, ha, -, -, hr⟩ := Vec.angleWith_spec v d n1 n2
  rw [m1, m2] at hr
  have hx := congrArg Vec.x hr
  have hy := congrArg Vec.y hr
  simp [Vec.rotate] at hx hy
  exact ⟨a, ha, by linarith, by linarith⟩

theorem mod360_spec (x : ℝ) : 0 ≤ mod360 x ∧ mod360 x < 360 ∧ ∃ k : ℤ, mod360 x = x + k * 360 := by
  unfold mod360
  have h1 := Int.floor_le (x / 360)
  have h2 := Int.lt_floor_add_one (x / 360)
  rw [le_div_iff₀ (by norm_num)] at h1
  rw [div_lt_iff₀ (by norm_num)] at h2
  exact ⟨by linarith, by linarith, -⌊x / 360⌋, by push_cast; ring⟩

theorem radians_turn (x : ℝ) (k : ℤ) : Vec.radians (x + k * 360) = Vec.radians x + k * (2 * Real.pi) := by
  unfold Vec.radians; ring

theorem cos_turn (x : ℝ) (k : ℤ) : Real.cos (Vec.radians (x + k * 360)) = Real.cos (Vec.radians x) := by
  rw [radians_turn, Real.cos_add_int_mul_two_pi]

theorem sin_turn (x : ℝ) (k : ℤ) : Real.sin (Vec.radians (x + k * 360)) = Real.sin (Vec.radians x) := by
  rw [radians_turn, Real.sin_add_int_mul_two_pi]

theorem radians_add (a b : ℝ) : Vec.radians (a + b) = Vec.radians a + Vec.radians b := by unfold Vec.radians; ring

/-- The half of the chord in the frame of the ellipse. -/
noncomputable def halfChord (p1 p2 : Vec ℝ) (angle : ℝ) : Vec ℝ := ((Lin.rotation (-angle)).apply (p1 - p2)).sdiv 2

theorem halfChord_along (p1 p2 : Vec ℝ) (angle : ℝ) (c : Vec ℝ) :
    (halfChord p1 p2 angle).x = (along c angle p1 - along c angle p2) / 2 ∧
    (halfChord p1 p2 angle).y = (across c angle p1 - across c angle p2) / 2 := by
  have h : Vec.radians (-angle) = -(angle * Real.pi / 180) := by unfold Vec.radians; ring
  unfold halfChord
  rw [rotation_apply]
  simp only [h, Real.cos_neg, Real.sin_neg, Vec.sdiv_x, Vec.sdiv_y, Vec.sub_x, Vec.sub_y, along, across]
  constructor <;> ring

theorem halfChord_ne (p1 p2 : Vec ℝ) (angle : ℝ) (hne : p1 ≠ p2) : halfChord p1 p2 angle ≠ 0 := by
  intro h
  obtain ⟨h1, h2⟩ := halfChord_along p1 p2 angle ⟨0, 0⟩
  rw [h] at h1 h2
  have hs := Real.sin_sq_add_cos_sq (angle * Real.pi / 180)
  unfold along at h1
  unfold across at h2
  simp at h1 h2
  apply hne
  ext
  · linear_combination -(p1.x - p2.x) * hs + (-2 * h1) * Real.cos (angle * Real.pi / 180) - (-2 * h2) * Real.sin (angle * Real.pi / 180)
  · linear_combination -(p1.y - p2.y) * hs + (-2 * h1) * Real.sin (angle * Real.pi / 180) + (-2 * h2) * Real.cos (angle * Real.pi / 180)

/-- The test of the radii: two points are on an ellipse with these radii only if the test is passed. -/
theorem radii_test (p1 p2 : Vec ℝ) (rx ry angle : ℝ) (c : Vec ℝ)
    (h1 : p1 ∈ ellipsePoints c rx ry angle) (h2 : p2 ∈ ellipsePoints c rx ry angle) :
    (halfChord p1 p2 angle).x ^ 2 / rx ^ 2 + (halfChord p1 p2 angle).y ^ 2 / ry ^ 2 ≤ 1 := by
  obtain ⟨e1, e2⟩ := halfChord_along p1 p2 angle c
  rw [e1, e2, ← div_pow, ← div_pow]
  change (_ / _) ^ 2 + (_ / _) ^ 2 = 1 at h1
  change (_ / _) ^ 2 + (_ / _) ^ 2 = 1 at h2
  have g1 : (along c angle p1 - along c angle p2) / 2 / rx = (along c angle p1 / rx - along c angle p2 / rx) / 2 := by ring
  have g2 : (across c angle p1 - across c angle p2) / 2 / ry = (across c angle p1 / ry - across c angle p2 / ry) / 2 := by ring
  rw [g1, g2]
  nlinarith [sq_nonneg (along c angle p1 / rx + along c angle p2 / rx), sq_nonneg (across c angle p1 / ry + across c angle p2 / ry)]

/-- The sign of the sine of an angle between 0° and 360°. -/
theorem sin_sign (d : ℝ) (h0 : 0 < d) (h1 : d < 360) :
    (0 ≤ Real.sin (Vec.radians d) → d ≤ 180) ∧ (Real.sin (Vec.radians d) ≤ 0 → 180 ≤ d) := by
  have hpi := Real.pi_pos
  constructor
  · intro h
    by_contra hc
    push Not at hc
    have hp : 0 < Real.sin (Vec.radians (d - 180)) := by
      apply Real.sin_pos_of_pos_of_lt_pi <;> unfold Vec.radians <;> nlinarith
    have e : Vec.radians (d - 180) = Vec.radians d - Real.pi := by unfold Vec.radians; ring
    rw [e, Real.sin_sub_pi] at hp
    linarith
  · intro h
    by_contra hc
    push Not at hc
    have hp : 0 < Real.sin (Vec.radians d) := by
      apply Real.sin_pos_of_pos_of_lt_pi <;> unfold Vec.radians <;> nlinarith
    linarith

/-- The two angles `svg_arc` computes, in the frame where the ellipse is the unit circle. -/
theorem arc_angles (A B σ r : ℝ) (hσ2 : σ ^ 2 = 1) (hr2 : (A ^ 2 + B ^ 2) * r ^ 2 = 1 - (A ^ 2 + B ^ 2)) :
    ∃ α β, (⟨1, 0⟩ : Vec ℝ).angleWith ⟨A - σ * r * B, B + σ * r * A⟩ = .ok α ∧
      (⟨A - σ * r * B, B + σ * r * A⟩ : Vec ℝ).angleWith ⟨-(A + σ * r * B), -(B - σ * r * A)⟩ = .ok β ∧
      (A - σ * r * B = Real.cos (Vec.radians α) ∧ B + σ * r * A = -Real.sin (Vec.radians α)) ∧
      (-(A + σ * r * B) = Real.cos (Vec.radians (α + β)) ∧ -(B - σ * r * A) = -Real.sin (Vec.radians (α + β))) ∧
      Real.sin (Vec.radians β) = -2 * σ * r * (A ^ 2 + B ^ 2) ∧ Real.cos (Vec.radians β) = 1 - 2 * (A ^ 2 + B ^ 2) := by
  have n1 : (A - σ * r * B) ^ 2 + (B + σ * r * A) ^ 2 = 1 := by
    linear_combination hr2 + (A ^ 2 + B ^ 2) * r ^ 2 * hσ2
  have n2 : (-(A + σ * r * B)) ^ 2 + (-(B - σ * r * A)) ^ 2 = 1 := by
    linear_combination hr2 + (A ^ 2 + B ^ 2) * r ^ 2 * hσ2
  have hcr : -(A + σ * r * B) * (B + σ * r * A) - -(B - σ * r * A) * (A - σ * r * B) = -2 * σ * r * (A ^ 2 + B ^ 2) := by ring
  have hdt : -(A + σ * r * B) * (A - σ * r * B) + -(B - σ * r * A) * (B + σ * r * A) = 1 - 2 * (A ^ 2 + B ^ 2) := by
    linear_combination hr2 + (A ^ 2 + B ^ 2) * r ^ 2 * hσ2
  rw [← hcr, ← hdt]
  obtain ⟨α, hα, a1, a2⟩ := angleWith_unit ⟨1, 0⟩ ⟨A - σ * r * B, B + σ * r * A⟩ (by norm_num) n1
  obtain ⟨β, hβ, b1, b2⟩ := angleWith_unit ⟨A - σ * r * B, B + σ * r * A⟩ ⟨-(A + σ * r * B), -(B - σ * r * A)⟩ n1 n2
  simp only at a1 a2 b1 b2
  refine ⟨α, β, hα, hβ, ?_⟩
  clear hcr hdt hα hβ hr2
  generalize -(A + σ * r * B) = x2 at *
  generalize -(B - σ * r * A) = y2 at *
  generalize A - σ * r * B = x1 at *
  generalize B + σ * r * A = y1 at *
  have hsα := Real.sin_sq_add_cos_sq (Vec.radians α)
  have hsβ := Real.sin_sq_add_cos_sq (Vec.radians β)
  rw [radians_add, Real.cos_add, Real.sin_add]
  generalize Real.cos (Vec.radians α) = ca at *
  generalize Real.sin (Vec.radians α) = sa at *
  generalize Real.cos (Vec.radians β) = cb at *
  generalize Real.sin (Vec.radians β) = sb at *
  have v1x : x1 = ca := by linear_combination -x1 * hsα - ca * a1 - sa * a2
  have v1y : y1 = -sa := by linear_combination -y1 * hsα + sa * a1 - ca * a2
  refine ⟨⟨v1x, v1y⟩, ⟨?_, ?_⟩, ?_, ?_⟩
  · linear_combination -x2 * hsβ - cb * b1 - sb * b2 + cb * v1x + sb * v1y
  · linear_combination -y2 * hsβ + sb * b1 - cb * b2 - sb * v1x + cb * v1y
  · linear_combination -sb * n2 + y2 * b1 - x2 * b2
  · linear_combination -cb * n2 - x2 * b1 - y2 * b2

/-- The angle of the arc. -/
noncomputable def arcDelta (sweep : Bool) (β : ℝ) : ℝ :=
  if sweep = false ∧ mod360 β > 0 then mod360 β - 360 else
    if sweep = true ∧ mod360 β < 0 then mod360 β + 360 else mod360 β

theorem arcDelta_spec (large sweep : Bool) (β σ w S : ℝ) (hw : 0 ≤ w) (hS : 0 < S)
    (hσ : σ = (if large ≠ sweep then 1 else -1) * -1)
    (hsin : Real.sin (Vec.radians β) = -2 * σ * w) (hcos : Real.cos (Vec.radians β) = 1 - 2 * S) :
    (∃ k : ℤ, arcDelta sweep β = β + k * 360) ∧
    (sweep = true → 0 < arcDelta sweep β ∧ arcDelta sweep β < 360) ∧
    (sweep = false → arcDelta sweep β < 0 ∧ -360 < arcDelta sweep β) ∧
    (large = true → 180 ≤ |arcDelta sweep β|) ∧ (large = false → |arcDelta sweep β| ≤ 180) := by
  obtain ⟨d0, d1, k, hk⟩ := mod360_spec β
  have hd0 : 0 < mod360 β := by
    rcases lt_or_eq_of_le d0 with h | h
    · exact h
    · exfalso
      have := cos_turn β k
      rw [← hk, ← h, hcos] at this
      simp [Vec.radians] at this
      linarith
  have hsin' : Real.sin (Vec.radians (mod360 β)) = -2 * σ * w := by rw [hk, sin_turn, hsin]
  obtain ⟨g1, g2⟩ := sin_sign _ hd0 d1
  rw [hsin'] at g1 g2
  have hdelta : arcDelta sweep β = if sweep then mod360 β else mod360 β - 360 := by
    unfold arcDelta
    cases sweep <;> simp [hd0, hd0.le]
  clear hsin hsin' hcos
  rw [hdelta]
  cases sweep <;> cases large <;> simp only [hσ] at g1 g2 <;> simp at g1 g2 ⊢
  · refine ⟨⟨k - 1, by rw [hk]; push_cast; ring⟩, ⟨by linarith, by linarith⟩, ?_⟩
    rw [abs_of_neg (by linarith)]; linarith [g2 (by linarith)]
  · refine ⟨⟨k - 1, by rw [hk]; push_cast; ring⟩, ⟨by linarith, by linarith⟩, ?_⟩
    rw [abs_of_neg (by linarith)]; linarith [g1 (by linarith)]
  · refine ⟨⟨k, hk⟩, ⟨by linarith, by linarith⟩, ?_⟩
    rw [abs_of_pos hd0]; exact g1 (by linarith)
  · refine ⟨⟨k, hk⟩, ⟨by linarith, by linarith⟩, ?_⟩
    rw [abs_of_pos hd0]; exact g2 (by linarith)

/-- The centre of the arc, from its coordinates in the frame of the chord. -/
noncomputable def arcCenter (p1 p2 : Vec ℝ) (angle : ℝ) (cp : Vec ℝ) : Vec ℝ := (Lin.rotation angle).apply cp + (p1 + p2).sdiv 2

theorem arcCenter_along (p1 p2 : Vec ℝ) (angle : ℝ) (cp : Vec ℝ) :
    along (arcCenter p1 p2 angle cp) angle ((p1 + p2).sdiv 2) = -cp.x ∧
    along (arcCenter p1 p2 angle cp) angle p1 = (halfChord p1 p2 angle).x - cp.x ∧
    across (arcCenter p1 p2 angle cp) angle p1 = (halfChord p1 p2 angle).y - cp.y ∧
    along (arcCenter p1 p2 angle cp) angle p2 = -(halfChord p1 p2 angle).x - cp.x ∧
    across (arcCenter p1 p2 angle cp) angle p2 = -(halfChord p1 p2 angle).y - cp.y := by
  have hsa := Real.sin_sq_add_cos_sq (angle * Real.pi / 180)
  have hcx : (arcCenter p1 p2 angle cp).x =
      Real.cos (angle * Real.pi / 180) * cp.x - Real.sin (angle * Real.pi / 180) * cp.y + (p1.x + p2.x) / 2 := by
    unfold arcCenter; rw [rotation_apply, radians_eq]; simp
  have hcy : (arcCenter p1 p2 angle cp).y =
      Real.sin (angle * Real.pi / 180) * cp.x + Real.cos (angle * Real.pi / 180) * cp.y + (p1.y + p2.y) / 2 := by
    unfold arcCenter; rw [rotation_apply, radians_eq]; simp
  generalize arcCenter p1 p2 angle cp = center at *
  obtain ⟨c1, c2⟩ := halfChord_along p1 p2 angle center
  have m1 : along center angle ((p1 + p2).sdiv 2) = -cp.x := by
    unfold along; rw [hcx, hcy]; simp; linear_combination -cp.x * hsa
  have m2 : across center angle ((p1 + p2).sdiv 2) = -cp.y := by
    unfold across; rw [hcx, hcy]; simp; linear_combination -cp.y * hsa
  have m3 : along center angle p1 + along center angle p2 = 2 * along center angle ((p1 + p2).sdiv 2) := by
    unfold along; simp; ring
  have m4 : across center angle p1 + across center angle p2 = 2 * across center angle ((p1 + p2).sdiv 2) := by
    unfold across; simp; ring
  refine ⟨m1, ?_, ?_, ?_, ?_⟩ <;> linarith

/-- `svg_arc` when its divisions succeed. -/
theorem svgArc_eq (p1 p2 P cp v1 v2 : Vec ℝ) (rx ry angle σ q α β : ℝ) (large sweep : Bool) (hx : rx ≠ 0) (hy : ry ≠ 0)
    (hP : halfChord p1 p2 angle = P) (hr : P.x ^ 2 / |rx| ^ 2 + P.y ^ 2 / |ry| ^ 2 ≤ 1)
    (hσ : σ = (if large ≠ sweep then 1 else -1) * -1)
    (hden : |rx| ^ 2 * P.y ^ 2 + |ry| ^ 2 * P.x ^ 2 ≠ 0)
    (hq : (|rx| ^ 2 * |ry| ^ 2 - (|rx| ^ 2 * P.y ^ 2 + |ry| ^ 2 * P.x ^ 2)) / (|rx| ^ 2 * P.y ^ 2 + |ry| ^ 2 * P.x ^ 2) = q)
    (hcp : (P.antiNormal.scale (|rx| / |ry|) (1 / (|rx| / |ry|))).smul (σ * Real.sqrt q) = cp)
    (hv1 : (P - cp).divide |rx| |ry| = v1) (hv2 : -(P + cp).divide |rx| |ry| = v2)
    (hα : (⟨1, 0⟩ : Vec ℝ).angleWith v1 = .ok α) (hβ : v1.angleWith v2 = .ok β) :
    svgArc p1 p2 rx ry angle large sweep =
      .ok (.ellipse (Ellipse.new (arcCenter p1 p2 angle cp) |rx| |ry| angle (some ⟨α, α + arcDelta sweep β⟩))) := by
  unfold halfChord at hP
  unfold svgArc
  rw [if_neg (by simp [hx, hy])]
  simp only [hP]
  rw [if_neg (by linarith)]
  simp only [Vec.pyDiv, if_neg hden, bind, Except.bind, hq, ← hσ, hcp, hv1, hv2, hα, hβ]
  rfl

/-- The arc that `svg_arc` builds when the radii are large enough. -/
theorem svgArc_spec (p1 p2 : Vec ℝ) (rx ry angle : ℝ) (large sweep : Bool) (hx : rx ≠ 0) (hy : ry ≠ 0) (hne : p1 ≠ p2)
    (hr : (halfChord p1 p2 angle).x ^ 2 / |rx| ^ 2 + (halfChord p1 p2 angle).y ^ 2 / |ry| ^ 2 ≤ 1) :
    ∃ center start stop,
      let e := Ellipse.new center |rx| |ry| angle (some ⟨start, stop⟩)
      svgArc p1 p2 rx ry angle large sweep = .ok (.ellipse e) ∧ p1 ∈ e.points ∧ p2 ∈ e.points ∧
      (sweep = true → start < stop ∧ stop < start + 360) ∧ (sweep = false → stop < start ∧ start - 360 < stop) ∧
      (large = true → 180 ≤ |stop - start|) ∧ (large = false → |stop - start| ≤ 180) ∧
      (along center angle (e.pointAtAngle start) = along center angle p1 ∧
        across center angle (e.pointAtAngle start) = -across center angle p1) ∧
      (along center angle (e.pointAtAngle stop) = along center angle p2 ∧
        across center angle (e.pointAtAngle stop) = -across center angle p2) ∧
      along center angle ((p1 + p2).sdiv 2) = (if large ≠ sweep then 1 else -1) *
        Real.sqrt ((1 - ((halfChord p1 p2 angle).x ^ 2 / |rx| ^ 2 + (halfChord p1 p2 angle).y ^ 2 / |ry| ^ 2)) /
          ((halfChord p1 p2 angle).x ^ 2 / |rx| ^ 2 + (halfChord p1 p2 angle).y ^ 2 / |ry| ^ 2)) * ((halfChord p1 p2 angle).y / |ry|) * |rx| := by
  have hX : 0 < |rx| := abs_pos.2 hx
  have hY : 0 < |ry| := abs_pos.2 hy
  have hne' := halfChord_ne p1 p2 angle hne
  have hcc := arcCenter_along p1 p2 angle
  have heq := fun cp v1 v2 σ q α β => svgArc_eq p1 p2 (halfChord p1 p2 angle) cp v1 v2 rx ry angle σ q α β large sweep hx hy rfl hr
  generalize halfChord p1 p2 angle = P at *
  generalize |rx| = X at *
  generalize |ry| = Y at *
  obtain ⟨A, hA⟩ : ∃ A, A = P.x / X := ⟨_, rfl⟩
  obtain ⟨B, hB⟩ : ∃ B, B = P.y / Y := ⟨_, rfl⟩
  have hPx : P.x = A * X := by rw [hA]; field_simp
  have hPy : P.y = B * Y := by rw [hB]; field_simp
  have hS' : P.x ^ 2 / X ^ 2 + P.y ^ 2 / Y ^ 2 = A ^ 2 + B ^ 2 := by rw [hA, hB]; ring
  rw [hS'] at hr ⊢
  rw [← hB]
  have hS0 : 0 < A ^ 2 + B ^ 2 := by
    by_contra hc
    have hA0 : A = 0 := by nlinarith [sq_nonneg A, sq_nonneg B]
    have hB0 : B = 0 := by nlinarith [sq_nonneg A, sq_nonneg B]
    apply hne'
    ext
    · rw [hPx, hA0]; simp
    · rw [hPy, hB0]; simp
  obtain ⟨σ, hσ⟩ : ∃ σ : ℝ, σ = (if large ≠ sweep then 1 else -1) * -1 := ⟨_, rfl⟩
  have hσ2 : σ ^ 2 = 1 := by rw [hσ]; split_ifs <;> norm_num
  obtain ⟨r, hrd⟩ : ∃ r, r = Real.sqrt ((1 - (A ^ 2 + B ^ 2)) / (A ^ 2 + B ^ 2)) := ⟨_, rfl⟩
  have hr0 : 0 ≤ r := by rw [hrd]; exact Real.sqrt_nonneg _
  have hr2 : r ^ 2 = (1 - (A ^ 2 + B ^ 2)) / (A ^ 2 + B ^ 2) := by
    rw [hrd]; exact Real.sq_sqrt (div_nonneg (by linarith) hS0.le)
  have hr2' : (A ^ 2 + B ^ 2) * r ^ 2 = 1 - (A ^ 2 + B ^ 2) := by rw [hr2]; field_simp
  have hden : X ^ 2 * P.y ^ 2 + Y ^ 2 * P.x ^ 2 = X ^ 2 * Y ^ 2 * (A ^ 2 + B ^ 2) := by rw [hPx, hPy]; ring
  have hq : (X ^ 2 * Y ^ 2 - (X ^ 2 * P.y ^ 2 + Y ^ 2 * P.x ^ 2)) / (X ^ 2 * P.y ^ 2 + Y ^ 2 * P.x ^ 2) =
      (1 - (A ^ 2 + B ^ 2)) / (A ^ 2 + B ^ 2) := by
    rw [hden]; field_simp
  have hcp : (P.antiNormal.scale (X / Y) (1 / (X / Y))).smul (σ * Real.sqrt ((1 - (A ^ 2 + B ^ 2)) / (A ^ 2 + B ^ 2))) =
      ⟨σ * r * B * X, -(σ * r * A * Y)⟩ := by
    rw [← hrd]
    ext
    · simp [Vec.antiNormal, Vec.scale, hPy]; field_simp
    · simp [Vec.antiNormal, Vec.scale, hPx]; field_simp
  have hv1 : (P - ⟨σ * r * B * X, -(σ * r * A * Y)⟩).divide X Y = ⟨A - σ * r * B, B + σ * r * A⟩ := by
    ext
    · simp [Vec.divide, hPx]; field_simp
    · simp [Vec.divide, hPy]; field_simp
  have hv2 : -(P + ⟨σ * r * B * X, -(σ * r * A * Y)⟩).divide X Y = ⟨-(A + σ * r * B), -(B - σ * r * A)⟩ := by
    ext
    · simp [Vec.divide, hPx]; field_simp; ring
    · simp [Vec.divide, hPy]; field_simp; ring
  obtain ⟨α, β, hα, hβ, ⟨v1x, v1y⟩, ⟨v2x, v2y⟩, sinβ, cosβ⟩ := arc_angles A B σ r hσ2 hr2'
  obtain ⟨⟨k, hk⟩, d1, d2, d3, d4⟩ := arcDelta_spec large sweep β σ (r * (A ^ 2 + B ^ 2)) (A ^ 2 + B ^ 2)
    (mul_nonneg hr0 hS0.le) hS0 hσ (by rw [sinβ]; ring) cosβ
  have hsvg := heq _ _ _ _ _ _ _ hσ (by rw [hden]; positivity) hq hcp hv1 hv2 hα hβ
  clear heq hcp hv1 hv2 hα hβ hq
  obtain ⟨m1, x1, y1, x2, y2⟩ := hcc ⟨σ * r * B * X, -(σ * r * A * Y)⟩
  simp only at m1 x1 y1 x2 y2
  generalize arcCenter p1 p2 angle ⟨σ * r * B * X, -(σ * r * A * Y)⟩ = center at *
  have x1' : along center angle p1 = X * Real.cos (Vec.radians α) := by rw [x1, ← v1x, hPx]; ring
  have y1' : across center angle p1 = Y * -Real.sin (Vec.radians α) := by rw [y1, ← v1y, hPy]; ring
  have x2' : along center angle p2 = X * Real.cos (Vec.radians (α + β)) := by rw [x2, ← v2x, hPx]; ring
  have y2' : across center angle p2 = Y * -Real.sin (Vec.radians (α + β)) := by rw [y2, ← v2y, hPy]; ring
  refine ⟨center, α, α + arcDelta sweep β, hsvg, ?_, ?_, ?_, ?_, ?_, ?_, ⟨?_, ?_⟩, ⟨?_, ?_⟩, ?_⟩
  · show ellipseValue center X Y angle p1 = 1
    unfold ellipseValue
    rw [x1', y1', mul_div_cancel_left₀ _ hX.ne', mul_div_cancel_left₀ _ hY.ne', neg_sq, Real.cos_sq_add_sin_sq]
  · show ellipseValue center X Y angle p2 = 1
    unfold ellipseValue
    rw [x2', y2', mul_div_cancel_left₀ _ hX.ne', mul_div_cancel_left₀ _ hY.ne', neg_sq, Real.cos_sq_add_sin_sq]
  · intro h
    obtain ⟨h1, h2⟩ := d1 h
    constructor <;> linarith
  · intro h
    obtain ⟨h1, h2⟩ := d2 h
    constructor <;> linarith
  · intro h; rw [add_sub_cancel_left]; exact d3 h
  · intro h; rw [add_sub_cancel_left]; exact d4 h
  all_goals clear hsvg d1 d2 d3 d4
  · obtain ⟨-, q1, q2⟩ := (ellipse_points (Ellipse.new center X Y angle (some ⟨α, α + arcDelta sweep β⟩)) hX.ne' hY.ne').1 α
    rw [← radians_eq] at q1 q2
    rw [x1']; exact q1
  · obtain ⟨-, q1, q2⟩ := (ellipse_points (Ellipse.new center X Y angle (some ⟨α, α + arcDelta sweep β⟩)) hX.ne' hY.ne').1 α
    rw [← radians_eq] at q1 q2
    rw [y1', mul_neg, neg_neg]; exact q2
  · obtain ⟨-, q1, q2⟩ := (ellipse_points (Ellipse.new center X Y angle (some ⟨α, α + arcDelta sweep β⟩)) hX.ne' hY.ne').1
      (α + arcDelta sweep β)
    rw [← radians_eq] at q1 q2
    rw [x2', ← cos_turn (α + β) k, show α + β + k * 360 = α + arcDelta sweep β by rw [hk]; ring]
    exact q1
  · obtain ⟨-, q1, q2⟩ := (ellipse_points (Ellipse.new center X Y angle (some ⟨α, α + arcDelta sweep β⟩)) hX.ne' hY.ne').1
      (α + arcDelta sweep β)
    rw [← radians_eq] at q1 q2
    rw [y2', mul_neg, neg_neg, ← sin_turn (α + β) k, show α + β + k * 360 = α + arcDelta sweep β by rw [hk]; ring]
    exact q2
  · rw [m1, ← hrd, hσ]
    ring

/-! ## C141 -/

/-- C141. When there is an ellipse with these radii and this angle through the two points, `svg_arc` returns such an ellipse,
with an arc that turns in the direction the sweep flag asks, and is the long or the short one as the other flag asks. The ends
of the arc should be the two points, but they are their mirror images in the first axis of the ellipse. -/
theorem svg_arc_partial (p1 p2 : Vec ℝ) (rx ry angle : ℝ) (large sweep : Bool) (hx : rx ≠ 0) (hy : ry ≠ 0) (hne : p1 ≠ p2)
    (hex : ∃ c, p1 ∈ ellipsePoints c |rx| |ry| angle ∧ p2 ∈ ellipsePoints c |rx| |ry| angle) :
    ∃ center start stop,
      let e := Ellipse.new center |rx| |ry| angle (some ⟨start, stop⟩)
      svgArc p1 p2 rx ry angle large sweep = .ok (.ellipse e) ∧ p1 ∈ e.points ∧ p2 ∈ e.points ∧
      (sweep = true → start < stop ∧ stop < start + 360) ∧ (sweep = false → stop < start ∧ start - 360 < stop) ∧
      (large = true → 180 ≤ |stop - start|) ∧ (large = false → |stop - start| ≤ 180) ∧
      (along center angle (e.pointAtAngle start) = along center angle p1 ∧
        across center angle (e.pointAtAngle start) = -across center angle p1) ∧
      (along center angle (e.pointAtAngle stop) = along center angle p2 ∧
        across center angle (e.pointAtAngle stop) = -across center angle p2) := by
  obtain ⟨c, h1, h2⟩ := hex
  obtain ⟨center, start, stop, g1, g2, g3, g4, g5, g6, g7, g8, g9, -⟩ :=
    svgArc_spec p1 p2 rx ry angle large sweep hx hy hne (radii_test p1 p2 _ _ angle c h1 h2)
  exact ⟨center, start, stop, g1, g2, g3, g4, g5, g6, g7, g8, g9⟩

example : ∃ c, (⟨1, 0⟩ : Vec ℝ) ∈ ellipsePoints c |(1 : ℝ)| |(-1 : ℝ)| 0 ∧ (⟨0, 1⟩ : Vec ℝ) ∈ ellipsePoints c |(1 : ℝ)| |(-1 : ℝ)| 0 :=
  ⟨⟨0, 0⟩, by norm_num [ellipsePoints, ellipseValue, along, across], by norm_num [ellipsePoints, ellipseValue, along, across]⟩

/-- C141. When the radii are too small SVG enlarges them, but `svg_arc` raises `NameError`: its warning uses a name that does
not exist. -/
theorem svg_arc_small (p1 p2 : Vec ℝ) (rx ry angle : ℝ) (large sweep : Bool) (hx : rx ≠ 0) (hy : ry ≠ 0) (hne : p1 ≠ p2)
    (hno : ¬ ∃ c, p1 ∈ ellipsePoints c |rx| |ry| angle ∧ p2 ∈ ellipsePoints c |rx| |ry| angle) :
    svgArc p1 p2 rx ry angle large sweep = .error .nameError := by
  have h : (halfChord p1 p2 angle).x ^ 2 / |rx| ^ 2 + (halfChord p1 p2 angle).y ^ 2 / |ry| ^ 2 > 1 := by
    by_contra hc
    push Not at hc
    obtain ⟨center, start, stop, g1, g2, g3, -⟩ := svgArc_spec p1 p2 rx ry angle large sweep hx hy hne hc
    exact hno ⟨center, g2, g3⟩
  unfold svgArc
  rw [if_neg (by simp [hx, hy])]
  simp only
  change (if (halfChord p1 p2 angle).x ^ 2 / |rx| ^ 2 + (halfChord p1 p2 angle).y ^ 2 / |ry| ^ 2 > 1 then _ else _) = _
  rw [if_pos h]

example : ¬ ∃ c, (⟨0, 0⟩ : Vec ℝ) ∈ ellipsePoints c |(1 : ℝ)| |(1 : ℝ)| 0 ∧ (⟨3, 0⟩ : Vec ℝ) ∈ ellipsePoints c |(1 : ℝ)| |(1 : ℝ)| 0 := by
  rintro ⟨c, h1, h2⟩
  simp [ellipsePoints, ellipseValue, along, across] at h1 h2
  nlinarith [sq_nonneg (2 * c.x - 3), sq_nonneg c.y]

/-- C141. A null radius gives the segment, and equal ends raise `ZeroDivisionError`. -/
theorem svg_arc_degenerate (p1 p2 : Vec ℝ) (rx ry angle : ℝ) (large sweep : Bool) :
    ((rx = 0 ∨ ry = 0) → svgArc p1 p2 rx ry angle large sweep = .ok (.segment ⟨p1, p2⟩)) ∧
    (rx ≠ 0 → ry ≠ 0 → svgArc p1 p1 rx ry angle large sweep = .error .zeroDivisionError) := by
  constructor
  · intro h
    unfold svgArc
    rw [if_pos h]
  · intro hx hy
    have hz : ((Lin.rotation (-angle)).apply (p1 - p1)).sdiv 2 = (⟨0, 0⟩ : Vec ℝ) := by
      rw [rotation_apply]; ext <;> simp
    unfold svgArc
    rw [if_neg (by simp [hx, hy])]
    simp only [hz]
    norm_num [Vec.pyDiv, bind, Except.bind]

/-- A point is given by its coordinates in the frame of an ellipse. -/
theorem frame_inj (c : Vec ℝ) (angle : ℝ) (p q : Vec ℝ) (h1 : along c angle p = along c angle q) (h2 : across c angle p = across c angle q) :
    p = q := by
  have hs := Real.sin_sq_add_cos_sq (angle * Real.pi / 180)
  unfold along at h1
  unfold across at h2
  ext
  · linear_combination -(p.x - q.x) * hs + h1 * Real.cos (angle * Real.pi / 180) - h2 * Real.sin (angle * Real.pi / 180)
  · linear_combination -(p.y - q.y) * hs + h1 * Real.sin (angle * Real.pi / 180) + h2 * Real.cos (angle * Real.pi / 180)

/-- C141 fails, exactly: the arc goes from the first point to the second one only when they are the two ends of the first axis of the ellipse,
that is when the vector from one to the other is along this axis and its length is twice the first radius. -/
theorem svg_arc_ends_wrong (p1 p2 : Vec ℝ) (rx ry angle : ℝ) (large sweep : Bool) (hx : rx ≠ 0) (hy : ry ≠ 0) (hne : p1 ≠ p2)
    (hex : ∃ c, p1 ∈ ellipsePoints c |rx| |ry| angle ∧ p2 ∈ ellipsePoints c |rx| |ry| angle) :
    ∃ e, svgArc p1 p2 rx ry angle large sweep = .ok (.ellipse e) ∧
      ((e.startStopPoint true = some p1 ∧ e.startStopPoint false = some p2) ↔
        along ⟨0, 0⟩ angle (p1 - p2) ^ 2 = (2 * rx) ^ 2 ∧ across ⟨0, 0⟩ angle (p1 - p2) = 0) := by
  obtain ⟨c0, k1, k2⟩ := hex
  obtain ⟨center, start, stop, g1, g2, g3, -, -, -, -, ⟨a1, a2⟩, ⟨b1, b2⟩, g10⟩ :=
    svgArc_spec p1 p2 rx ry angle large sweep hx hy hne (radii_test p1 p2 _ _ angle c0 k1 k2)
  refine ⟨_, g1, ?_⟩
  have hX : (0 : ℝ) < |rx| := abs_pos.2 hx
  have hY : (0 : ℝ) < |ry| := abs_pos.2 hy
  obtain ⟨c1, c2⟩ := halfChord_along p1 p2 angle center
  have d1 : along ⟨0, 0⟩ angle (p1 - p2) = along center angle p1 - along center angle p2 := by
    simp only [along, Vec.sub_x, Vec.sub_y]; ring
  have d2 : across ⟨0, 0⟩ angle (p1 - p2) = across center angle p1 - across center angle p2 := by
    simp only [across, Vec.sub_x, Vec.sub_y]; ring
  have d3 : along center angle ((p1 + p2).sdiv 2) = (along center angle p1 + along center angle p2) / 2 := by
    simp only [along, Vec.sdiv_x, Vec.sdiv_y, Vec.add_x, Vec.add_y]; ring
  change (along center angle p1 / |rx|) ^ 2 + (across center angle p1 / |ry|) ^ 2 = 1 at g2
  change (along center angle p2 / |rx|) ^ 2 + (across center angle p2 / |ry|) ^ 2 = 1 at g3
  have hends : ((Ellipse.new center |rx| |ry| angle (some ⟨start, stop⟩)).startStopPoint true = some p1 ∧
      (Ellipse.new center |rx| |ry| angle (some ⟨start, stop⟩)).startStopPoint false = some p2) ↔
      across center angle p1 = 0 ∧ across center angle p2 = 0 := by
    constructor
    · rintro ⟨e1, e2⟩
      have e1' : (Ellipse.new center |rx| |ry| angle (some ⟨start, stop⟩)).pointAtAngle start = p1 := by
        simpa [Ellipse.startStopPoint, Ellipse.new] using e1
      have e2' : (Ellipse.new center |rx| |ry| angle (some ⟨start, stop⟩)).pointAtAngle stop = p2 := by
        simpa [Ellipse.startStopPoint, Ellipse.new] using e2
      rw [e1'] at a2
      rw [e2'] at b2
      exact ⟨by linarith, by linarith⟩
    · rintro ⟨e1, e2⟩
      have e1' := frame_inj center angle _ _ a1 (by rw [a2, e1, neg_zero])
      have e2' := frame_inj center angle _ _ b1 (by rw [b2, e2, neg_zero])
      exact ⟨congrArg some e1', congrArg some e2'⟩
  rw [hends, d1, d2]
  constructor
  · rintro ⟨e1, e2⟩
    refine ⟨?_, by rw [e1, e2, sub_zero]⟩
    rw [e1] at g2
    rw [e2] at g3
    have q1 : along center angle p1 ^ 2 = rx ^ 2 := by
      rw [zero_div, div_pow, sq_abs] at g2
      field_simp at g2
      linarith
    have q2 : along center angle p2 ^ 2 = rx ^ 2 := by
      rw [zero_div, div_pow, sq_abs] at g3
      field_simp at g3
      linarith
    have hd : along center angle p1 ≠ along center angle p2 := fun h => hne (frame_inj center angle _ _ h (by rw [e1, e2]))
    have q3 : (along center angle p1 - along center angle p2) * (along center angle p1 + along center angle p2) = 0 := by
      linear_combination q1 - q2
    have q4 : along center angle p2 = -along center angle p1 := by
      rcases mul_eq_zero.1 q3 with h | h
      · exact absurd (sub_eq_zero.1 h) hd
      · linarith
    rw [q4]
    linear_combination 4 * q1
  · rintro ⟨e1, e2⟩
    have hy0 : (halfChord p1 p2 angle).y = 0 := by rw [c2, e2, zero_div]
    rw [hy0, zero_div, mul_zero, zero_mul, d3] at g10
    have q4 : along center angle p2 = -along center angle p1 := by linarith
    have q1 : along center angle p1 ^ 2 = rx ^ 2 := by
      rw [q4] at e1
      linear_combination e1 / 4
    have q5 : (across center angle p1 / |ry|) ^ 2 = 0 := by
      rw [div_pow (along center angle p1), sq_abs, q1, div_self (pow_ne_zero 2 hx)] at g2
      linarith
    have q6 : across center angle p1 = 0 := by
      have := pow_eq_zero_iff (two_ne_zero) |>.1 q5
      exact (div_eq_zero_iff.1 this).resolve_right hY.ne'
    exact ⟨q6, by linarith⟩

/-- The half of the unit circle from (1, 0) to (-1, 0) has its ends; no other arc of this circle has them. -/
example : along ⟨0, 0⟩ 0 (⟨1, 0⟩ - ⟨-1, 0⟩ : Vec ℝ) ^ 2 = (2 * 1) ^ 2 ∧ across ⟨0, 0⟩ 0 (⟨1, 0⟩ - ⟨-1, 0⟩ : Vec ℝ) = 0 := by
  norm_num [along, across]

/-- C141. For example the quarter of the unit circle from (1, 0) to (0, 1): the centre is (1, 1) instead of (0, 0), and the arc
starts at (1, 2). -/
theorem svg_arc_wrong : ∃ e, svgArc ⟨1, 0⟩ ⟨0, 1⟩ 1 1 0 false true = .ok (.ellipse e) ∧ e.center = ⟨1, 1⟩ ∧
    e.startStopPoint true = some ⟨1, 2⟩ := by
  have hh : halfChord ⟨1, 0⟩ ⟨0, 1⟩ 0 = (⟨1 / 2, -(1 / 2)⟩ : Vec ℝ) := by
    unfold halfChord; rw [rotation_apply]; ext <;> norm_num [Vec.radians]
  obtain ⟨center, start, stop, g1, g2, g3, -, -, -, -, g8, -, g10⟩ :=
    svgArc_spec ⟨1, 0⟩ ⟨0, 1⟩ 1 1 0 false true (by norm_num) (by norm_num)
      (fun h => by have := congrArg Vec.x h; norm_num at this) (by rw [hh]; norm_num)
  rw [hh] at g10
  change ellipseValue center |1| |1| 0 ⟨1, 0⟩ = 1 at g2
  change ellipseValue center |1| |1| 0 ⟨0, 1⟩ = 1 at g3
  norm_num [ellipseValue, along, across, Ellipse.new] at g2 g3 g10
  have hcx : center.x = 1 := by linarith
  have hcy : center.y = 1 := by nlinarith
  have hc : center = ⟨1, 1⟩ := by ext <;> assumption
  refine ⟨_, g1, hc, ?_⟩
  obtain ⟨a1, a2⟩ := g8
  simp only [Ellipse.startStopPoint, Ellipse.new]
  norm_num [along, across, Ellipse.new, hc] at a1 a2
  simp only [if_true, hc]
  congr 1
  rw [abs_one]
  ext
  · linarith
  · linarith

end Patro.Conic
