import Verif.Model.PolygonMoment
import Verif.Spec.PolygonMoment
import Verif.Props.Polygon
import Mathlib.Tactic.LinearCombination
import Mathlib.Tactic.IntervalCases
/-! # C145 and C146: `recenter` and the axes of inertia of a polygon -/

namespace Patro.Polygon

section Recenter

variable {K : Type _} [Field K] [LinearOrder K] [IsStrictOrderedRing K]

omit [LinearOrder K] [IsStrictOrderedRing K] in
theorem fan_shift (g a : Vec K) (ps : List (Vec K)) :
    fan (a - g) (ps.map (· - g)) = (fan a ps).map fun t => (t.1 - g, t.2.1 - g, t.2.2 - g) := by
  induction ps with
  | nil => rfl
  | cons p ps ih =>
    cases ps with
    | nil => rfl
    | cons q ps => simpa [fan] using ih

omit [LinearOrder K] [IsStrictOrderedRing K] in
theorem triangles_shift (g : Vec K) (ps : List (Vec K)) :
    triangles (ps.map (· - g)) = (triangles ps).map fun t => (t.1 - g, t.2.1 - g, t.2.2 - g) := by
  cases ps with
  | nil => rfl
  | cons a ps => exact fan_shift g a ps

omit [LinearOrder K] [IsStrictOrderedRing K] in
theorem triangleArea_shift (g : Vec K) (t : Vec K × Vec K × Vec K) :
    triangleArea (t.1 - g, t.2.1 - g, t.2.2 - g) = triangleArea t := by
  simp only [triangleArea, Vec.sub_x, Vec.sub_y]
  ring

omit [LinearOrder K] [IsStrictOrderedRing K] in
/-- C145. A translation keeps the signed area of a polygon. -/
theorem signedArea_shift (g : Vec K) (ps : List (Vec K)) : signedArea (ps.map (· - g)) = signedArea ps := by
  unfold signedArea
  rw [triangles_shift, List.map_map]
  exact congrArg List.sum (List.map_congr_left fun t _ => triangleArea_shift g t)

omit [LinearOrder K] in
theorem momentX_shift (g : Vec K) (ps : List (Vec K)) (h3 : (3 : K) ≠ 0) :
    momentX (ps.map (· - g)) = momentX ps - g.x * signedArea ps := by
  unfold momentX signedArea
  rw [triangles_shift, List.map_map]
  induction triangles ps with
  | nil => simp
  | cons t ts ih =>
    simp only [List.map_cons, List.sum_cons, Function.comp] at ih ⊢
    rw [ih, triangleArea_shift]
    simp only [Vec.sub_x]
    field_simp
    ring

omit [LinearOrder K] in
theorem momentY_shift (g : Vec K) (ps : List (Vec K)) (h3 : (3 : K) ≠ 0) :
    momentY (ps.map (· - g)) = momentY ps - g.y * signedArea ps := by
  unfold momentY signedArea
  rw [triangles_shift, List.map_map]
  induction triangles ps with
  | nil => simp
  | cons t ts ih =>
    simp only [List.map_cons, List.sum_cons, Function.comp] at ih ⊢
    rw [ih, triangleArea_shift]
    simp only [Vec.sub_y]
    field_simp
    ring

/-- The state after `barycenter` of a new simple polygon. -/
theorem read_state (points : List (Vec K)) (p : Polygon K) (h : create points = .ok p) (hs : p.getIsSimple.1 = .ok true) :
    ∃ b : Body K, ((⟨p, false⟩ : Body K).readBarycenter).2 = b ∧ b.polygon.points = points ∧ b.polygon.isSimple = some true ∧
      (signedArea points ≠ 0 → b.shared = false ∧ b.polygon.area = some |signedArea points| ∧
        b.polygon.barycenter = some ⟨momentX points / signedArea points, momentY points / signedArea points⟩) ∧
      (signedArea points = 0 → b.shared = true ∧ b.polygon.area = some 0 ∧ b.polygon.barycenter = points[0]?) := by
  refine ⟨_, rfl, ?_⟩
  unfold create at h
  split at h
  · cases h
  · rename_i hl
    cases h
    obtain ⟨es, hes, _⟩ := pointEdges_spec points
    have hne : points ≠ [] := by rintro rfl; simp at hl
    simp only [getIsSimple, getEdges, hes] at hs
    have ht : testIsSimple es = true := Except.ok.inj hs
    simp only [Body.readBarycenter, getBarycenter, checkArea, getIsSimple, getEdges, hes, ht, and_self, if_true]
    rw [computeArea_eq _ hne]
    by_cases hz : signedArea points = 0
    · cases points with
      | nil => exact absurd rfl hne
      | cons a t => simp [hz]
    · simp [hz]

/-- C145. Once the barycentre of a simple polygon has been read, `recenter` translates it so that its barycentre is the
origin: the first moments of area are null, and the signed area is the same. -/
theorem recenter_partial (points : List (Vec K)) (p : Polygon K) (h : create points = .ok p) (hs : p.getIsSimple.1 = .ok true)
    (ha : signedArea points ≠ 0) :
    ∃ g b, ((⟨p, false⟩ : Body K).readBarycenter).1 = .ok g ∧ ((⟨p, false⟩ : Body K).readBarycenter).2.recenter = (.ok (), b) ∧
      b.polygon.points = points.map (fun q => q - g) ∧ signedArea b.polygon.points = signedArea points ∧
      momentX b.polygon.points = 0 ∧ momentY b.polygon.points = 0 := by
  obtain ⟨b, hb, e1, _, e2, _⟩ := read_state points p h hs
  obtain ⟨e2, _, e3⟩ := e2 ha
  have hr : ((⟨p, false⟩ : Body K).readBarycenter).1 = p.getBarycenter.1 := rfl
  have h3 : (3 : K) ≠ 0 := by norm_num
  obtain ⟨g, hg⟩ : ∃ g : Vec K, g = ⟨momentX points / signedArea points, momentY points / signedArea points⟩ := ⟨_, rfl⟩
  refine ⟨g, { b with polygon := { b.polygon with points := points.map (· - g) } },
    hg ▸ hr.trans ((barycenter_spec points p h).1 hs ha), ?_⟩
  · rw [hb]
    subst hg
    refine ⟨?_, rfl, signedArea_shift _ _, ?_, ?_⟩
    · simp only [Body.recenter, e3, e2, e1, shiftAll, Bool.false_eq_true, if_false]
    · simp only [momentX_shift _ _ h3]
      field_simp
      ring
    · simp only [momentY_shift _ _ h3]
      field_simp
      ring

/-- C145 fails without a reading of the area or of the barycentre before: `recenter` raises `AttributeError` and the polygon
is not moved. -/
theorem recenter_unread_wrong (points : List (Vec K)) (p : Polygon K) (h : create points = .ok p) :
    (⟨p, false⟩ : Body K).recenter = (.error .attributeError, ⟨p, false⟩) := by
  unfold create at h
  split at h
  · cases h
  · cases h
    rfl

/-- C145 fails the second time: `recenter` moves the polygon again by the barycentre it had at first, and `barycenter` still
gives this point. -/
theorem recenter_twice_wrong (points : List (Vec K)) (p : Polygon K) (h : create points = .ok p) (hs : p.getIsSimple.1 = .ok true)
    (ha : signedArea points ≠ 0) :
    ∃ g b b', ((⟨p, false⟩ : Body K).readBarycenter).1 = .ok g ∧ ((⟨p, false⟩ : Body K).readBarycenter).2.recenter = (.ok (), b) ∧
      b.readBarycenter.1 = .ok g ∧ b.recenter = (.ok (), b') ∧ b'.polygon.points = points.map (fun q => q - g - g) ∧
      (momentX b'.polygon.points = 0 ∧ momentY b'.polygon.points = 0 ↔ g = ⟨0, 0⟩) := by
  obtain ⟨b, hb, e1, e4, e2, _⟩ := read_state points p h hs
  obtain ⟨e2, e5, e3⟩ := e2 ha
  have hr : ((⟨p, false⟩ : Body K).readBarycenter).1 = p.getBarycenter.1 := rfl
  have h3 : (3 : K) ≠ 0 := by norm_num
  obtain ⟨g, hg⟩ : ∃ g : Vec K, g = ⟨momentX points / signedArea points, momentY points / signedArea points⟩ := ⟨_, rfl⟩
  have hgx : momentX points = g.x * signedArea points := by rw [hg]; field_simp
  have hgy : momentY points = g.y * signedArea points := by rw [hg]; field_simp
  refine ⟨g, { b with polygon := { b.polygon with points := points.map (· - g) } },
    { b with polygon := { b.polygon with points := (points.map (· - g)).map (· - g) } },
    hg ▸ hr.trans ((barycenter_spec points p h).1 hs ha), ?_, ?_, ?_, ?_, ?_⟩
  · rw [hb]
    simp only [Body.recenter, e3, e2, e1, shiftAll, Bool.false_eq_true, if_false, ← hg]
  · simp [Body.readBarycenter, getBarycenter, checkArea, getIsSimple, e4, e5, e3, ← hg]
  · simp only [Body.recenter, e3, e2, shiftAll, Bool.false_eq_true, if_false, ← hg]
  · simp [List.map_map, Function.comp_def]
  · simp only [momentX_shift _ _ h3, momentY_shift _ _ h3, signedArea_shift, hgx, hgy]
    constructor
    · rintro ⟨h1, h2⟩
      have h1 : g.x * signedArea points = 0 := by linear_combination -h1
      have h2 : g.y * signedArea points = 0 := by linear_combination -h2
      exact Vec.ext ((mul_eq_zero.1 h1).resolve_right ha) ((mul_eq_zero.1 h2).resolve_right ha)
    · rintro rfl
      constructor <;> simp

/-- C145 fails for a flat polygon, which is said to be simple: only its first point is moved, to the origin. -/
theorem recenter_flat_wrong (a : Vec K) (ps : List (Vec K)) (p : Polygon K) (h : create (a :: ps) = .ok p)
    (hs : p.getIsSimple.1 = .ok true) (ha : signedArea (a :: ps) = 0) :
    ∃ b, ((⟨p, false⟩ : Body K).readBarycenter).2.recenter = (.ok (), b) ∧ b.polygon.points = ⟨0, 0⟩ :: ps := by
  obtain ⟨b, hb, e1, _, _, e2⟩ := read_state (a :: ps) p h hs
  obtain ⟨e2, _, e3⟩ := e2 ha
  have hz : a - a = ⟨0, 0⟩ := Vec.ext (sub_self _) (sub_self _)
  have hm : ps.map (· - (⟨0, 0⟩ : Vec K)) = ps := by
    conv_rhs => rw [← List.map_id ps]
    exact List.map_congr_left fun q _ => Vec.ext (sub_zero _) (sub_zero _)
  rw [hb]
  refine ⟨{ b with polygon := { b.polygon with points := ⟨0, 0⟩ :: ps, barycenter := some ⟨0, 0⟩ } }, ?_, rfl⟩
  simp [Body.recenter, e3, e2, e1, shiftAll, hz, hm]

/-- C145 fails after a transformation: whether the polygon is flat or not, `recenter` moves its new points by the barycentre which was read before. -/
theorem recenter_transformed_wrong (points : List (Vec K)) (p : Polygon K) (h : create points = .ok p) (hs : p.getIsSimple.1 = .ok true)
    (f : Vec K → Vec K) :
    ∃ g b, ((⟨p, false⟩ : Body K).readBarycenter).1 = .ok g ∧
      (((⟨p, false⟩ : Body K).readBarycenter).2.transform f).recenter = (.ok (), b) ∧ b.polygon.points = points.map (fun q => f q - g) := by
  obtain ⟨b, hb, e1, e4, e2, e5⟩ := read_state points p h hs
  have key : ∀ g, ((⟨p, false⟩ : Body K).readBarycenter).1 = .ok g → b.polygon.barycenter = some g →
      ∃ g b', ((⟨p, false⟩ : Body K).readBarycenter).1 = .ok g ∧
        (((⟨p, false⟩ : Body K).readBarycenter).2.transform f).recenter = (.ok (), b') ∧
        b'.polygon.points = points.map (fun q => f q - g) := by
    intro g h1 h2
    refine ⟨g, { (b.transform f) with polygon := { (b.transform f).polygon with points := points.map (fun q => f q - g) } }, h1, ?_, rfl⟩
    rw [hb]
    simp [Body.recenter, Body.transform, transform, h2, shiftAll, e1, Function.comp_def]
  by_cases ha : signedArea points = 0
  · obtain ⟨a, h1, h2⟩ := (barycenter_spec points p h).2.1 hs ha
    exact key a h2 ((e5 ha).2.2.trans h1)
  · exact key _ ((barycenter_spec points p h).1 hs ha) (e2 ha).2.2

/-- The hypotheses hold for a square which is not centred, and for three points of a line. -/
example : (∃ p : Polygon ℚ, create [⟨1, 1⟩, ⟨3, 1⟩, ⟨3, 3⟩, ⟨1, 3⟩] = .ok p ∧ p.getIsSimple.1 = .ok true) ∧
    signedArea [(⟨1, 1⟩ : Vec ℚ), ⟨3, 1⟩, ⟨3, 3⟩, ⟨1, 3⟩] ≠ 0 ∧
    (∃ p : Polygon ℚ, create [⟨1, 1⟩, ⟨2, 2⟩, ⟨3, 3⟩] = .ok p ∧ p.getIsSimple.1 = .ok true) ∧
    signedArea [(⟨1, 1⟩ : Vec ℚ), ⟨2, 2⟩, ⟨3, 3⟩] = 0 :=
  ⟨⟨_, rfl, by decide +kernel⟩, by decide +kernel, ⟨_, rfl, by decide +kernel⟩, by decide +kernel⟩

end Recenter

/-! ## Axes of inertia -/

theorem spread_eq (points : List (Vec ℝ)) (θ : ℝ) :
    spread points θ = momentIy points * Real.cos (θ * Real.pi / 180) ^ 2 + momentIx points * Real.sin (θ * Real.pi / 180) ^ 2 -
      2 * momentIxy points * (Real.cos (θ * Real.pi / 180) * Real.sin (θ * Real.pi / 180)) := by
  unfold spread momentIx momentIy momentIxy
  generalize Real.cos (θ * Real.pi / 180) = c
  generalize Real.sin (θ * Real.pi / 180) = s
  have e : (points.map fun p => (p.x * c + p.y * s) ^ 2).sum = (points.map fun p => p.x ^ 2).sum * c ^ 2 +
      (points.map fun p => p.y ^ 2).sum * s ^ 2 + 2 * (points.map fun p => p.x * p.y).sum * (c * s) := by
    induction points with
    | nil => simp
    | cons p ps ih =>
      simp only [List.map_cons, List.sum_cons]
      rw [ih]
      ring
  rw [e]
  ring

theorem quad_bounds (A B C c s : ℝ) (h : c ^ 2 + s ^ 2 = 1) :
    A * c ^ 2 + B * s ^ 2 - 2 * C * (c * s) ≤ (A + B + √((B - A) * (B - A) + 4 * C * C)) / 2 ∧
    (A + B - √((B - A) * (B - A) + 4 * C * C)) / 2 ≤ A * c ^ 2 + B * s ^ 2 - 2 * C * (c * s) := by
  have hr : |2 * (A * c ^ 2 + B * s ^ 2 - 2 * C * (c * s)) - (A + B)| ≤ √((B - A) * (B - A) + 4 * C * C) := by
    apply Real.abs_le_sqrt
    have e : 2 * (A * c ^ 2 + B * s ^ 2 - 2 * C * (c * s)) - (A + B) = (A - B) * (c ^ 2 - s ^ 2) - 2 * C * (2 * c * s) := by
      linear_combination (A + B) * h
    have e2 : (c ^ 2 - s ^ 2) ^ 2 + (2 * c * s) ^ 2 = 1 := by
      linear_combination (c ^ 2 + s ^ 2 + 1) * h
    rw [e]
    nlinarith [sq_nonneg ((A - B) * (2 * c * s) + 2 * C * (c ^ 2 - s ^ 2))]
  obtain ⟨h1, h2⟩ := abs_le.1 hr
  constructor <;> linarith

theorem diag_bounds (A B c s : ℝ) (h : B ≤ A) (hq : c ^ 2 + s ^ 2 = 1) :
    A * c ^ 2 + B * s ^ 2 ≤ A ∧ B ≤ A * c ^ 2 + B * s ^ 2 := by
  constructor
  · have e : A - (A * c ^ 2 + B * s ^ 2) = (A - B) * s ^ 2 := by linear_combination (-A) * hq
    linarith [mul_nonneg (sub_nonneg.2 h) (sq_nonneg s)]
  · have e : A * c ^ 2 + B * s ^ 2 - B = (A - B) * c ^ 2 := by linear_combination B * hq
    linarith [mul_nonneg (sub_nonneg.2 h) (sq_nonneg c)]

theorem principal_spec (points : List (Vec ℝ)) :
    spread points (principal points).1 = (principal points).2.1 ∧
    (∀ θ, spread points θ ≤ (principal points).2.1 ∧ (principal points).2.2 ≤ spread points θ) ∧
    spread points ((principal points).1 + 90) = (principal points).2.2 := by
  have hq : ∀ θ : ℝ, Real.cos (θ * Real.pi / 180) ^ 2 + Real.sin (θ * Real.pi / 180) ^ 2 = 1 := fun θ => Real.cos_sq_add_sin_sq _
  have h90 : ∀ θ : ℝ, (θ + 90) * Real.pi / 180 = θ * Real.pi / 180 + Real.pi / 2 := fun θ => by ring
  simp only [spread_eq, h90, Real.cos_add_pi_div_two, Real.sin_add_pi_div_two]
  unfold principal
  generalize momentIx points = B
  generalize momentIy points = A
  generalize momentIxy points = C
  by_cases hC : C = 0
  · subst hC
    rw [if_pos rfl]
    by_cases h : A ≥ B
    · rw [if_pos h]
      refine ⟨by simp, fun θ => ?_, by simp⟩
      simpa using diag_bounds A B _ _ h (hq θ)
    · rw [if_neg h]
      have e : (90 : ℝ) * Real.pi / 180 = Real.pi / 2 := by ring
      refine ⟨by simp [e], fun θ => ?_, by simp [e]⟩
      have := diag_bounds B A _ _ (not_le.1 h).le ((add_comm _ _).trans (hq θ))
      simpa [add_comm] using this
  · rw [if_neg hC]
    have hS0 : 0 ≤ √((B - A) * (B - A) + 4 * C * C) := Real.sqrt_nonneg _
    have hS : √((B - A) * (B - A) + 4 * C * C) ^ 2 = (B - A) * (B - A) + 4 * C * C :=
      Real.sq_sqrt (by nlinarith [mul_self_nonneg (B - A), mul_self_nonneg C])
    have hb := fun θ => quad_bounds A B C _ _ (hq θ)
    dsimp only
    generalize √((B - A) * (B - A) + 4 * C * C) = S at *
    rw [if_neg (by linarith)]
    dsimp only
    have hπ := Real.pi_pos.ne'
    have ea : -(Real.arctan ((B - A + S) / 2 / C) * (180 / Real.pi)) * Real.pi / 180 = -Real.arctan ((B - A + S) / 2 / C) := by
      field_simp
    rw [ea, Real.cos_neg, Real.sin_neg, Real.cos_arctan, Real.sin_arctan]
    obtain ⟨m, hm⟩ : ∃ m, m = (B - A + S) / 2 / C := ⟨_, rfl⟩
    rw [← hm]
    have hm' : m * C = (B - A + S) / 2 := by rw [hm]; field_simp
    have hm2 : C * m ^ 2 = C + (B - A) * m := by
      have : C * (C * m ^ 2) = C * (C + (B - A) * m) := by
        have h1 : C * (C * m ^ 2) = (m * C) ^ 2 := by ring
        have h2 : C * (C + (B - A) * m) = C ^ 2 + (B - A) * (m * C) := by ring
        rw [h1, h2, hm']
        nlinarith
      exact mul_left_cancel₀ hC this
    have hr0 : (0 : ℝ) < 1 + m ^ 2 := by positivity
    have hr : √(1 + m ^ 2) ^ 2 = 1 + m ^ 2 := Real.sq_sqrt hr0.le
    have hr1 : √(1 + m ^ 2) ≠ 0 := (Real.sqrt_pos.2 hr0).ne'
    generalize √(1 + m ^ 2) = r at *
    refine ⟨?_, fun θ => hb θ, ?_⟩
    · have : (A + B + S) / 2 = A + m * C := by rw [hm']; ring
      rw [this]
      field_simp
      rw [hr]
      linear_combination (-m) * hm2
    · have : (A + B - S) / 2 = B - m * C := by rw [hm']; ring
      rw [this]
      field_simp
      rw [hr]
      linear_combination m * hm2

theorem lambda_nonneg (points : List (Vec ℝ)) : 0 ≤ (principal points).2.2 ∧ (principal points).2.2 ≤ (principal points).2.1 := by
  obtain ⟨h1, h2, h3⟩ := principal_spec points
  refine ⟨?_, (h2 0).2.trans (h2 0).1⟩
  rw [← h3]
  unfold spread
  exact div_nonneg (List.sum_nonneg (by simp; intros; positivity)) (Nat.cast_nonneg _)

/-- C146. For a new polygon which is simple, `major_axis_angle` gives the direction in which the mean square of the
coordinates of the vertices is the largest, and it is the square of a quarter of `major_axis`; at a right angle it is the
smallest one, the square of a quarter of `minor_axis`; `axis_ratio` is their ratio, or 0 when the second one is null. The
moments are the ones of the vertices with respect to the origin, see `axes_position_wrong`. -/
theorem axes_partial (points : List (Vec ℝ)) (p : Polygon ℝ) (h : create points = .ok p) (hs : p.getIsSimple.1 = .ok true) :
    ∃ θ major minor ratio, ((⟨p, none⟩ : Inertia).read Axes.angle).1 = .ok θ ∧ (⟨p, none⟩ : Inertia).major.1 = .ok (some major) ∧
      ((⟨p, none⟩ : Inertia).read Axes.minor).1 = .ok minor ∧ ((⟨p, none⟩ : Inertia).read Axes.ratio).1 = .ok ratio ∧
      spread points θ = (major / 4) ^ 2 ∧ spread points (θ + 90) = (minor / 4) ^ 2 ∧
      (∀ φ, spread points φ ≤ (major / 4) ^ 2 ∧ (minor / 4) ^ 2 ≤ spread points φ) ∧
      0 ≤ minor ∧ minor ≤ major ∧ (minor ≠ 0 → ratio * minor = major) ∧ (minor = 0 → ratio = 0) := by
  have hp : p.getIsSimple.2.points = points := by
    unfold create at h
    split at h
    · cases h
    · cases h
      obtain ⟨es, hes, _⟩ := pointEdges_spec points
      simp [getIsSimple, getEdges, hes]
  have hc : (⟨p, none⟩ : Inertia).check = (.ok (), ⟨p.getIsSimple.2, some (computeAxes points)⟩) := by
    unfold Inertia.check
    have : p.getIsSimple = (.ok true, p.getIsSimple.2) := by rw [← hs]
    dsimp only
    rw [this]
    simp [hp]
  obtain ⟨h1, h2, h3⟩ := principal_spec points
  obtain ⟨h4, h5⟩ := lambda_nonneg points
  have hsq : ∀ x : ℝ, 0 ≤ x → (4 * √|x| / 4) ^ 2 = x := by
    intro x hx
    rw [abs_of_nonneg hx, mul_div_cancel_left₀ _ (by norm_num), Real.sq_sqrt hx]
  refine ⟨(computeAxes points).angle, (computeAxes points).major, (computeAxes points).minor, (computeAxes points).ratio,
    by simp only [Inertia.read, hc], by simp only [Inertia.major, hc, Option.map_some],
    by simp only [Inertia.read, hc], by simp only [Inertia.read, hc], ?_⟩
  simp only [computeAxes]
  rw [hsq _ h4, hsq _ (h4.trans h5)]
  refine ⟨h1, h3, h2, by positivity, ?_, ?_, ?_⟩
  · rw [abs_of_nonneg h4, abs_of_nonneg (h4.trans h5)]
    exact mul_le_mul_of_nonneg_left (Real.sqrt_le_sqrt h5) (by norm_num)
  · intro hm
    rw [if_pos hm, div_mul_cancel₀ _ hm]
  · intro hm
    rw [if_neg (not_not.2 hm)]

/-- C146. For a polygon which is not simple, `major_axis` is `None` and the other properties raise `AttributeError`. -/
theorem axes_not_simple (points : List (Vec ℝ)) (p : Polygon ℝ) (_h : create points = .ok p) (hs : p.getIsSimple.1 = .ok false)
    (attr : Axes → ℝ) : (⟨p, none⟩ : Inertia).major.1 = .ok none ∧ ((⟨p, none⟩ : Inertia).read attr).1 = .error .attributeError := by
  have hc : (⟨p, none⟩ : Inertia).check = (.ok (), ⟨p.getIsSimple.2, none⟩) := by
    unfold Inertia.check
    have : p.getIsSimple = (.ok false, p.getIsSimple.2) := by rw [← hs]
    dsimp only
    rw [this]
    simp
  simp [Inertia.major, Inertia.read, hc]

/-- The hypotheses of `axes_partial` hold for a triangle. -/
example : ∃ p : Polygon ℝ, create [⟨0, 0⟩, ⟨4, 1⟩, ⟨1, 2⟩] = .ok p ∧ p.getIsSimple.1 = .ok true := by
  refine ⟨_, rfl, isSimple_complete _ (convex_simple _ 1 (by simp) ?_)⟩
  rintro i a b k c ⟨h1, h2⟩ h3 h4 h5
  have hi : i < 3 := (List.getElem?_eq_some_iff.1 h1).1
  have hk : k < 3 := (List.getElem?_eq_some_iff.1 h3).1
  interval_cases i <;> interval_cases k <;> simp_all <;> subst_vars <;> norm_num

/-- The hypotheses of `axes_not_simple` hold for a bow tie. -/
example : ∃ p : Polygon ℝ, create [⟨0, 0⟩, ⟨2, 2⟩, ⟨2, 0⟩, ⟨0, 2⟩] = .ok p ∧ p.getIsSimple.1 = .ok false := by
  refine ⟨_, rfl, ?_⟩
  obtain ⟨b, hb, hi⟩ := isSimple_iff [(⟨0, 0⟩ : Vec ℝ), ⟨2, 2⟩, ⟨2, 0⟩, ⟨0, 2⟩]
  cases b with
  | false => exact hb
  | true =>
    have := hi.1 rfl 0 2 ⟨0, 0⟩ ⟨2, 2⟩ ⟨2, 0⟩ ⟨0, 2⟩ ⟨1, 1⟩ (by decide) ⟨rfl, rfl⟩ ⟨rfl, rfl⟩
    norm_num at this
    exact absurd ⟨1 / 2, by norm_num, by norm_num, by norm_num⟩ (this ⟨1 / 2, by norm_num, by norm_num, by norm_num⟩)

theorem spread_corner : spread [⟨-1, -1⟩, ⟨1, -1⟩, ⟨1, 1⟩, ⟨-1, 1⟩] = fun _ => 1 := by
  funext θ
  have := Real.cos_sq_add_sin_sq (θ * Real.pi / 180)
  simp only [spread, List.map_cons, List.map_nil, List.sum_cons, List.sum_nil, List.length_cons, List.length_nil]
  push_cast
  linear_combination this

theorem axes_sum (points : List (Vec ℝ)) :
    (computeAxes points).major ^ 2 + (computeAxes points).minor ^ 2 = 16 * (momentIx points + momentIy points) := by
  obtain ⟨h4, h5⟩ := lambda_nonneg points
  have hsum : (principal points).2.1 + (principal points).2.2 = momentIx points + momentIy points := by
    obtain ⟨h1, -, h3⟩ := principal_spec points
    have h90 : ∀ θ : ℝ, (θ + 90) * Real.pi / 180 = θ * Real.pi / 180 + Real.pi / 2 := fun θ => by ring
    rw [← h1, ← h3]
    simp only [spread_eq, h90, Real.cos_add_pi_div_two, Real.sin_add_pi_div_two]
    linear_combination (momentIx points + momentIy points) * Real.cos_sq_add_sin_sq ((principal points).1 * Real.pi / 180)
  simp only [computeAxes]
  rw [abs_of_nonneg h4, abs_of_nonneg (h4.trans h5), mul_pow, mul_pow, Real.sq_sqrt h4, Real.sq_sqrt (h4.trans h5), ← hsum]
  ring

theorem sum_sq_shift (points : List (Vec ℝ)) (f : Vec ℝ → ℝ) (c : ℝ) :
    (points.map fun p => (f p + c) ^ 2).sum = (points.map fun p => f p ^ 2).sum + 2 * c * (points.map f).sum + points.length * c ^ 2 := by
  induction points with
  | nil => simp
  | cons p points ih =>
    simp only [List.map_cons, List.sum_cons, List.length_cons, ih]
    push_cast
    ring

/-- C146 fails for the moments with respect to the centre of the polygon: the axes of every polygon depend on its position. When it is moved the
sum of the squares of its axes changes by this number, so that the axes are not the same after every translation away from the origin. -/
theorem axes_position_wrong (points : List (Vec ℝ)) (hne : points ≠ []) (w : Vec ℝ) :
    ∃ m : Vec ℝ, m = ⟨(points.map Vec.x).sum / points.length, (points.map Vec.y).sum / points.length⟩ ∧
      (computeAxes (points.map (· + w))).major ^ 2 + (computeAxes (points.map (· + w))).minor ^ 2 =
        (computeAxes points).major ^ 2 + (computeAxes points).minor ^ 2 + 16 * (2 * (w.x * m.x + w.y * m.y) + (w.x ^ 2 + w.y ^ 2)) ∧
      (0 ≤ w.x * m.x + w.y * m.y → w ≠ ⟨0, 0⟩ →
        (computeAxes (points.map (· + w))).major ≠ (computeAxes points).major ∨
        (computeAxes (points.map (· + w))).minor ≠ (computeAxes points).minor) := by
  have hn : (points.length : ℝ) ≠ 0 := by
    rw [Nat.cast_ne_zero]
    exact fun h => hne (List.length_eq_zero_iff.1 h)
  have key : (computeAxes (points.map (· + w))).major ^ 2 + (computeAxes (points.map (· + w))).minor ^ 2 =
      (computeAxes points).major ^ 2 + (computeAxes points).minor ^ 2 +
        16 * (2 * (w.x * ((points.map Vec.x).sum / points.length) + w.y * ((points.map Vec.y).sum / points.length)) + (w.x ^ 2 + w.y ^ 2)) := by
    rw [axes_sum, axes_sum]
    unfold momentIx momentIy
    rw [List.map_map, List.map_map, List.length_map]
    have ex := sum_sq_shift points Vec.x w.x
    have ey := sum_sq_shift points Vec.y w.y
    change 16 * ((points.map fun p => (p.y + w.y) ^ 2).sum / _ + (points.map fun p => (p.x + w.x) ^ 2).sum / _) = _
    rw [ex, ey]
    field_simp
    ring
  refine ⟨_, rfl, key, fun h0 hw => ?_⟩
  by_contra h
  rw [not_or, not_not, not_not] at h
  rw [h.1, h.2] at key
  have h1 : w.x ^ 2 + w.y ^ 2 ≤ 0 := by linarith
  have hx : w.x = 0 := by nlinarith [sq_nonneg w.x, sq_nonneg w.y]
  have hy : w.y = 0 := by nlinarith [sq_nonneg w.x, sq_nonneg w.y]
  exact hw (by ext <;> assumption)

/-- The ratio of the axes of a square depends on its position. -/
example :
    (computeAxes [⟨-1, -1⟩, ⟨1, -1⟩, ⟨1, 1⟩, ⟨-1, 1⟩]).ratio = 1 ∧
    (computeAxes [⟨2, -1⟩, ⟨4, -1⟩, ⟨4, 1⟩, ⟨2, 1⟩]).ratio = √10 := by
  constructor
  · norm_num [computeAxes, principal, momentIx, momentIy, momentIxy]
  · norm_num [computeAxes, principal, momentIx, momentIy, momentIxy]

/-- C146 fails after a transformation: the axes read before are kept. -/
theorem axes_stale_wrong (points : List (Vec ℝ)) (p : Polygon ℝ) (h : create points = .ok p) (hs : p.getIsSimple.1 = .ok true)
    (f : Vec ℝ → Vec ℝ) : ((⟨p, none⟩ : Inertia).major.2.transform f).major.1 = (⟨p, none⟩ : Inertia).major.1 := by
  unfold create at h
  split at h
  · cases h
  · cases h
    obtain ⟨es, hes, _⟩ := pointEdges_spec points
    simp only [getIsSimple, getEdges, hes] at hs
    have ht : testIsSimple es = true := Except.ok.inj hs
    simp [Inertia.major, Inertia.check, getIsSimple, getEdges, hes, ht, Inertia.transform, Polygon.transform]

end Patro.Polygon
