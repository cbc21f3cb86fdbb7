import Verif.Model.CircleObject
import Verif.Props.Conic
import Mathlib.MeasureTheory.Measure.Lebesgue.VolumeOfBalls
/-! # C142 to C144: constructors, flags and area of circles, clones, intersections of circles -/

namespace Patro.Conic

open Classical MathFunctions

/-! ## C142 -/

/-- C142. The flags of an angular domain: null when the bounds are equal, closed when they are a turn or more apart, more than
closed when they are more than a turn apart, and exactly one of the two directions. -/
theorem domain_flags (d : Domain ℝ) :
    (d.isNull = true ↔ d.start = d.stop) ∧
    (d.isClosed = true ↔ d.stop - d.start ≥ 360 ∨ d.start - d.stop ≥ 360) ∧
    (d.isOverClosed = true ↔ d.stop - d.start > 360 ∨ d.start - d.stop > 360) ∧
    (d.isCounterclockwise = true ↔ d.start ≤ d.stop) ∧ (d.isClockwise = true ↔ ¬ d.start ≤ d.stop) := by
  unfold Domain.isNull Domain.isClosed Domain.isOverClosed Domain.isCounterclockwise Domain.isClockwise Domain.span
  simp only [decide_eq_true_eq, ge_iff_le, gt_iff_lt, le_abs, lt_abs, not_le]
  refine ⟨eq_comm, ?_, ?_, ?_⟩
  · rw [neg_sub]
  · rw [neg_sub]
  · simp

example : (⟨0, 360⟩ : Domain ℝ).isClosed = true ∧ (⟨0, 360⟩ : Domain ℝ).isOverClosed = false := by
  have h := domain_flags ⟨0, 360⟩
  refine ⟨h.2.1.2 (by norm_num), ?_⟩
  rw [Bool.eq_false_iff]
  intro hc
  have := h.2.2.1.1 hc
  norm_num at this

/-- C142. The circle built from two points has the first one as centre, is closed, and passes through the second one. -/
theorem circle_from_points (center point : Vec ℝ) :
    (Circle.fromTwoPoints center point).center = center ∧ (Circle.fromTwoPoints center point).isClosed = true ∧
    point ∈ circlePoints (Circle.fromTwoPoints center point).center (Circle.fromTwoPoints center point).radius := by
  refine ⟨rfl, rfl, ?_⟩
  show distance point center = (point - center).magnitude
  unfold distance Vec.magnitude Vec.magnitudeSquare
  congr 1
  simp
  ring

/-- C142. A circle built from its diameter: the most distant points of the circle are at this distance, and the distance is
reached by the points at opposite angles. -/
theorem circle_diameter (center : Vec ℝ) (d : ℝ) (hd : 0 ≤ d) :
    ∃ c, Circle.new center d (diameter := true) = .ok c ∧ c.center = center ∧
      (∀ p ∈ circlePoints c.center c.radius, ∀ q ∈ circlePoints c.center c.radius, distance p q ≤ d) ∧
      ∀ angle, distance (c.pointAtAngle angle) (c.pointAtAngle (angle + 180)) = d := by
  refine ⟨⟨center, d / 2, none⟩, rfl, rfl, ?_, ?_⟩
  · intro p hp q hq
    have h := abs_sub_le_distance p q center
    have h1 : distance p center = d / 2 := hp
    have h2 : distance q center = d / 2 := hq
    have hs : distance center p = distance p center := distance_symm _ _
    have h3 := (abs_le.1 h).2
    rw [distance_symm q p, hs, h1] at h3
    rw [distance_symm center p] at h
    have h4 := abs_sub_le_distance p q center
    -- triangle inequality
    have h5 : distance q p - distance center p ≤ distance q center := le_trans (le_abs_self _) h4
    rw [distance_symm q p, hs, h1, h2] at h5
    linarith
  · intro angle
    rw [pointAtAngle_eq, pointAtAngle_eq]
    have e : (angle + 180) * Real.pi / 180 = angle * Real.pi / 180 + Real.pi := by ring
    unfold distance onCircle
    simp only [e, Real.cos_add_pi, Real.sin_add_pi]
    have hsq : (center.x + d / 2 * Real.cos (angle * Real.pi / 180) - (center.x + d / 2 * -Real.cos (angle * Real.pi / 180))) ^ 2 +
        (center.y + d / 2 * Real.sin (angle * Real.pi / 180) - (center.y + d / 2 * -Real.sin (angle * Real.pi / 180))) ^ 2 = d ^ 2 := by
      linear_combination d ^ 2 * Real.sin_sq_add_cos_sq (angle * Real.pi / 180)
    rw [hsq, Real.sqrt_sq hd]

/-- C142. Without diameter the number is the distance of the points to the centre. -/
theorem circle_radius (center : Vec ℝ) (r : ℝ) (d : Option (Domain ℝ)) (hr : 0 ≤ r) :
    ∃ c, Circle.new center r d = .ok c ∧ c.center = center ∧ c.domain = d ∧ ∀ angle, distance (c.pointAtAngle angle) center = r := by
  refine ⟨⟨center, r, d⟩, rfl, rfl, rfl, ?_⟩
  intro angle
  rw [pointAtAngle_eq]
  exact onCircle_distance center r angle hr

/-- C142. The area of a circle is the Lebesgue measure of its disc (the points are seen as complex numbers). -/
theorem circle_area (c : Circle ℝ) (hr : 0 ≤ c.radius) :
    (MeasureTheory.volume {z : ℂ | distance ⟨z.re, z.im⟩ c.center ≤ c.radius}).toReal = c.area := by
  have hset : {z : ℂ | distance ⟨z.re, z.im⟩ c.center ≤ c.radius} = Metric.closedBall (⟨c.center.x, c.center.y⟩ : ℂ) c.radius := by
    ext z
    rw [Metric.mem_closedBall, Complex.dist_eq_re_im]
    rfl
  rw [hset, Complex.volume_closedBall]
  simp only [ENNReal.toReal_mul, ENNReal.toReal_pow, ENNReal.toReal_ofReal hr]
  unfold Circle.area
  rw [mul_comm]
  rfl

/-- C142. The area does not take the domain into account: a half disc has the area of the disc. -/
theorem circle_area_wrong (center : Vec ℝ) (r : ℝ) (d : Domain ℝ) : (⟨center, r, some d⟩ : Circle ℝ).area = (⟨center, r, none⟩ : Circle ℝ).area :=
  rfl

/-! ## C143 -/

/-- The operations that assign to the bounds of the domain object. -/
def CircleOp.isBound : CircleOp → Bool
  | .setStart _ | .setStop _ => true
  | _ => false

/-- Whether a heap extends another without the vector `i`. -/
def Keeps (i : Nat) (h h' : Heap) : Prop :=
  h.vectors.length ≤ h'.vectors.length ∧ (∀ j, j < h.vectors.length → j ≠ i → h'.vectors[j]? = h.vectors[j]?) ∧
  h.domains.length ≤ h'.domains.length ∧ ∀ j, j < h.domains.length → h'.domains[j]? = h.domains[j]?

theorem Keeps.value {i : Nat} {h h' : Heap} (hk : Keeps i h h') (c : CircleObject) (hc : c.center ≠ i) (v : Circle ℝ)
    (hv : c.value h = some v) : c.value h' = some v := by
  unfold CircleObject.value at hv ⊢
  obtain ⟨k1, k2, k3, k4⟩ := hk
  cases hvec : h.vectors[c.center]? with
  | none => rw [hvec] at hv; simp at hv
  | some w =>
    have hlt : c.center < h.vectors.length := by
      by_contra hge
      rw [List.getElem?_eq_none (by omega)] at hvec
      cases hvec
    rw [k2 _ hlt hc, hvec]
    rw [hvec] at hv
    cases hd : c.domain with
    | none => rw [hd] at hv; simpa using hv
    | some d =>
      rw [hd] at hv
      simp only [Option.bind_eq_bind, Option.bind_some] at hv ⊢
      cases hdom : h.domains[d]? with
      | none => rw [hdom] at hv; simp at hv
      | some w' =>
        have hltd : d < h.domains.length := by
          by_contra hge
          rw [List.getElem?_eq_none (by omega)] at hdom
          cases hdom
        rw [k4 _ hltd, hdom]
        rw [hdom] at hv
        exact hv

/-- What the operations on the clone preserve: its centre is not one of the vectors that existed before the clone, and those
vectors and the domains are unchanged. -/
def CloneInv (n : Nat) (h0 : Heap) (s : CircleObject × Heap) : Prop :=
  n ≤ s.1.center ∧ n ≤ s.2.vectors.length ∧ (∀ j, j < n → s.2.vectors[j]? = h0.vectors[j]?) ∧
  h0.domains.length ≤ s.2.domains.length ∧ ∀ j, j < h0.domains.length → s.2.domains[j]? = h0.domains[j]?

theorem cloneInv_step (n : Nat) (h0 : Heap) (s : CircleObject × Heap) (hs : CloneInv n h0 s) (op : CircleOp)
    (hop : op.isBound = false) : CloneInv n h0 (CircleObject.step op s) := by
  obtain ⟨c, h⟩ := s
  obtain ⟨i1, i2, i3, i4, i5⟩ := hs
  simp only at i1 i2 i3 i4 i5
  have happ : ∀ v : Vec ℝ, ∀ j, j < n → (h.vectors ++ [v])[j]? = h0.vectors[j]? := by
    intro v j hj
    rw [List.getElem?_append_left (by omega)]
    exact i3 j hj
  cases op with
  | setCenter v =>
    exact ⟨i2, by simp [CircleObject.step, CircleObject.setCenter]; omega, happ v, i4, i5⟩
  | updateCenter v =>
    refine ⟨i1, by simp [CircleObject.step]; omega, ?_, i4, i5⟩
    intro j hj
    simp only [CircleObject.step]
    rw [List.getElem?_set_ne (by omega)]
    exact i3 j hj
  | setRadius r => exact ⟨i1, i2, i3, i4, i5⟩
  | removeDomain => exact ⟨i1, i2, i3, i4, i5⟩
  | setDomain d =>
    refine ⟨i1, i2, i3, by simp [CircleObject.step]; omega, ?_⟩
    intro j hj
    simp only [CircleObject.step]
    rw [List.getElem?_append_left (by omega)]
    exact i5 j hj
  | setStart a => simp [CircleOp.isBound] at hop
  | setStop a => simp [CircleOp.isBound] at hop
  | transform t =>
    unfold CircleObject.step
    simp only
    split
    · exact ⟨i1, i2, i3, i4, i5⟩
    · rename_i v _
      simp only [CircleObject.setCenter]
      split
      · exact ⟨i2, by simp; omega, happ _, i4, i5⟩
      · exact ⟨i2, by simp; omega, happ _, i4, i5⟩

/-- C143. A clone has the value of the circle, and whatever is done to the clone afterwards the circle keeps its value, except
the assignments to the bounds of its domain. -/
theorem circle_clone_partial (c : CircleObject) (h : Heap) (v : Circle ℝ) (hv : c.value h = some v) :
    (c.clone h).1.value (c.clone h).2 = some v ∧
    ∀ ops : List CircleOp, (∀ op ∈ ops, op.isBound = false) →
      c.value (ops.foldl (fun s op => CircleObject.step op s) (c.clone h)).2 = some v := by
  have hvec : ∃ w, h.vectors[c.center]? = some w := by
    unfold CircleObject.value at hv
    cases hw : h.vectors[c.center]? with
    | none => rw [hw] at hv; simp at hv
    | some w => exact ⟨w, rfl⟩
  obtain ⟨w, hw⟩ := hvec
  have hlt : c.center < h.vectors.length := by
    by_contra hge
    rw [List.getElem?_eq_none (by omega)] at hw
    cases hw
  constructor
  · unfold CircleObject.value at hv ⊢
    unfold CircleObject.clone
    simp only [hw, Option.toList_some]
    rw [List.getElem?_append_right (le_refl _)]
    simp only [Nat.sub_self, List.getElem?_cons_zero]
    rw [hw] at hv
    exact hv
  · intro ops hops
    have h0 : CloneInv h.vectors.length h (c.clone h) := by
      refine ⟨le_refl _, by simp [CircleObject.clone], ?_, le_refl _, fun _ _ => rfl⟩
      intro j hj
      simp only [CircleObject.clone]
      rw [List.getElem?_append_left hj]
    have hinv : ∀ (ops : List CircleOp) (s : CircleObject × Heap), (∀ op ∈ ops, op.isBound = false) →
        CloneInv h.vectors.length h s → CloneInv h.vectors.length h (ops.foldl (fun s op => CircleObject.step op s) s) := by
      intro ops
      induction ops with
      | nil => intro s _ hs; exact hs
      | cons op ops ih =>
        intro s hb hs
        exact ih _ (fun o ho => hb o (List.mem_cons_of_mem _ ho)) (cloneInv_step _ _ s hs op (hb op List.mem_cons_self))
    obtain ⟨i1, i2, i3, i4, i5⟩ := hinv ops _ hops h0
    refine Keeps.value (i := h.vectors.length) ⟨i2, fun j hj _ => i3 j hj, i4, i5⟩ c (by omega) v hv

/-- What an operation does to a circle, seen as a value. -/
noncomputable def CircleOp.effect (op : CircleOp) (v : Circle ℝ) : Circle ℝ :=
  match op with
  | .setCenter w => { v with center := w }
  | .updateCenter w => { v with center := w }
  | .setRadius r => { v with radius := r }
  | .removeDomain => { v with domain := none }
  | .setDomain d => { v with domain := some d }
  | .setStart a => { v with domain := v.domain.map fun d => ⟨a, d.stop⟩ }
  | .setStop a => { v with domain := v.domain.map fun d => ⟨d.start, a⟩ }
  | .transform t => ⟨t.apply v.center, match Transformation.scalarMul t.type (t.m 0 0) v.radius with | .ok r => r | .error _ => v.radius, v.domain⟩

theorem circle_step (c : CircleObject) (h : Heap) (v : Circle ℝ) (hv : c.value h = some v) (op : CircleOp) :
    (CircleObject.step op (c, h)).1.value (CircleObject.step op (c, h)).2 = some (op.effect v) := by
  obtain ⟨i, r, dom⟩ := c
  unfold CircleObject.value at hv
  cases hw : h.vectors[i]? with
  | none => simp only [hw] at hv; simp at hv
  | some w =>
  have hlt : i < h.vectors.length := by
    by_contra hge
    rw [List.getElem?_eq_none (by omega)] at hw
    cases hw
  have hnew : ∀ x : Vec ℝ, (h.vectors ++ [x])[h.vectors.length]? = some x := fun x => by simp
  simp only [hw] at hv
  cases dom with
  | none =>
    simp only [Option.bind_eq_bind, Option.bind_some, Option.some.injEq] at hv
    subst hv
    cases op with
    | setCenter x => simp [CircleObject.step, CircleObject.setCenter, CircleObject.value, CircleOp.effect]
    | updateCenter x => simp [CircleObject.step, CircleObject.value, CircleOp.effect, hlt]
    | setRadius x => simp [CircleObject.step, CircleObject.value, CircleOp.effect, hw]
    | removeDomain => simp [CircleObject.step, CircleObject.value, CircleOp.effect, hw]
    | setDomain d => simp [CircleObject.step, CircleObject.value, CircleOp.effect, hw]
    | setStart a => simp [CircleObject.step, CircleObject.value, CircleOp.effect, hw]
    | setStop a => simp [CircleObject.step, CircleObject.value, CircleOp.effect, hw]
    | transform t =>
      simp only [CircleObject.step, hw, CircleOp.effect, CircleObject.setCenter]
      split <;> simp_all [CircleObject.value]
  | some k =>
    cases hk : h.domains[k]? with
    | none => simp only [hk] at hv; simp at hv
    | some d =>
    simp only [hk, Option.bind_eq_bind, Option.bind_some, Option.some.injEq] at hv
    have hklt : k < h.domains.length := by
      by_contra hge
      rw [List.getElem?_eq_none (by omega)] at hk
      cases hk
    subst hv
    cases op with
    | setCenter x => simp [CircleObject.step, CircleObject.setCenter, CircleObject.value, CircleOp.effect, hk]
    | updateCenter x => simp [CircleObject.step, CircleObject.value, CircleOp.effect, hlt, hk]
    | setRadius x => simp [CircleObject.step, CircleObject.value, CircleOp.effect, hw, hk]
    | removeDomain => simp [CircleObject.step, CircleObject.value, CircleOp.effect, hw]
    | setDomain d' => simp [CircleObject.step, CircleObject.value, CircleOp.effect, hw]
    | setStart a => simp [CircleObject.step, CircleObject.value, CircleOp.effect, hw, hk]
    | setStop a => simp [CircleObject.step, CircleObject.value, CircleOp.effect, hw, hk]
    | transform t =>
      simp only [CircleObject.step, hw, CircleOp.effect, CircleObject.setCenter]
      split <;> simp_all [CircleObject.value]

/-- C143. A clone shows what is done to it: after any sequence of assignments and transformations its value is the one these
operations give, from the value of the circle. -/
theorem circle_operations (c : CircleObject) (h : Heap) (v : Circle ℝ) (hv : c.value h = some v) (ops : List CircleOp) :
    let s := ops.foldl (fun s op => CircleObject.step op s) (c.clone h)
    s.1.value s.2 = some (ops.foldl (fun v op => op.effect v) v) := by
  have key : ∀ (ops : List CircleOp) (s : CircleObject × Heap) (v : Circle ℝ), s.1.value s.2 = some v →
      (ops.foldl (fun s op => CircleObject.step op s) s).1.value (ops.foldl (fun s op => CircleObject.step op s) s).2 =
        some (ops.foldl (fun v op => op.effect v) v) := by
    intro ops
    induction ops with
    | nil => intro s v hv; exact hv
    | cons op ops ih => intro s v hv; exact ih _ _ (circle_step s.1 s.2 v hv op)
  exact key ops _ v (circle_clone_partial c h v hv).1

example : (⟨0, 2, some 0⟩ : CircleObject).value ⟨[⟨1, 2⟩], [⟨0, 90⟩]⟩ = some ⟨⟨1, 2⟩, 2, some ⟨0, 90⟩⟩ := rfl

/-- C143. But the two circles share their domain: an assignment to the start angle of the clone changes the circle. -/
theorem circle_clone_wrong (c : CircleObject) (h : Heap) (center : Vec ℝ) (r : ℝ) (d : Domain ℝ) (a : ℝ)
    (hv : c.value h = some ⟨center, r, some d⟩) :
    c.value (CircleObject.step (.setStart a) (c.clone h)).2 = some ⟨center, r, some ⟨a, d.stop⟩⟩ := by
  unfold CircleObject.value at hv
  cases hw : h.vectors[c.center]? with
  | none => rw [hw] at hv; simp at hv
  | some w =>
    have hlt : c.center < h.vectors.length := by
      by_contra hge
      rw [List.getElem?_eq_none (by omega)] at hw
      cases hw
    rw [hw] at hv
    cases hd : c.domain with
    | none => rw [hd] at hv; simp at hv
    | some i =>
      rw [hd] at hv
      simp only [Option.bind_eq_bind, Option.bind_some] at hv
      cases hdom : h.domains[i]? with
      | none => rw [hdom] at hv; simp at hv
      | some d' =>
        rw [hdom] at hv
        simp only [Option.bind_some, Option.some.injEq, Circle.mk.injEq] at hv
        obtain ⟨h1, h2, h3⟩ := hv
        subst h1 h2 h3
        unfold CircleObject.value CircleObject.step CircleObject.clone
        simp only [hd]
        rw [List.getElem?_append_left hlt, hw]
        simp only [Option.bind_eq_bind, Option.bind_some, List.getElem?_modify_eq, hdom]
        rfl

/-! ## C144 -/

theorem sq_of_distance (p c : Vec ℝ) (r : ℝ) (hr : 0 ≤ r) :
    distance p c = r ↔ (p.x - c.x) ^ 2 + (p.y - c.y) ^ 2 = r ^ 2 := by
  unfold distance
  rw [Real.sqrt_eq_iff_mul_self_eq (by positivity) hr]
  constructor <;> intro h <;> linarith

/-- The coordinates of the common points along the line of the centres and across it. -/
theorem common_points (c1 c2 q : Vec ℝ) (r1 r2 D : ℝ) (h1 : 0 ≤ r1) (h2 : 0 ≤ r2) (hD : 0 < D)
    (hv : (c2.x - c1.x) ^ 2 + (c2.y - c1.y) ^ 2 = D ^ 2) :
    (q ∈ circlePoints c1 r1 ∩ circlePoints c2 r2 ↔
      ((q.x - c1.x) * (c2.x - c1.x) + (q.y - c1.y) * (c2.y - c1.y)) / D = (D ^ 2 - r2 ^ 2 + r1 ^ 2) / (2 * D) ∧
      (((q.y - c1.y) * (c2.x - c1.x) - (q.x - c1.x) * (c2.y - c1.y)) / D) ^ 2 = r1 ^ 2 - ((D ^ 2 - r2 ^ 2 + r1 ^ 2) / (2 * D)) ^ 2) := by
  change (distance q c1 = r1 ∧ distance q c2 = r2) ↔ _
  rw [sq_of_distance _ _ _ h1, sq_of_distance _ _ _ h2]
  have hD' := hD.ne'
  have hsum : (((q.x - c1.x) * (c2.x - c1.x) + (q.y - c1.y) * (c2.y - c1.y)) / D) ^ 2 +
      (((q.y - c1.y) * (c2.x - c1.x) - (q.x - c1.x) * (c2.y - c1.y)) / D) ^ 2 = (q.x - c1.x) ^ 2 + (q.y - c1.y) ^ 2 := by
    field_simp
    linear_combination ((q.x - c1.x) ^ 2 + (q.y - c1.y) ^ 2) * hv
  have hdiff : (q.x - c2.x) ^ 2 + (q.y - c2.y) ^ 2 = (q.x - c1.x) ^ 2 + (q.y - c1.y) ^ 2 + D ^ 2 -
      2 * D * (((q.x - c1.x) * (c2.x - c1.x) + (q.y - c1.y) * (c2.y - c1.y)) / D) := by
    field_simp
    linear_combination hv
  have hs : (D ^ 2 - r2 ^ 2 + r1 ^ 2) / (2 * D) * (2 * D) = D ^ 2 - r2 ^ 2 + r1 ^ 2 := by field_simp
  rw [hdiff, ← hsum]
  generalize ((q.x - c1.x) * (c2.x - c1.x) + (q.y - c1.y) * (c2.y - c1.y)) / D = s
  generalize ((q.y - c1.y) * (c2.x - c1.x) - (q.x - c1.x) * (c2.y - c1.y)) / D = t
  generalize (D ^ 2 - r2 ^ 2 + r1 ^ 2) / (2 * D) = x at *
  constructor
  · rintro ⟨e1, e2⟩
    have : s = x := by
      have : s * (2 * D) = x * (2 * D) := by linarith
      exact mul_right_cancel₀ (by positivity) this
    subst this
    exact ⟨rfl, by linarith⟩
  · rintro ⟨e1, e2⟩
    subst e1
    exact ⟨by linarith, by nlinarith⟩

/-- The mirror image of a common point in the line of the centres is a common point. -/
theorem common_mirror (c1 c2 : Vec ℝ) (r1 r2 D s t : ℝ) (h1 : 0 ≤ r1) (h2 : 0 ≤ r2) (hD : 0 < D)
    (hv : (c2.x - c1.x) ^ 2 + (c2.y - c1.y) ^ 2 = D ^ 2) (hs : s = (D ^ 2 - r2 ^ 2 + r1 ^ 2) / (2 * D)) (ht : t ^ 2 = r1 ^ 2 - s ^ 2) :
    (⟨c1.x + s / D * (c2.x - c1.x) - t / D * (c2.y - c1.y), c1.y + s / D * (c2.y - c1.y) + t / D * (c2.x - c1.x)⟩ : Vec ℝ) ∈
      circlePoints c1 r1 ∩ circlePoints c2 r2 := by
  rw [common_points c1 c2 _ r1 r2 D h1 h2 hD hv, ← hs]
  have hD' := hD.ne'
  constructor
  · simp only
    field_simp
    linear_combination s * hv
  · rw [← ht]
    congr 1
    simp only
    field_simp
    linear_combination t * hv

/-- `intersect_circle` for different centres. -/
theorem intersectCircle_eq (c other : Circle ℝ) (hne : c.center ≠ other.center) :
    ∃ D, 0 < D ∧ (other.center.x - c.center.x) ^ 2 + (other.center.y - c.center.y) ^ 2 = D ^ 2 ∧
      c.intersectCircle other =
        (let x := (D ^ 2 - other.radius ^ 2 + c.radius ^ 2) / (2 * D)
         let k := if c.center.x ≤ other.center.x then x / D else -(x / D)
         if c.radius ^ 2 - x ^ 2 < 0 then .ok .none
         else if c.radius ^ 2 - x ^ 2 = 0 then .ok (.one (c.center + (other.center - c.center).smul k))
         else .error .typeError) := by
  have hv : other.center - c.center ≠ 0 := by
    intro h
    apply hne
    have hx := congrArg Vec.x h
    have hy := congrArg Vec.y h
    simp at hx hy
    ext <;> linarith
  have hD := Vec.magnitude_pos _ hv
  have hmm := Vec.magnitude_mul_self (other.center - c.center)
  refine ⟨(other.center - c.center).magnitude, hD, ?_, ?_⟩
  · rw [sq (other.center - c.center).magnitude, hmm]; unfold Vec.magnitudeSquare; simp; ring
  · unfold Circle.intersectCircle
    simp only [Vec.pyDiv]
    generalize (other.center - c.center).magnitude = D at *
    clear hmm
    by_cases hs : c.center.x ≤ other.center.x
    · have hsg : sign (other.center - c.center).x = 1 := by unfold sign; rw [if_pos (by simp; exact hs)]
      rw [hsg, one_mul, if_neg (by positivity)]
      simp only [hs, if_true, bind, Except.bind, pure, Except.pure]
      split_ifs
      · rfl
      · refine congrArg (fun v => Except.ok (Hits.one v)) ?_
        ext
        · simp; ring
        · simp; ring
      · rfl
    · have hsg : sign (other.center - c.center).x = -1 := by
        unfold sign; rw [if_neg (by simp; exact not_le.1 hs)]
      have e1 : (-1 * D) ^ 2 = D ^ 2 := by ring
      have e2 : (D ^ 2 - other.radius ^ 2 + c.radius ^ 2) / (2 * (-1 * D)) = -((D ^ 2 - other.radius ^ 2 + c.radius ^ 2) / (2 * D)) := by
        rw [← div_neg]; ring_nf
      rw [hsg, e1, if_neg (by simp; exact hD.ne'), e2]
      simp only [hs, if_false, bind, Except.bind, pure, Except.pure, neg_sq]
      split_ifs
      · rfl
      · refine congrArg (fun v => Except.ok (Hits.one v)) ?_
        ext
        · simp; ring
        · simp; ring
      · rfl

/-- C144. For circles with different centres, `intersect_circle` returns `None` exactly when the circles have no common point. -/
theorem intersect_circle_none (c other : Circle ℝ) (h1 : 0 ≤ c.radius) (h2 : 0 ≤ other.radius) (hne : c.center ≠ other.center) :
    c.intersectCircle other = .ok .none ↔
      circlePoints c.center c.radius ∩ circlePoints other.center other.radius = ∅ := by
  obtain ⟨D, hD, hv, he⟩ := intersectCircle_eq c other hne
  have hcp := fun q => common_points c.center other.center q c.radius other.radius D h1 h2 hD hv
  have hmir := fun s t => common_mirror c.center other.center c.radius other.radius D s t h1 h2 hD hv
  rw [he]
  simp only
  generalize hx : (D ^ 2 - other.radius ^ 2 + c.radius ^ 2) / (2 * D) = x at *
  constructor
  · intro h
    rw [Set.eq_empty_iff_forall_notMem]
    intro q hq
    obtain ⟨-, g⟩ := (hcp q).1 hq
    have hn : ¬ c.radius ^ 2 - x ^ 2 < 0 := by rw [← g]; exact not_lt.2 (sq_nonneg _)
    rw [if_neg hn] at h
    split_ifs at h <;> simp at h
  · intro h
    by_cases hn : c.radius ^ 2 - x ^ 2 < 0
    · rw [if_pos hn]
    · exfalso
      push Not at hn
      rw [Set.eq_empty_iff_forall_notMem] at h
      exact h _ (hmir x (Real.sqrt (c.radius ^ 2 - x ^ 2)) rfl (Real.sq_sqrt hn))

/-- C144. Circles that touch at one point: the point is returned when the other circle is not on the left, but its mirror
image in the centre of the first circle otherwise. -/
theorem intersect_circle_tangent_partial (c other : Circle ℝ) (h1 : 0 ≤ c.radius) (h2 : 0 ≤ other.radius)
    (hne : c.center ≠ other.center) (q : Vec ℝ)
    (hq : circlePoints c.center c.radius ∩ circlePoints other.center other.radius = {q}) :
    c.intersectCircle other = .ok (.one (if c.center.x ≤ other.center.x then q else c.center + c.center - q)) := by
  obtain ⟨D, hD, hv, he⟩ := intersectCircle_eq c other hne
  have hq1 : q ∈ circlePoints c.center c.radius ∩ circlePoints other.center other.radius := by rw [hq]; rfl
  have hcp := (common_points c.center other.center q c.radius other.radius D h1 h2 hD hv).1 hq1
  have hmir := fun s t => common_mirror c.center other.center c.radius other.radius D s t h1 h2 hD hv
  rw [he]
  simp only
  generalize hx : (D ^ 2 - other.radius ^ 2 + c.radius ^ 2) / (2 * D) = x at *
  obtain ⟨-, g⟩ := hcp
  have hn : 0 ≤ c.radius ^ 2 - x ^ 2 := by rw [← g]; exact sq_nonneg _
  have p1 := hmir x (Real.sqrt (c.radius ^ 2 - x ^ 2)) rfl (Real.sq_sqrt hn)
  have p2 := hmir x (-Real.sqrt (c.radius ^ 2 - x ^ 2)) rfl (by rw [neg_sq]; exact Real.sq_sqrt hn)
  rw [hq] at p1 p2
  have e1 : _ = q := p1
  have e2 : _ = q := p2
  have hD' := hD.ne'
  have ex := congrArg Vec.x (e1.trans e2.symm)
  have ey := congrArg Vec.y (e1.trans e2.symm)
  simp only at ex ey
  have hz : Real.sqrt (c.radius ^ 2 - x ^ 2) = 0 := by
    have a1 : Real.sqrt (c.radius ^ 2 - x ^ 2) / D * (other.center.y - c.center.y) = 0 := by
      rw [neg_div] at ex; linarith
    have a2 : Real.sqrt (c.radius ^ 2 - x ^ 2) / D * (other.center.x - c.center.x) = 0 := by
      rw [neg_div] at ey; linarith
    have : (Real.sqrt (c.radius ^ 2 - x ^ 2) / D) ^ 2 * D ^ 2 = 0 := by
      rw [← hv]
      linear_combination (Real.sqrt (c.radius ^ 2 - x ^ 2) / D * (other.center.x - c.center.x)) * a2 +
        (Real.sqrt (c.radius ^ 2 - x ^ 2) / D * (other.center.y - c.center.y)) * a1
    have h3 : Real.sqrt (c.radius ^ 2 - x ^ 2) ^ 2 = 0 := by
      rw [div_pow] at this; field_simp at this; exact this
    exact pow_eq_zero_iff (two_ne_zero) |>.1 h3
  have hy0 : c.radius ^ 2 - x ^ 2 = 0 := by rw [← Real.sq_sqrt hn, hz]; ring
  rw [if_neg (by linarith), if_pos hy0]
  rw [hz] at e1
  have qx := congrArg Vec.x e1
  have qy := congrArg Vec.y e1
  simp only [zero_div, zero_mul, sub_zero, add_zero] at qx qy
  congr 2
  split_ifs
  · ext <;> simp
    · linarith
    · linarith
  · ext <;> simp
    · linarith
    · linarith

/-- C144. When the circles have two common points they should be returned, but `intersect_circle` raises `TypeError`. -/
theorem intersect_circle_secant (c other : Circle ℝ) (h1 : 0 ≤ c.radius) (h2 : 0 ≤ other.radius) (hne : c.center ≠ other.center)
    (p q : Vec ℝ) (hpq : p ≠ q) (hp : p ∈ circlePoints c.center c.radius ∩ circlePoints other.center other.radius)
    (hq : q ∈ circlePoints c.center c.radius ∩ circlePoints other.center other.radius) :
    c.intersectCircle other = .error .typeError := by
  obtain ⟨D, hD, hv, he⟩ := intersectCircle_eq c other hne
  obtain ⟨a1, a2⟩ := (common_points c.center other.center p c.radius other.radius D h1 h2 hD hv).1 hp
  obtain ⟨b1, b2⟩ := (common_points c.center other.center q c.radius other.radius D h1 h2 hD hv).1 hq
  rw [he]
  simp only
  generalize hx : (D ^ 2 - other.radius ^ 2 + c.radius ^ 2) / (2 * D) = x at *
  have hD' := hD.ne'
  rw [if_neg (by rw [← a2]; exact not_lt.2 (sq_nonneg _)), if_neg]
  intro hz
  rw [hz] at a2 b2
  have a3 := pow_eq_zero_iff (two_ne_zero) |>.1 a2
  have b3 := pow_eq_zero_iff (two_ne_zero) |>.1 b2
  rw [div_eq_zero_iff, or_iff_left hD'] at a3 b3
  have ab := a1.trans b1.symm
  rw [div_left_inj' hD'] at ab
  apply hpq
  have k1 : (p.x - q.x) * D ^ 2 = 0 := by
    rw [← hv]; linear_combination (other.center.x - c.center.x) * ab - (other.center.y - c.center.y) * (a3 - b3)
  have k2 : (p.y - q.y) * D ^ 2 = 0 := by
    rw [← hv]; linear_combination (other.center.y - c.center.y) * ab + (other.center.x - c.center.x) * (a3 - b3)
  have hD2 : D ^ 2 ≠ 0 := by positivity
  ext
  · linarith [(mul_eq_zero.1 k1).resolve_right hD2]
  · linarith [(mul_eq_zero.1 k2).resolve_right hD2]

example : (⟨0, 1⟩ : Vec ℝ) ∈ circlePoints ⟨-1, 0⟩ (Real.sqrt 2) ∩ circlePoints ⟨1, 0⟩ (Real.sqrt 2) := by
  constructor <;> (show Real.sqrt _ = Real.sqrt 2; norm_num)

/-- C144. Circles with the same centre raise `ZeroDivisionError`. -/
theorem intersect_circle_concentric (center : Vec ℝ) (r1 r2 : ℝ) (d1 d2 : Option (Domain ℝ)) :
    (⟨center, r1, d1⟩ : Circle ℝ).intersectCircle ⟨center, r2, d2⟩ = .error .zeroDivisionError := by
  have h : (center - center : Vec ℝ).magnitude = 0 := by
    unfold Vec.magnitude Vec.magnitudeSquare; simp
  unfold Circle.intersectCircle
  simp [h, Vec.pyDiv, bind, Except.bind]

/-- C144 is false for circles which touch, when the centre of the second is on the left: the returned point is opposite to the point
they share, at the distance `2 * r1 + r2` from the second centre, so that it is not on the second circle. -/
theorem intersect_circle_wrong (c other : Circle ℝ) (h1 : 0 < c.radius) (h2 : 0 < other.radius) (hx : other.center.x < c.center.x)
    (ht : distance c.center other.center = c.radius + other.radius) :
    ∃ p q, c.intersectCircle other = .ok (.one p) ∧ p ∉ circlePoints other.center other.radius ∧
      distance p other.center = 2 * c.radius + other.radius ∧
      q ∈ circlePoints c.center c.radius ∩ circlePoints other.center other.radius := by
  obtain ⟨⟨cx, cy⟩, r1, d1⟩ := c
  obtain ⟨⟨ox, oy⟩, r2, d2⟩ := other
  simp only at h1 h2 hx ht
  have hpos : 0 < r1 + r2 := by linarith
  have hm : ((⟨ox, oy⟩ : Vec ℝ) - ⟨cx, cy⟩).magnitude = r1 + r2 := by
    rw [← ht]
    unfold Vec.magnitude Vec.magnitudeSquare distance
    simp only [Vec.sub_x, Vec.sub_y]
    congr 1; ring
  have hsq : (ox - cx) ^ 2 + (oy - cy) ^ 2 = (r1 + r2) ^ 2 := by
    have := ht
    unfold distance at this
    rw [Real.sqrt_eq_iff_mul_self_eq (by positivity) hpos.le] at this
    simp only at this
    linarith
  have hsign : sign (((⟨ox, oy⟩ : Vec ℝ) - ⟨cx, cy⟩).x) = -1 := by
    simp only [Vec.sub_x, sign]
    rw [if_neg (by linarith)]
  have hne := hpos.ne'
  have dist : ∀ s : ℝ, 0 ≤ s → ∀ p : Vec ℝ, (p.x - ox) ^ 2 + (p.y - oy) ^ 2 = s ^ 2 → distance p ⟨ox, oy⟩ = s := by
    intro s hs p e
    unfold distance
    rw [e, Real.sqrt_sq hs]
  have hp : distance ⟨cx + -r1 * ((ox - cx) / (r1 + r2)), cy + -r1 * ((oy - cy) / (r1 + r2))⟩ ⟨ox, oy⟩ = 2 * r1 + r2 := by
    apply dist _ (by linarith)
    have : ((cx + -r1 * ((ox - cx) / (r1 + r2))) - ox) ^ 2 + ((cy + -r1 * ((oy - cy) / (r1 + r2))) - oy) ^ 2 =
        ((ox - cx) ^ 2 + (oy - cy) ^ 2) * (2 * r1 + r2) ^ 2 / (r1 + r2) ^ 2 := by field_simp; ring
    rw [this, hsq]; field_simp
  refine ⟨⟨cx + -r1 * ((ox - cx) / (r1 + r2)), cy + -r1 * ((oy - cy) / (r1 + r2))⟩,
    ⟨cx + r1 * ((ox - cx) / (r1 + r2)), cy + r1 * ((oy - cy) / (r1 + r2))⟩, ?_, ?_, hp, ?_, ?_⟩
  · have hd : (2 : ℝ) * (-1 * (r1 + r2)) ≠ 0 := by
      intro h; apply hne; linarith
    have hx' : (((-1 : ℝ) * (r1 + r2)) ^ 2 - r2 ^ 2 + r1 ^ 2) / (2 * (-1 * (r1 + r2))) = -r1 := by
      rw [div_eq_iff hd]; ring
    unfold Circle.intersectCircle
    simp only [hm, hsign, Vec.pyDiv, bind, Except.bind]
    rw [if_neg hd]
    simp only [hx']
    rw [if_neg (by nlinarith), if_pos (by ring)]
    simp only [pure, Except.pure, Except.ok.injEq, Hits.one.injEq]
    ext <;> simp [Vec.sdiv]
  · intro h
    have h : distance _ _ = r2 := h
    rw [hp] at h
    linarith
  · show distance _ _ = r1
    unfold distance
    have : ((cx + r1 * ((ox - cx) / (r1 + r2))) - cx) ^ 2 + ((cy + r1 * ((oy - cy) / (r1 + r2))) - cy) ^ 2 =
        ((ox - cx) ^ 2 + (oy - cy) ^ 2) * r1 ^ 2 / (r1 + r2) ^ 2 := by field_simp; ring
    rw [this, hsq, mul_div_assoc, mul_div_cancel₀ _ (by positivity)]
    exact Real.sqrt_sq h1.le
  · apply dist _ h2.le
    have : ((cx + r1 * ((ox - cx) / (r1 + r2))) - ox) ^ 2 + ((cy + r1 * ((oy - cy) / (r1 + r2))) - oy) ^ 2 =
        ((ox - cx) ^ 2 + (oy - cy) ^ 2) * r2 ^ 2 / (r1 + r2) ^ 2 := by field_simp; ring
    rw [this, hsq]; field_simp

example :
    (⟨⟨0, 0⟩, 1, none⟩ : Circle ℝ).intersectCircle ⟨⟨-2, 0⟩, 1, none⟩ = .ok (.one ⟨1, 0⟩) ∧
    (⟨-1, 0⟩ : Vec ℝ) ∈ circlePoints ⟨0, 0⟩ 1 ∩ circlePoints ⟨-2, 0⟩ 1 ∧ (⟨1, 0⟩ : Vec ℝ) ∉ circlePoints ⟨-2, 0⟩ 1 := by
  refine ⟨?_, ⟨?_, ?_⟩, ?_⟩
  · have hm : (((⟨-2, 0⟩ : Vec ℝ) - ⟨0, 0⟩)).magnitude = 2 := by
      unfold Vec.magnitude Vec.magnitudeSquare
      rw [show (((⟨-2, 0⟩ : Vec ℝ) - ⟨0, 0⟩)).x * (((⟨-2, 0⟩ : Vec ℝ) - ⟨0, 0⟩)).x + (((⟨-2, 0⟩ : Vec ℝ) - ⟨0, 0⟩)).y * (((⟨-2, 0⟩ : Vec ℝ) - ⟨0, 0⟩)).y = 2 ^ 2 by norm_num]
      exact Real.sqrt_sq (by norm_num)
    unfold Circle.intersectCircle
    simp only [hm]
    norm_num [Vec.pyDiv, bind, Except.bind, sign, pure, Except.pure]
    ext <;> norm_num
  · show Real.sqrt _ = 1; norm_num
  · show Real.sqrt _ = 1; norm_num
  · intro h
    have : Real.sqrt _ = 1 := h
    rw [Real.sqrt_eq_one] at this
    norm_num at this

end Patro.Conic
