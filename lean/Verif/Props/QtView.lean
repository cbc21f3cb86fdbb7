import Verif.Props.QtPainter
import Mathlib.Algebra.Order.Floor.Ring
import Mathlib.Data.Nat.Log
/-!
# C182 to C185: arcs, grid, viewer and selection of the Qt painter
-/

namespace Patro.Qt

variable {K : Type} [Field K] [LinearOrder K] [IsStrictOrderedRing K]

/-! ## C182: arcs -/

section

variable [FloorRing K]

theorem truncate_near (x : K) : |(truncate x : K) - x| < 1 := by
  unfold truncate
  split
  · have h1 := Int.floor_le x
    have h2 := Int.lt_floor_add_one x
    rw [abs_lt]
    constructor <;> linarith
  · have h1 := Int.le_ceil x
    have h2 := Int.ceil_lt_add_one x
    rw [abs_lt]
    constructor <;> linarith

theorem truncate_mono {x y : K} (h : x ≤ y) : truncate x ≤ truncate y := by
  unfold truncate
  split
  · rename_i hx
    rw [if_pos (hx.trans h)]
    exact Int.floor_mono h
  · rename_i hx
    split
    · rename_i hy
      have h1 : ⌈x⌉ ≤ 0 := Int.ceil_le.2 (by push_cast; linarith)
      have h2 : 0 ≤ ⌊y⌋ := Int.floor_nonneg.2 hy
      omega
    · exact Int.ceil_mono h

theorem truncate_diff {x y d : K} (hd : 0 ≤ d) (h : y - x < d) : ((truncate y - truncate x : ℤ) : K) < d + 1 := by
  push_cast
  unfold truncate
  have h1 := Int.floor_le y
  have h2 := Int.lt_floor_add_one x
  have h3 := Int.ceil_lt_add_one y
  have h4 := Int.le_ceil x
  split
  · split
    · linarith
    · linarith
  · rename_i hy
    split
    · rename_i hx
      have e1 : (⌈y⌉ : K) ≤ 0 := by exact_mod_cast Int.ceil_le.2 (by push_cast; linarith)
      have e2 : (0 : K) ≤ ⌊x⌋ := by exact_mod_cast Int.floor_nonneg.2 hx
      linarith
    · linarith

/-- C182. An open arc is drawn from its start angle, and anticlockwise over the angle from its start to its stop, up to the rounding of Qt to
sixteenths of a degree, if the start is before the stop, or if they differ once rounded. The angle that is drawn is not negative and at most
a turn. Missing: a stop just before the start, see `arc_angles_wrong`. -/
theorem arc_angles_partial (i : Item K) (hopen : |i.shape.stopAngle - i.shape.startAngle| < 360)
    (h : i.shape.startAngle ≤ i.shape.stopAngle ∨ 1 / 8 ≤ i.shape.startAngle - i.shape.stopAngle) :
    ∃ start span : ℤ, (∀ c a b, paintArc i c a b = .draw (.arc ⟨c.x - a, c.y + b⟩ ⟨c.x + a, c.y - b⟩ start span)) ∧
      |(start : K) - 16 * i.shape.startAngle| < 1 ∧ |(span : K) - 16 * sweep i.shape.startAngle i.shape.stopAngle| < 2 ∧
      0 ≤ span ∧ span ≤ 5760 := by
  refine ⟨_, _, fun c a b => paintArc_open i hopen c a b, by rw [mul_comm 16]; exact truncate_near _, ?_⟩
  have n1 := truncate_near (i.shape.startAngle * 16)
  have n2 := truncate_near (i.shape.stopAngle * 16)
  rw [abs_lt] at n1 n2 hopen
  unfold spanOf sweep
  set A := truncate (i.shape.startAngle * 16) with hA
  set B := truncate (i.shape.stopAngle * 16) with hB
  by_cases hle : i.shape.startAngle ≤ i.shape.stopAngle
  · have hAB : A ≤ B := truncate_mono (by linarith)
    rw [if_neg (by omega), if_pos hle]
    refine ⟨?_, by omega, ?_⟩
    · push_cast
      rw [abs_lt]
      constructor <;> linarith
    · have := truncate_diff (x := i.shape.startAngle * 16) (y := i.shape.stopAngle * 16) (d := 5760) (by norm_num) (by linarith)
      rw [← hA, ← hB] at this
      have h' : B - A < 5761 := by exact_mod_cast (by push_cast at this ⊢; linarith : ((B - A : ℤ) : K) < ((5761 : ℤ) : K))
      omega
  · have hlt : 1 / 8 ≤ i.shape.startAngle - i.shape.stopAngle := by
      rcases h with h | h
      · exact absurd h hle
      · exact h
    have hAB : B - A < 0 := by
      have : ((B - A : ℤ) : K) < ((0 : ℤ) : K) := by push_cast; linarith
      exact_mod_cast this
    rw [if_pos hAB, if_neg hle]
    refine ⟨?_, ?_, by omega⟩
    · push_cast
      rw [abs_lt]
      constructor <;> linarith
    · have := truncate_diff (x := i.shape.stopAngle * 16) (y := i.shape.startAngle * 16) (d := 5760) (by norm_num) (by linarith)
      rw [← hA, ← hB] at this
      have h' : A - B < 5761 := by exact_mod_cast (by push_cast at this ⊢; linarith : ((A - B : ℤ) : K) < ((5761 : ℤ) : K))
      omega

/-- C182. An arc of nearly a turn, from 10 degrees to just below, is not drawn at all: the angle given to Qt is null. -/
theorem arc_angles_wrong (i : Item ℚ) (h1 : i.shape.startAngle = 1001 / 100) (h2 : i.shape.stopAngle = 10) (c : Vec ℚ) (a b : ℚ) :
    paintArc i c a b = .draw (.arc ⟨c.x - a, c.y + b⟩ ⟨c.x + a, c.y - b⟩ 160 0) ∧ sweep i.shape.startAngle i.shape.stopAngle = 35999 / 100 := by
  constructor
  · rw [paintArc_open i (by rw [h1, h2]; norm_num)]
    unfold spanOf
    rw [h1, h2]
    have e1 : truncate ((1001 / 100 : ℚ) * 16) = 160 := by decide +kernel
    have e2 : truncate ((10 : ℚ) * 16) = 160 := by decide +kernel
    rw [e1, e2]
    rfl
  · rw [h1, h2]
    unfold sweep
    norm_num

end

/-- C182. In the viewer, with a positive scale, the ellipse given to Qt for a centre and radii is the image of the one of the scene: the
point of the arc in the direction `u` is the place of the point of the scene in this direction. -/
theorem arc_place (v : Paper.Viewport K) (hs : 0 < v.scale) (c q : Vec K) (a b : K) (ha : 0 ≤ a) (hb : 0 ≤ b)
    (hq : (viewDevice v).toView c = .ok q) (u : Vec K) :
    (viewDevice v).toView ⟨c.x + a * u.x, c.y + b * u.y⟩ =
      .ok (arcPoint ⟨q.x - (viewDevice v).length a, q.y + (viewDevice v).length b⟩
        ⟨q.x + (viewDevice v).length a, q.y - (viewDevice v).length b⟩ u) := by
  unfold viewDevice at *
  simp only at *
  unfold Paper.Viewport.sceneToViewport at *
  unfold Paper.Viewport.lengthToViewport
  cases ht : v.translation with
  | none => rw [ht] at hq; cases hq
  | some t =>
    rw [ht] at hq
    simp only [Except.ok.injEq] at hq
    subst hq
    have ha' : 0 ≤ a * v.scale := mul_nonneg ha hs.le
    have hb' : 0 ≤ b * v.scale := mul_nonneg hb hs.le
    simp only [Except.ok.injEq, arcPoint]
    ext
    · have e : ∀ x : K, |x + a * v.scale - (x - a * v.scale)| = 2 * (a * v.scale) := fun x => by
        rw [show x + a * v.scale - (x - a * v.scale) = 2 * (a * v.scale) by ring]
        exact abs_of_nonneg (by linarith)
      simp only [e]
      simp
      ring
    · have e : ∀ x : K, |x - b * v.scale - (x + b * v.scale)| = 2 * (b * v.scale) := fun x => by
        rw [show x - b * v.scale - (x + b * v.scale) = -(2 * (b * v.scale)) by ring, abs_neg]
        exact abs_of_nonneg (by linarith)
      simp only [e]
      simp
      ring

/-- C182. In a SVG file the y axis is not turned and the arc is drawn upside down: the highest point of the circle of Qt is the place of the
lowest point of the circle of the scene. -/
theorem svg_arc_wrong (scale : K) (hs : 0 < scale) (c q : Vec K) (r : K) (hr : 0 < r) (hq : (svgDevice scale).toView c = .ok q) :
    (svgDevice scale).toView ⟨c.x, c.y + r⟩ ≠
      .ok (arcPoint ⟨q.x - (svgDevice scale).length r, q.y + (svgDevice scale).length r⟩
        ⟨q.x + (svgDevice scale).length r, q.y - (svgDevice scale).length r⟩ ⟨0, 1⟩) ∧
    (svgDevice scale).toView ⟨c.x, c.y - r⟩ =
      .ok (arcPoint ⟨q.x - (svgDevice scale).length r, q.y + (svgDevice scale).length r⟩
        ⟨q.x + (svgDevice scale).length r, q.y - (svgDevice scale).length r⟩ ⟨0, 1⟩) := by
  unfold svgDevice at *
  simp only [Except.ok.injEq] at *
  subst hq
  have hr' : 0 < r * scale := mul_pos hr hs
  have e : ∀ x : K, |x - r * scale - (x + r * scale)| = 2 * (r * scale) := fun x => by
    rw [show x - r * scale - (x + r * scale) = -(2 * (r * scale)) by ring, abs_neg]
    exact abs_of_nonneg (by linarith)
  constructor
  · intro h
    simp only [Except.ok.injEq] at h
    have := congrArg Vec.y h
    simp only [arcPoint, e] at this
    linarith
  · ext
    · simp [arcPoint]
    · simp only [arcPoint, e]
      ring

/-! ## C183: the grid -/

section

variable [FloorRing K] {dev : Device K} {view : Vec K → Vec K}

omit [IsStrictOrderedRing K] [FloorRing K] in
theorem mem_intRange (a b k : ℤ) : k ∈ intRange a b ↔ a ≤ k ∧ k < b := by
  unfold intRange
  rw [List.mem_map]
  constructor
  · rintro ⟨n, hn, rfl⟩
    rw [List.mem_range] at hn
    omega
  · rintro ⟨h1, h2⟩
    exact ⟨(k - a).toNat, by rw [List.mem_range]; omega, by omega⟩

omit [IsStrictOrderedRing K] [FloorRing K] in
theorem intRange_sorted (a b : ℤ) : (intRange a b).Pairwise (· < ·) := by
  unfold intRange
  rw [List.pairwise_map]
  exact List.pairwise_lt_range.imp (fun h => by omega)

theorem axisGrid_lines (hdev : ∀ p, dev.toView p = .ok (view p)) (s : Scn K) (lo hi a b : K) (isX : Bool)
    (step : ℤ) (hstep : 0 < step) :
    ∃ fs, axisGrid dev s lo hi a b isX step = .ok (fs.map .draw) ∧
      GridLines (fun x => if isX then .line (view (s.transformation ⟨x, a⟩)) (view (s.transformation ⟨x, b⟩)) else .line (view (s.transformation ⟨a, x⟩)) (view (s.transformation ⟨b, x⟩))) lo hi step fs := by
  set line : K → Figure K := fun x => if isX then .line (view (s.transformation ⟨x, a⟩)) (view (s.transformation ⟨x, b⟩)) else .line (view (s.transformation ⟨a, x⟩)) (view (s.transformation ⟨b, x⟩)) with hline
  have hcast : ∀ p, castPosition dev s (.vector p) = .ok (view (s.transformation p)) := fun p => by
    apply cast_eq hdev
    rfl
  have hm := IterTools.mapM_ok_of_forall (fun i : ℤ => (do
    let x : K := i * step
    if lo ≤ x ∧ x ≤ hi then
      let p0 : Vec K := if isX then ⟨x, a⟩ else ⟨a, x⟩
      let p1 : Vec K := if isX then ⟨x, b⟩ else ⟨b, x⟩
      let p0 ← castPosition dev s (.vector p0)
      let p1 ← castPosition dev s (.vector p1)
      return [.draw (.line p0 p1)]
    else return [] : Except PyErr (List (Op K))))
    (fun k : ℤ => if lo ≤ (k * step : K) ∧ (k * step : K) ≤ hi then [Op.draw (line (k * step))] else [])
    (intRange ⌊lo / step⌋ (⌊hi / step⌋ + 1)) (by
      intro k _
      dsimp only
      split
      · simp only [hcast, bind, Except.bind, pure, Except.pure]
        rw [hline]
        cases isX <;> rfl
      · rfl)
  set ks := (intRange ⌊lo / step⌋ (⌊hi / step⌋ + 1)).filter fun k : ℤ => decide (lo ≤ (k * step : K) ∧ (k * step : K) ≤ hi) with hks
  refine ⟨ks.map fun k => line (k * step), ?_, ks, (intRange_sorted _ _).filter _, ?_, rfl⟩
  · unfold axisGrid
    rw [hm]
    simp only [bind, Except.bind, pure, Except.pure, Except.ok.injEq]
    rw [hks]
    generalize intRange ⌊lo / step⌋ (⌊hi / step⌋ + 1) = l
    induction l with
    | nil => rfl
    | cons k l ih =>
      rw [List.map_cons, List.flatten_cons, ih, List.filter_cons]
      by_cases hk : lo ≤ (k * step : K) ∧ (k * step : K) ≤ hi
      · rw [if_pos hk, if_pos (by simpa using hk)]
        rfl
      · rw [if_neg hk, if_neg (by simpa using hk)]
        rfl
  · intro k
    rw [hks, List.mem_filter, mem_intRange, decide_eq_true_eq]
    constructor
    · exact fun h => h.2
    · intro h
      refine ⟨?_, h⟩
      have hst : (0 : K) < step := by exact_mod_cast hstep
      constructor
      · have : lo / step ≤ k := (div_le_iff₀ hst).2 h.1
        have h2 : (⌊lo / step⌋ : K) ≤ k := (Int.floor_le _).trans this
        exact_mod_cast h2
      · have : (k : K) ≤ hi / step := (le_div_iff₀ hst).2 h.2
        have h2 := Int.le_floor.2 this
        omega

omit [IsStrictOrderedRing K] [FloorRing K] [LinearOrder K] in
theorem render_draws (st : State K) (fs : List (Figure K)) (ops : List (Op K)) :
    render st (fs.map .draw ++ ops) = fs.map (fun f => ⟨st.pen, st.brush, f⟩) ++ render st ops := by
  induction fs with
  | nil => rfl
  | cons f fs ih => simp [render, ih]

/-- C183. The step of the grid is a power of ten: ten if the length is below a hundred, and otherwise the greatest one that is not above the
length, so that one to nine steps fit in it. -/
theorem grid_step (length : K) (h : 0 < length) :
    ∃ n : ℕ, 1 ≤ n ∧ gridStep length = .ok (10 ^ n) ∧ (length < 10 ^ (n + 1)) ∧ (10 ≤ length → (10 : K) ^ n ≤ length) ∧ (length < 10 → n = 1) := by
  have hfloor : 0 ≤ ⌊length⌋ := Int.floor_nonneg.2 h.le
  set m := ⌊length⌋.toNat with hm
  have hmz : (m : ℤ) = ⌊length⌋ := Int.toNat_of_nonneg hfloor
  have hm1 : (m : K) ≤ length := by
    have := Int.floor_le length
    rw [← hmz] at this
    exact_mod_cast this
  have hm2 : length < m + 1 := by
    have := Int.lt_floor_add_one length
    rw [← hmz] at this
    exact_mod_cast this
  have hmax : ∀ n : ℕ, 1 ≤ n → max ((10 : ℤ) ^ n) 10 = 10 ^ n := by
    intro n hn
    apply max_eq_left
    calc (10 : ℤ) = 10 ^ 1 := by norm_num
      _ ≤ 10 ^ n := pow_le_pow_right₀ (by norm_num) hn
  refine ⟨max (Nat.log 10 m) 1, le_max_right _ _, ?_, ?_, ?_, ?_⟩
  · unfold gridStep
    rw [if_neg (not_le.2 h), ← hm]
    by_cases hl : 1 ≤ Nat.log 10 m
    · rw [max_eq_left hl, hmax _ hl]
    · have : Nat.log 10 m = 0 := by omega
      rw [this]
      norm_num
  · have h1 : m < 10 ^ (Nat.log 10 m + 1) := Nat.lt_pow_succ_log_self (by norm_num) m
    have h2 : (m : K) + 1 ≤ (10 : K) ^ (Nat.log 10 m + 1) := by exact_mod_cast h1
    calc length < m + 1 := hm2
      _ ≤ (10 : K) ^ (Nat.log 10 m + 1) := h2
      _ ≤ (10 : K) ^ (max (Nat.log 10 m) 1 + 1) := pow_le_pow_right₀ (by norm_num) (by omega)
  · intro h10
    have hm10 : 10 ≤ m := by
      have : (10 : K) < m + 1 := lt_of_le_of_lt h10 hm2
      have h' : (10 : ℕ) < m + 1 := by exact_mod_cast this
      omega
    have hl : 1 ≤ Nat.log 10 m := (Nat.log_pos (by norm_num) hm10)
    rw [max_eq_left hl]
    have h1 : 10 ^ Nat.log 10 m ≤ m := Nat.pow_log_le_self 10 (by omega)
    calc (10 : K) ^ Nat.log 10 m ≤ m := by exact_mod_cast h1
      _ ≤ length := hm1
  · intro h10
    have hm10 : m < 10 := by
      have : (m : K) < 10 := lt_of_le_of_lt hm1 h10
      exact_mod_cast this
    rw [Nat.log_eq_zero_iff.2 (Or.inl hm10)]
    rfl

/-- C183 fails in a scene with a transformation: the lines of the multiples of the step are all moved by the transformation of the scene, and are
those of the area in no other way. -/
theorem grid_transformed_wrong (hdev : ∀ p, dev.toView p = .ok (view p)) (s : Scn K) (area : Box K)
    (harea : dev.area = some area) (hx : area.xInf < area.xSup) (hy : area.yInf < area.ySup) (step : ℤ)
    (hstep : gridStep (min (area.xSup - area.xInf) (area.ySup - area.yInf)) = .ok step) :
    ∃ ops a b c d, paintGrid dev s = .ok ops ∧
      GridLines (gridLine (fun p => view (s.transformation p)) area true) area.xInf area.xSup step a ∧ GridLines (gridLine (fun p => view (s.transformation p)) area false) area.yInf area.ySup step b ∧
      GridLines (gridLine (fun p => view (s.transformation p)) area true) area.xInf area.xSup (step / 10) c ∧
      GridLines (gridLine (fun p => view (s.transformation p)) area false) area.yInf area.ySup (step / 10) d ∧
      ∀ st, render st ops = (a ++ b).map (fun f => ⟨⟨⟨"black".toList, 1⟩, 75 / 100, .solidLine, .squareCap, .bevelJoin⟩, none, f⟩) ++
        (c ++ d).map fun f => ⟨⟨⟨"black".toList, 1⟩, 25 / 100, .solidLine, .squareCap, .bevelJoin⟩, none, f⟩ := by
  obtain ⟨n, hn, hgs, -⟩ := grid_step (min (area.xSup - area.xInf) (area.ySup - area.yInf))
    (lt_min (by linarith) (by linarith))
  have hst : step = 10 ^ n := by rw [hgs] at hstep; cases hstep; rfl
  have hpos : 0 < step := by rw [hst]; positivity
  have hpos10 : 0 < step / 10 := by
    have : (10 : ℤ) ^ n = 10 * 10 ^ (n - 1) := by rw [← pow_succ']; congr 1; omega
    rw [hst, this, Int.mul_ediv_cancel_left _ (by norm_num)]
    positivity
  obtain ⟨a, a1, a3⟩ := axisGrid_lines hdev s area.xInf area.xSup area.yInf area.ySup true step hpos
  obtain ⟨b, b1, b3⟩ := axisGrid_lines hdev s area.yInf area.ySup area.xInf area.xSup false step hpos
  obtain ⟨c, c1, c3⟩ := axisGrid_lines hdev s area.xInf area.xSup area.yInf area.ySup true (step / 10) hpos10
  obtain ⟨d, d1, d3⟩ := axisGrid_lines hdev s area.yInf area.ySup area.xInf area.xSup false (step / 10) hpos10
  refine ⟨[.setPen (gridPen (75 / 100)), .setBrush none] ++ a.map .draw ++ b.map .draw ++ [.setPen (gridPen (25 / 100)), .setBrush none] ++
      c.map .draw ++ d.map .draw, a, b, c, d, ?_, a3, b3, c3, d3, fun st => ?_⟩
  rotate_left
  · simp only [List.cons_append, List.nil_append, List.append_assoc, render, State.next, render_draws, List.map_append]
    have := fun st => render_draws (K := K) st d []
    simp only [List.append_nil, render] at this
    rw [this]
    rfl
  · unfold paintGrid
    rw [harea]
    dsimp only
    rw [hstep]
    simp only [bind, Except.bind]
    rw [a1, b1, c1, d1]
    rfl

/-- C183. The grid of a scene without transformation, on an area of positive size: first with a thick pen the lines at all the multiples of
the step that are in the area, in both directions, then with a thin pen those of a tenth of the step, all across the area. Nothing else is
drawn. -/
theorem grid_partial (hdev : ∀ p, dev.toView p = .ok (view p)) (s : Scn K) (hs : ∀ p, s.transformation p = p) (area : Box K)
    (harea : dev.area = some area) (hx : area.xInf < area.xSup) (hy : area.yInf < area.ySup) (step : ℤ)
    (hstep : gridStep (min (area.xSup - area.xInf) (area.ySup - area.yInf)) = .ok step) :
    ∃ ops a b c d, paintGrid dev s = .ok ops ∧
      GridLines (gridLine view area true) area.xInf area.xSup step a ∧ GridLines (gridLine view area false) area.yInf area.ySup step b ∧
      GridLines (gridLine view area true) area.xInf area.xSup (step / 10) c ∧
      GridLines (gridLine view area false) area.yInf area.ySup (step / 10) d ∧
      ∀ st, render st ops = (a ++ b).map (fun f => ⟨⟨⟨"black".toList, 1⟩, 75 / 100, .solidLine, .squareCap, .bevelJoin⟩, none, f⟩) ++
        (c ++ d).map fun f => ⟨⟨⟨"black".toList, 1⟩, 25 / 100, .solidLine, .squareCap, .bevelJoin⟩, none, f⟩ := by
  have h := grid_transformed_wrong hdev s area harea hx hy step hstep
  simpa only [hs] using h

/-- C183. The grid of an area without height or width cannot be painted, and nothing of the scene is painted either. -/
theorem empty_area_wrong (s : Scn K) (area : Box K) (harea : dev.area = some area)
    (h : area.xSup ≤ area.xInf ∨ area.ySup ≤ area.yInf) : paint dev s = ([], .error .valueError) := by
  have : gridStep (min (area.xSup - area.xInf) (area.ySup - area.yInf)) = .error .valueError := by
    unfold gridStep
    rw [if_pos]
    rcases h with h | h
    · exact (min_le_left _ _).trans (by linarith)
    · exact (min_le_right _ _).trans (by linarith)
  unfold paint paintGrid
  rw [harea]
  dsimp only
  rw [this]
  rfl

/-- C183. A painting starts with the grid, and the items come over it. -/
theorem grid_below (s : Scn K) (ops : List (Op K)) (h : paintGrid dev s = .ok ops) :
    paint dev s = (ops ++ (paintItems dev s).1, (paintItems dev s).2) := by
  unfold paint
  rw [h]

/-- In a scene moved by a translation of 3 to the right the lines, which should be at the multiples of ten of the area, are moved too. -/
example :
    ∃ (s : Scn ℚ) (dev : Device ℚ) (area : Box ℚ), (∀ p, dev.toView p = .ok p) ∧ dev.area = some area ∧ area = ⟨0, 20, 0, 5⟩ ∧
      axisGrid dev s area.xInf area.xSup area.yInf area.ySup true 10 =
        .ok [.draw (.line ⟨3, 0⟩ ⟨3, 5⟩), .draw (.line ⟨13, 0⟩ ⟨13, 5⟩), .draw (.line ⟨23, 0⟩ ⟨23, 5⟩)] :=
  ⟨{ transformation := fun p => ⟨p.x + 3, p.y⟩ }, ⟨fun p => .ok p, fun l => l, some ⟨0, 20, 0, 5⟩⟩, ⟨0, 20, 0, 5⟩, fun _ => rfl, rfl, rfl,
    by decide +kernel⟩

end

/-! ## C184: setting the scene of the viewer -/

/-- C184, what holds: setting a scene, whose bounding box was assigned, in a viewer that has a size fits it: the whole scene is in the viewport,
centred. Missing: only `detail_scene` assigns a box, see `set_scene_wrong`. -/
theorem set_scene_partial [FloorRing K] (q : QuickItem K) (id : Nat) (hid : q.scene ≠ some id) (size : Vec K) (box : Box K) (hsize : q.viewport.size = some size)
    (hx : 0 < size.x) (hy : 0 < size.y) (hbx : box.xInf ≤ box.xSup) (hby : box.yInf ≤ box.ySup)
    (hpoint : box.xInf < box.xSup ∨ box.yInf < box.ySup) :
    ∃ q', q.setScene id (some (some box)) = (.ok (), q') ∧ q'.scene = some id ∧
      (∀ p, Paper.Within p box → ∃ p', q'.viewport.sceneToViewport p = .ok p' ∧ Paper.Inside p' ⟨0, size.x, 0, size.y⟩) ∧
      q'.viewport.sceneToViewport ⟨(box.xInf + box.xSup) / 2, (box.yInf + box.ySup) / 2⟩ = .ok ⟨size.x / 2, size.y / 2⟩ := by
  obtain ⟨v', h1, -, h2, h3, -⟩ := Paper.fit { q.viewport with scene := some (some box) } size box hsize rfl hx hy hbx hby hpoint
  refine ⟨⟨some id, v'⟩, ?_, rfl, h2, h3⟩
  unfold QuickItem.setScene
  rw [if_neg hid]
  dsimp only [Option.join_some] at h1 ⊢
  rw [h1]

/-- C184. A viewer that was just made has no scene, and one unit of the scene is one pixel. -/
theorem new_viewer (l : K) : (QuickItem.new : QuickItem K).scene = none ∧ (QuickItem.new : QuickItem K).viewport.lengthToViewport l = l ∧
    (QuickItem.new : QuickItem K).viewport.lengthToScene l = l := by
  refine ⟨rfl, ?_, ?_⟩ <;> simp [QuickItem.new, Paper.Viewport.lengthToViewport, Paper.Viewport.lengthToScene]

/-- C184. Without a size, it raises `TypeError`. -/
theorem set_scene_no_size (q : QuickItem K) (id : Nat) (hid : q.scene ≠ some id) (box : Box K) (hsize : q.viewport.size = none) :
    (q.setScene id (some (some box))).1 = .error .typeError := by
  unfold QuickItem.setScene Paper.Viewport.fitScene
  rw [if_neg hid]
  dsimp only [Option.join_some]
  rw [hsize]

/-- C184. It raises `AttributeError` for a scene whose bounding box was not assigned, or is `None`, with or without a size; the scene is set all
the same, so that setting it again does nothing and succeeds, and every later fit raises; what was seen of the scene before is unchanged, and
nothing can be placed in a viewer that was just made. -/
theorem set_scene_wrong (q : QuickItem K) (id : Nat) (hid : q.scene ≠ some id) (boundingBox : Option (Option (Box K)))
    (h : boundingBox = none ∨ boundingBox = some none) :
    ∃ q', q.setScene id boundingBox = (.error .attributeError, q') ∧ q'.scene = some id ∧
      (∀ box, q'.setScene id box = (.ok (), q')) ∧ q'.viewport.fitScene = .error .attributeError ∧
      (∀ p, q'.viewport.sceneToViewport p = q.viewport.sceneToViewport p) ∧
      (q = QuickItem.new → ∀ p, (viewDevice q'.viewport).toView p = .error .attributeError) := by
  have hj : boundingBox.join = none := by rcases h with rfl | rfl <;> rfl
  refine ⟨{ scene := some id, viewport := { q.viewport with scene := some none } }, ?_, rfl, ?_, rfl, fun _ => rfl, ?_⟩
  · unfold QuickItem.setScene
    rw [if_neg hid, hj]
    rfl
  · intro box
    unfold QuickItem.setScene
    rw [if_pos rfl]
  · rintro rfl p
    rfl

/-! ## C203: rendering a scene to SVG -/

/-- C203, what holds: for a scene with a bounding box whose items can be painted, the picture has the size of the box at the scale asked for, its
view box is the box at this scale, and it shows the items and no grid; every point of the box is drawn inside the view box, ten units by unit of
the scene for the default scale. Missing: the picture is upside down, see `to_svg_wrong`. -/
theorem to_svg_partial [FloorRing K] (s : Scn K) (box : Box K) (scale : K) (hs : 0 ≤ scale) :
    (∀ e, (paintItems (svgDevice scale) s).2 = .error e → toSvg s (some (some box)) scale = .error e) ∧
    ((paintItems (svgDevice scale) s).2 = .ok () →
      ∃ size origin, toSvg s (some (some box)) scale = .ok ((size, origin, size), (paintItems (svgDevice scale) s).1) ∧
        size = ⟨(box.xSup - box.xInf) * scale, (box.ySup - box.yInf) * scale⟩ ∧
        ∀ p, Paper.Within p box → ∃ q, (svgDevice scale).toView p = .ok q ∧ q = ⟨p.x * scale, p.y * scale⟩ ∧
          Paper.Within q ⟨origin.x, origin.x + size.x, origin.y, origin.y + size.y⟩) ∧
    toSvg s (some (some box)) = toSvg s (some (some box)) 10 := by
  have hp : paint (svgDevice scale) s = paintItems (svgDevice scale) s := by
    unfold paint paintGrid
    rfl
  refine ⟨fun e he => ?_, fun hok => ?_, rfl⟩
  · unfold toSvg Painters.sceneBoundingBox
    simp only [bind, Except.bind, hp, he]
  · refine ⟨⟨(box.xSup - box.xInf) * scale, (box.ySup - box.yInf) * scale⟩, ⟨box.xInf * scale, box.yInf * scale⟩, ?_, rfl, ?_⟩
    · unfold toSvg Painters.sceneBoundingBox
      simp only [bind, Except.bind, hp, hok, pure, Except.pure]
    · rintro p ⟨h1, h2, h3, h4⟩
      refine ⟨_, rfl, rfl, ?_, ?_, ?_, ?_⟩ <;> dsimp only
      · exact mul_le_mul_of_nonneg_right h1 hs
      · have := mul_le_mul_of_nonneg_right h2 hs; linarith
      · exact mul_le_mul_of_nonneg_right h3 hs
      · have := mul_le_mul_of_nonneg_right h4 hs; linarith

/-- C203 fails for the orientation, since the y axis of a SVG picture goes down: of two points of the scene the higher one is drawn lower. It also
raises for a scene whose bounding box was not assigned, or is `None`. -/
theorem to_svg_wrong [FloorRing K] (s : Scn K) (scale : K) (hs : 0 < scale) :
    (∀ p q : Vec K, p.y < q.y → ∃ p' q', (svgDevice scale).toView p = .ok p' ∧ (svgDevice scale).toView q = .ok q' ∧ p'.y < q'.y) ∧
    toSvg s none scale = .error .attributeError ∧ toSvg s (some none) scale = .error .attributeError :=
  ⟨fun _ _ h => ⟨_, _, rfl, rfl, mul_lt_mul_of_pos_right h hs⟩, rfl, rfl⟩

/-! ## C185: selecting with the mouse -/

section

variable {S G : Type} (sh : Scene.Shapes K S G)

omit [IsStrictOrderedRing K] in
theorem itemDistance_selected (s : Scene.Scene K S G) (i : Scene.Item K S G) (p : Vec K) : (s.itemDistance sh i p).2.selected = i.selected := by
  unfold Scene.Scene.itemDistance
  rcases Scene.itemGeometry_cases sh s i with ⟨e, he, -⟩ | ⟨g, i', he, hs, -⟩
  · rw [he]
  · rw [he]
    exact hs.2.2.2.2.2

omit [IsStrictOrderedRing K] in
theorem pickLoop_unselected (p : Vec K) (r : K) : ∀ (l : List (Nat × Scene.Item K S G)) (s : Scene.Scene K S G),
    (∀ e ∈ s.items, e.2.selected = false) → (∀ e ∈ l, e.2.selected = false) → ∀ e ∈ (s.pickLoop sh p r l).2.items, e.2.selected = false
  | [], s, h, _ => h
  | (id, i) :: rest, s, h, hl => by
    have hsel := itemDistance_selected sh s i p
    rw [hl (id, i) List.mem_cons_self] at hsel
    have hrest := fun e he => hl e (List.mem_cons_of_mem _ he)
    unfold Scene.Scene.pickLoop
    cases hd : s.itemDistance sh i p with
    | mk d i' =>
      rw [hd] at hsel
      have hmod : ∀ e ∈ (s.modify id fun _ => i').items, e.2.selected = false := by
        rintro ⟨k, j⟩ he
        obtain ⟨i₀, h0, e0⟩ := (Scene.mem_modify s id _ k j).1 he
        rw [e0]
        split
        · exact hsel
        · exact h (k, i₀) h0
      have ih := pickLoop_unselected p r rest _ hmod hrest
      cases d with
      | error e =>
        dsimp only
        split
        · exact ih
        · exact hmod
      | ok d =>
        dsimp only
        cases hr : (s.modify id fun _ => i').pickLoop sh p r rest with
        | mk x t =>
          rw [hr] at ih
          cases x with
          | error e => exact ih
          | ok l' =>
            dsimp only
            cases d with
            | none => exact ih
            | some d' =>
              dsimp only
              split <;> exact ih

omit [IsStrictOrderedRing K] in
theorem itemAt_unselected (s : Scene.Scene K S G) (p : Vec K) (r : K) (h : ∀ e ∈ s.items, e.2.selected = false) (hi : Scene.Inv sh s)
    (hr : p.x - r ≤ p.x + r ∧ p.y - r ≤ p.y + r) :
    (∀ e ∈ (s.itemAt sh p r).2.items, e.2.selected = false) ∧ (s.itemAt sh p r).2.items.keys = s.items.keys := by
  unfold Scene.Scene.itemAt
  obtain ⟨l, e1, e2, e3, -⟩ := Scene.inBox sh hi ⟨p.x - r, p.x + r, p.y - r, p.y + r⟩ hr
  rw [e1]
  dsimp only
  have h1 := pickLoop_unselected sh p r l s h (fun e he => h e (Dict.mem_of_get? (e3 e.1 e.2 he)))
  have h2 := (Scene.pickLoop_spec sh p r l hi e2 e3).2.2.2.1
  cases hx : s.pickLoop sh p r l with
  | mk x t =>
    rw [hx] at h1 h2
    cases x <;> exact ⟨h1, h2⟩

omit [IsStrictOrderedRing K] in
theorem selected_one (s : Scene.Scene K S G) (h : ∀ e ∈ s.items, e.2.selected = false) (hn : s.items.keys.Nodup) (id : Nat)
    (hid : id ∈ s.items.keys) : (s.modify id fun i => { i with selected := true }).selectedItems = [id] := by
  unfold Scene.Scene.selectedItems Scene.Scene.modify
  dsimp only
  generalize s.items = l at h hn hid
  induction l with
  | nil => simp [Dict.keys] at hid
  | cons e l ih =>
    obtain ⟨k, i⟩ := e
    simp only [Dict.keys, List.map_cons, List.nodup_cons, List.mem_cons] at hn hid
    have hl : ∀ e ∈ l, e.2.selected = false := fun e he => h e (List.mem_cons_of_mem _ he)
    have hki : i.selected = false := h (k, i) List.mem_cons_self
    by_cases hk : k = id
    · subst hk
      rw [List.map_cons, if_pos rfl, List.filter_cons, if_pos rfl, List.map_cons]
      congr 1
      rw [List.map_eq_nil_iff, List.filter_eq_nil_iff]
      intro e he
      obtain ⟨e', he', rfl⟩ := List.mem_map.1 he
      rw [if_neg]
      · simp [hl e' he']
      · rintro rfl
        exact hn.1 (List.mem_map_of_mem (f := Prod.fst) he')
    · rw [List.map_cons, if_neg hk, List.filter_cons, if_neg (by simp [hki])]
      exact ih hl hn.2 (by
        rcases hid with h | h
        · exact absurd h.symm hk
        · exact h)

omit [IsStrictOrderedRing K] in
theorem unselect_frame (s : Scene.Scene K S G) : s.unselectItems.rtree = s.rtree ∧ Scene.SameFrame s s.unselectItems := by
  unfold Scene.Scene.unselectItems
  generalize s.selectedItems = ids
  have key : ∀ (ids : List Nat) (t : Scene.Scene K S G), t.rtree = s.rtree ∧ Scene.SameFrame s t →
      (ids.foldl (init := t) fun s id => s.modify id fun i => { i with selected := false }).rtree = s.rtree ∧
      Scene.SameFrame s (ids.foldl (init := t) fun s id => s.modify id fun i => { i with selected := false }) := by
    intro ids
    induction ids with
    | nil => exact fun t h => h
    | cons id ids ih => exact fun t h => ih _ ⟨h.1, h.2.1, h.2.2⟩
  exact key ids s ⟨rfl, Scene.SameFrame.rfl s⟩

omit [IsStrictOrderedRing K] in
theorem unselected_items (s : Scene.Scene K S G) (p : Vec K) : s.unselectItems.rtree = s.rtree ∧ Scene.SameFrame s s.unselectItems ∧
    (∀ id, s.unselectItems.items.get? id = (s.items.get? id).map fun i => { i with selected := false }) ∧
    ∀ i : Scene.Item K S G, (s.itemDistance sh { i with selected := false } p).1 = (s.itemDistance sh i p).1 := by
  obtain ⟨h1, h2⟩ := unselect_frame s
  have h3 := (Scene.unselect_all s).1
  refine ⟨h1, h2, fun id => ?_, ?_⟩
  · rw [h3]
    generalize s.items = l
    induction l with
    | nil => rfl
    | cons e l ih =>
      obtain ⟨k, i⟩ := e
      rw [List.map_cons]
      unfold Dict.get?
      split
      · rfl
      · exact ih
  · intro i
    unfold Scene.Scene.itemDistance Scene.Scene.itemGeometry
    cases i.geometry with
    | some g => rfl
    | none =>
      dsimp only
      generalize (i.positions.mapM s.castPosition >>= sh.geometry i.shape) = x
      cases x <;> rfl

omit [IsStrictOrderedRing K] in
theorem near_unselect (s : Scene.Scene K S G) (p : Vec K) (r : K) (id : Nat) (d : K) : Near sh s.unselectItems p r id d ↔ Near sh s p r id d := by
  obtain ⟨h1, h2, hget, hdist⟩ := unselected_items sh s p
  unfold Near
  constructor
  · rintro ⟨b, i, e1, e2, e3, e4, e5⟩
    rw [h1] at e1
    rw [hget] at e3
    rw [h2.distance] at e4
    obtain ⟨i₀, e6, rfl⟩ := Option.map_eq_some_iff.1 e3
    rw [hdist] at e4
    exact ⟨b, i₀, e1, e2, e6, e4, e5⟩
  · rintro ⟨b, i, e1, e2, e3, e4, e5⟩
    refine ⟨b, { i with selected := false }, by rw [h1]; exact e1, e2, by rw [hget, e3]; rfl, ?_, e5⟩
    rw [h2.distance, hdist]
    exact e4

/-- C185. After a click in a scene with items, whatever happened before, one item at most is selected: the one the nearest of the place that
was clicked, among those of the updated index within the radius, and none if there is none. -/
theorem click_nearest {s : Scene.Scene K S G} (h : Scene.Reachable sh s) (v : Paper.Viewport K) (hv : 0 < v.scale) (position p : Vec K) (radius : K)
    (hr : 0 ≤ radius) (hp : v.viewportToScene position = .ok p) (hne : s.items ≠ []) (s' : Scene.Scene K S G)
    (hc : click sh v s position radius = (.ok (), s')) :
    (s'.selectedItems = [] ∧ ∀ id d, ¬ Near sh (s.updateRtree sh).2 p (radius / v.scale) id d) ∨
      ∃ id d, s'.selectedItems = [id] ∧ Near sh (s.updateRtree sh).2 p (radius / v.scale) id d ∧
        ∀ id' d', Near sh (s.updateRtree sh).2 p (radius / v.scale) id' d' → d ≤ d' := by
  have hR : 0 ≤ radius / v.scale := div_nonneg hr hv.le
  have hreach := (h.step (.updateRtree s)).step (.unselectItems _)
  unfold click at hc
  rw [if_neg (by simpa using hne)] at hc
  cases hu : s.updateRtree sh with
  | mk x s₁ =>
    rw [hu] at hc hreach
    dsimp only at hreach ⊢
    cases x with
    | error e => cases hc
    | ok _ =>
      dsimp only at hc
      rw [hp] at hc
      dsimp only at hc
      have hlen : v.lengthToScene radius = radius / v.scale := rfl
      rw [hlen] at hc
      have hinv := Scene.inv sh hreach
      have hunsel : ∀ e ∈ s₁.unselectItems.items, e.2.selected = false := by
        rw [(Scene.unselect_all s₁).1]
        intro e he
        obtain ⟨e', -, rfl⟩ := List.mem_map.1 he
        rfl
      have hsq : p.x - radius / v.scale ≤ p.x + radius / v.scale ∧ p.y - radius / v.scale ≤ p.y + radius / v.scale :=
        ⟨by linarith, by linarith⟩
      obtain ⟨hsel, hkeys⟩ := itemAt_unselected sh s₁.unselectItems p (radius / v.scale) hunsel hinv hsq
      have hpick := (Scene.pick sh hreach p (radius / v.scale) hR).1
      cases hat : s₁.unselectItems.itemAt sh p (radius / v.scale) with
      | mk y s₂ =>
        rw [hat] at hc hsel hkeys
        cases y with
        | error e => cases hc
        | ok l =>
          obtain ⟨hsorted, -, hmem⟩ := hpick l s₂ hat
          have hnear : ∀ id d, Near sh s₁ p (radius / v.scale) id d ↔ (d, id) ∈ l := by
            intro id d
            rw [← near_unselect, hmem d id]
            rfl
          cases l with
          | nil =>
            cases hc
            refine Or.inl ⟨?_, fun id d hn => by simpa using (hnear id d).1 hn⟩
            unfold Scene.Scene.selectedItems
            rw [List.map_eq_nil_iff, List.filter_eq_nil_iff]
            intro e he
            simp [hsel e he]
          | cons e l =>
            obtain ⟨d, id⟩ := e
            cases hc
            have hn := (hnear id d).2 List.mem_cons_self
            refine Or.inr ⟨id, d, ?_, hn, ?_⟩
            · have hn2 := (near_unselect sh s₁ p _ id d).2 hn
              obtain ⟨b, i, -, -, hi, -⟩ := hn2
              refine selected_one s₂ hsel ?_ id ?_
              · rw [show s₂.items.keys = _ from hkeys]
                exact hinv.items_nodup
              · rw [show s₂.items.keys = _ from hkeys]
                exact Dict.mem_keys_of_get? hi
            · intro id' d' hn'
              rcases List.mem_cons.1 ((hnear id' d').1 hn') with e | hm
              · cases e; exact le_refl _
              · exact (List.pairwise_cons.1 hsorted).1 _ hm


/-- C185. When a click raises nothing: the index can be updated, the viewport is placed, and no item of the index near the place raises another
exception than `NotImplementedError` for its distance. -/
theorem click_succeeds {s : Scene.Scene K S G} (h : Scene.Reachable sh s) (v : Paper.Viewport K) (hv : 0 < v.scale) (position : Vec K) (radius : K)
    (hr : 0 ≤ radius) (hne : s.items ≠ []) :
    (click sh v s position radius).1 = .ok () ↔ (s.updateRtree sh).1 = .ok () ∧ ∃ p, v.viewportToScene position = .ok p ∧
      ∀ id b i e, (id, b) ∈ (s.updateRtree sh).2.rtree → b.Meets (Scene.square p (radius / v.scale)) →
        (s.updateRtree sh).2.items.get? id = some i → ((s.updateRtree sh).2.itemDistance sh i p).1 = .error e → e = .notImplementedError := by
  have hR : 0 ≤ radius / v.scale := div_nonneg hr hv.le
  have hreach := (h.step (.updateRtree s)).step (.unselectItems _)
  unfold click
  rw [if_neg (by simpa using hne)]
  generalize s.updateRtree sh = u at hreach ⊢
  obtain ⟨x, s₁⟩ := u
  cases x with
  | error e => simp
  | ok _ =>
    dsimp only at hreach ⊢
    cases hp : v.viewportToScene position with
    | error e => simp
    | ok p =>
      dsimp only
      have hlen : v.lengthToScene radius = radius / v.scale := rfl
      rw [hlen]
      have hpick := (Scene.pick sh hreach p (radius / v.scale) hR).2
      obtain ⟨h1, h2, hget, hdist⟩ := unselected_items sh s₁ p
      have hiff : (∃ l s', s₁.unselectItems.itemAt sh p (radius / v.scale) = (.ok l, s')) ↔ ∀ id b i e, (id, b) ∈ s₁.rtree →
          b.Meets (Scene.square p (radius / v.scale)) → s₁.items.get? id = some i → (s₁.itemDistance sh i p).1 = .error e →
          e = .notImplementedError := by
        rw [hpick, h1]
        constructor
        · intro hh id b i e e1 e2 e3 e4
          refine hh id b { i with selected := false } e e1 e2 (by rw [hget, e3]; rfl) ?_
          rw [h2.distance, hdist]; exact e4
        · intro hh id b i e e1 e2 e3 e4
          rw [hget] at e3
          obtain ⟨i₀, e6, rfl⟩ := Option.map_eq_some_iff.1 e3
          rw [h2.distance, hdist] at e4
          exact hh id b i₀ e e1 e2 e6 e4
      cases hat : s₁.unselectItems.itemAt sh p (radius / v.scale) with
      | mk y s₂ =>
        rw [hat] at hiff
        cases y with
        | error e =>
          refine ⟨fun hc => (nomatch hc), fun hc => ?_⟩
          obtain ⟨-, q, hq, hc⟩ := hc
          cases hq
          obtain ⟨l, s', hc⟩ := hiff.2 hc
          cases hc
        | ok l =>
          refine ⟨fun _ => ⟨rfl, p, rfl, hiff.1 ⟨l, s₂, rfl⟩⟩, fun _ => ?_⟩
          cases l <;> rfl

/-- C185 fails for the items which are not visible: whatever its visibility, the item the nearest of the place that was clicked is selected. -/
theorem click_invisible_wrong {s : Scene.Scene K S G} (h : Scene.Reachable sh s) (v : Paper.Viewport K) (hv : 0 < v.scale) (position p : Vec K)
    (radius : K) (hr : 0 ≤ radius) (hp : v.viewportToScene position = .ok p) (s' : Scene.Scene K S G)
    (hc : click sh v s position radius = (.ok (), s')) (id : Nat) (d : K) (i : Scene.Item K S G) (_ : s.items.get? id = some i)
    (_ : i.visible = false) (hn : Near sh (s.updateRtree sh).2 p (radius / v.scale) id d)
    (hmin : ∀ id' d', Near sh (s.updateRtree sh).2 p (radius / v.scale) id' d' → id' ≠ id → d < d') : s'.selectedItems = [id] := by
  have hne : s.items ≠ [] := by
    rintro h
    simp_all
  rcases click_nearest sh h v hv position p radius hr hp hne s' hc with ⟨-, h2⟩ | ⟨id', d', h1, h2, h3⟩
  · exact absurd hn (h2 _ _)
  · by_cases e : id' = id
    · rw [h1, e]
    · exact absurd (h3 _ _ hn) (not_le.2 (hmin _ _ h2 e))

end

/-- An item that is not visible can be selected. -/
example : ∃ (s : Scene.Scene ℚ Unit (Vec ℚ)) (v : Paper.Viewport ℚ), Scene.Reachable Scene.points s ∧
    s.items.values.map (fun i => i.visible) = [false, true] ∧
    (click Scene.points v s ⟨1, -1⟩ (1 / 2)).1 = .ok () ∧ (click Scene.points v s ⟨1, -1⟩ (1 / 2)).2.selectedItems = [7] :=
  ⟨Scene.demo.modify 7 fun i => { i with visible := false }, { scale := 1, translation := some ⟨0, 0⟩ },
    Scene.demo_reachable.step (.setVisible _ 7 false), by decide +kernel, by decide +kernel, by decide +kernel⟩

/-! ## Examples -/

/-- A half circle. -/
example : arcExample.shape.startAngle = 30 ∧ arcExample.shape.stopAngle = 210 ∧
    paintArc arcExample ⟨0, 0⟩ 2 2 = .draw (.arc ⟨-2, 2⟩ ⟨2, -2⟩ 480 2880) := by decide +kernel

/-- The grid of an area of 120 by 25: the step is ten. -/
example : gridStep (25 : ℚ) = .ok 10 ∧ gridStep (120 : ℚ) = .ok 100 ∧ gridStep (1 / 2 : ℚ) = .ok 10 ∧ gridStep (0 : ℚ) = .error .valueError := by
  decide +kernel

/-- A click near an item selects it, and the one selected before is not selected any more; a click elsewhere selects nothing. -/
example : Scene.demo.selectedItems = [8] ∧
    (click Scene.points { scale := 2, translation := some ⟨0, 0⟩ } Scene.demo ⟨2, -2⟩ 1).2.selectedItems = [7] ∧
    (click Scene.points { scale := 2, translation := some ⟨0, 0⟩ } Scene.demo ⟨50, 50⟩).2.selectedItems = [] ∧
    (click Scene.points { scale := 2 } Scene.demo ⟨50, 50⟩).1 = .error .attributeError := by decide +kernel

example : ((⟨some 1, { scale := 1, size := some ⟨640, 480⟩ }⟩ : QuickItem ℚ).setScene 2 (some (some ⟨0, 10, 0, 10⟩))).1 = .ok () := by decide +kernel

end Patro.Qt
