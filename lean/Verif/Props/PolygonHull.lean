import Verif.Props.Hull
/-! # C248: the convex hull of a polygon -/

namespace Patro.Hull

open Classical
open Polygon (Op)

/-! ## What is kept -/

theorem getEdges_points (p : Polygon ℝ) : p.getEdges.2.points = p.points := by
  unfold Polygon.getEdges
  split
  · rfl
  · split <;> rfl

theorem getIsSimple_points (p : Polygon ℝ) : p.getIsSimple.2.points = p.points := by
  have h := getEdges_points p
  unfold Polygon.getIsSimple
  split
  · rfl
  · generalize p.getEdges = r at h ⊢
    obtain ⟨r, p'⟩ := r
    cases r <;> exact h

theorem computeArea_points (p : Polygon ℝ) : p.computeArea.2.points = p.points := by
  unfold Polygon.computeArea
  split
  · rfl
  · dsimp only
    split <;> rfl

theorem checkArea_points (p : Polygon ℝ) : p.checkArea.2.points = p.points := by
  have h := getIsSimple_points p
  unfold Polygon.checkArea
  generalize p.getIsSimple = r at h ⊢
  obtain ⟨r, p'⟩ := r
  cases r with
  | error e => exact h
  | ok b =>
    dsimp only at h ⊢
    split
    · exact (computeArea_points p').trans h
    · exact h

/-- After `is_convex`, the answer is stored and the vertices are the same. -/
theorem getIsConvex_state (p : Polygon ℝ) (b : Bool) (h : p.getIsConvex.1 = .ok b) :
    p.getIsConvex.2.isConvex = some b ∧ p.getIsConvex.2.points = p.points := by
  have hS := getIsSimple_points p
  unfold Polygon.getIsConvex at h ⊢
  cases hc : p.isConvex with
  | some b' =>
    rw [hc] at h
    cases h
    exact ⟨hc, rfl⟩
  | none =>
    rw [hc] at h
    dsimp only at h ⊢
    generalize p.getIsSimple = r at h hS ⊢
    obtain ⟨r, p'⟩ := r
    rcases r with e | ⟨⟨⟩⟩
    · cases h
    · cases h
      exact ⟨rfl, hS⟩
    · dsimp only at h hS ⊢
      have hE := getEdges_points p'
      generalize p'.getEdges = r at h hE ⊢
      obtain ⟨r, p''⟩ := r
      cases r with
      | error e => cases h
      | ok es =>
        dsimp only at h hE ⊢
        generalize Polygon.testTurns es = t at h ⊢
        cases t with
        | error e => cases h
        | ok b' =>
          cases h
          exact ⟨rfl, hE.trans hS⟩

/-- The calls that neither move the polygon nor ask whether it is convex. -/
def Asks : Op ℝ → Prop
  | .transform _ | .isConvex => False
  | _ => True

theorem run_kept (p : Polygon ℝ) (op : Op ℝ) (h : Asks op) : (op.run p).isConvex = p.isConvex ∧ (op.run p).points = p.points := by
  have hE := Polygon.getEdges_convex p
  have hS := Polygon.getIsSimple_convex p
  have hC := Polygon.checkArea_convex p
  have kE := getEdges_points p
  have kS := getIsSimple_points p
  have kC := checkArea_points p
  cases op with
  | transform f => cases h
  | isConvex => cases h
  | edges => exact ⟨hE.1, kE⟩
  | isSimple => exact ⟨hS.1, kS⟩
  | area =>
    simp only [Op.run, Polygon.getArea]
    generalize p.checkArea = r at hC kC ⊢
    obtain ⟨r, p'⟩ := r
    cases r <;> exact ⟨hC.1, kC⟩
  | barycenter =>
    simp only [Op.run, Polygon.getBarycenter]
    generalize p.checkArea = r at hC kC ⊢
    obtain ⟨r, p'⟩ := r
    cases r with
    | error e => exact ⟨hC.1, kC⟩
    | ok u =>
      dsimp only
      split <;> exact ⟨hC.1, kC⟩
  | isClockwise =>
    simp only [Op.run, Polygon.getIsClockwise]
    generalize p.getIsSimple = r at hS kS ⊢
    obtain ⟨r, p'⟩ := r
    rcases r with e | ⟨⟨⟩⟩
    · exact ⟨hS.1, kS⟩
    · exact ⟨hS.1, kS⟩
    · dsimp only at hS kS ⊢
      split
      · exact ⟨hS.1, kS⟩
      · have hC := Polygon.checkArea_convex p'
        have kC := checkArea_points p'
        generalize p'.checkArea = r at hC kC ⊢
        obtain ⟨r, p''⟩ := r
        cases r with
        | error e => exact ⟨hC.1.trans hS.1, kC.trans kS⟩
        | ok u =>
          dsimp only
          split <;> exact ⟨hC.1.trans hS.1, kC.trans kS⟩
  | isPointInside q =>
    simp only [Op.run, Polygon.isPointInside]
    generalize p.getEdges = r at hE kE ⊢
    obtain ⟨r, p'⟩ := r
    cases r <;> exact ⟨hE.1, kE⟩

/-! ## C248 -/

/-- C248, what holds: the hull of a polygon is the same, or fails in the same way, after any sequence of questions other than `is_convex`. Missing for
C248: `is_convex`, see `hull_asked_wrong`. -/
theorem hull_asked_partial (points : List (Vec ℝ)) (p : Polygon ℝ) (hp : Polygon.create points = .ok p) (ops : List (Op ℝ))
    (hops : ∀ op ∈ ops, Asks op) : hullOf (ops.foldl Op.run p) = convexHullPolygon points := by
  have key : ∀ (ops : List (Op ℝ)) (p : Polygon ℝ), (∀ op ∈ ops, Asks op) →
      (ops.foldl Op.run p).isConvex = p.isConvex ∧ (ops.foldl Op.run p).points = p.points := by
    intro ops
    induction ops with
    | nil => intro p _; exact ⟨rfl, rfl⟩
    | cons op ops ih =>
      intro p h
      obtain ⟨k1, k2⟩ := run_kept p op (h op (by simp))
      obtain ⟨i1, i2⟩ := ih (op.run p) fun o ho => h o (by simp [ho])
      exact ⟨i1.trans k1, i2.trans k2⟩
  obtain ⟨k1, k2⟩ := key ops p hops
  unfold Polygon.create at hp
  split at hp
  · cases hp
  · cases hp
    unfold hullOf
    rw [k1, k2]
    simp

/-- C248. The hull of a hull is this hull, for every polygon. -/
theorem hull_hull (p q : Polygon ℝ) (h : hullOf p = .ok (.inl q)) : hullOf q = .ok (.inl q) := by
  have hq : q.isConvex = some true := by
    unfold hullOf at h
    split at h
    · rename_i hc
      cases h
      exact hc
    · unfold convexHullPolygon at h
      split at h
      · cases h
      · split at h
        · unfold Polygon.create at h
          rw [if_neg (by omega)] at h
          cases h
          rfl
        · cases h
  unfold hullOf
  rw [if_pos hq]

/-- A point strictly between two others lies on the same side of a line through it as both of them. -/
theorem no_middle (points : List (Vec ℝ)) (h3 : 3 ≤ points.length) (h : StrictlyConvexClockwise points) (i j k : Nat) (m u v : Vec ℝ)
    (hi : points[i]? = some m) (hj : points[j]? = some u) (hk : points[k]? = some v) (hij : i ≠ j) (hik : i ≠ k) (hjk : j ≠ k)
    (a b : ℝ) (ha : 0 < a) (hb : 0 < b) (hx : a * (u.x - m.x) + b * (v.x - m.x) = 0) (hy : a * (u.y - m.y) + b * (v.y - m.y) = 0) : False := by
  have hlt : (i + 1) % points.length < points.length := Nat.mod_lt _ (by omega)
  obtain ⟨n, hn⟩ : ∃ n, points[(i + 1) % points.length]? = some n := ⟨_, List.getElem?_eq_getElem hlt⟩
  have side : ∀ l w, points[l]? = some w → i ≠ l → (n.x - m.x) * (w.y - m.y) - (n.y - m.y) * (w.x - m.x) ≤ 0 ∧
      (l ≠ (i + 1) % points.length → (n.x - m.x) * (w.y - m.y) - (n.y - m.y) * (w.x - m.x) < 0) := by
    intro l w hl hil
    by_cases e : l = (i + 1) % points.length
    · rw [e, hn] at hl
      cases hl
      exact ⟨by linarith [mul_comm (n.x - m.x) (n.y - m.y)], fun c => absurd e c⟩
    · have := h i m n l w ⟨hi, hn⟩ hl (Ne.symm hil) e
      exact ⟨this.le, fun _ => this⟩
  have su := side j u hj hij
  have sv := side k v hk hik
  have hz : a * ((n.x - m.x) * (u.y - m.y) - (n.y - m.y) * (u.x - m.x)) + b * ((n.x - m.x) * (v.y - m.y) - (n.y - m.y) * (v.x - m.x)) = 0 := by
    linear_combination (n.x - m.x) * hy - (n.y - m.y) * hx
  have : j ≠ (i + 1) % points.length ∨ k ≠ (i + 1) % points.length := by
    by_contra hcon
    push Not at hcon
    exact hjk (hcon.1.trans hcon.2.symm)
  rcases this with c | c
  · nlinarith [mul_pos ha (neg_pos.2 (su.2 c)), mul_nonneg hb.le (neg_nonneg.2 sv.1)]
  · nlinarith [mul_pos hb (neg_pos.2 (sv.2 c)), mul_nonneg ha.le (neg_nonneg.2 su.1)]

/-- The vertices of a strictly convex polygon are distinct, and no three of them are aligned. -/
theorem convex_distinct (points : List (Vec ℝ)) (h3 : 3 ≤ points.length) (h : StrictlyConvexClockwise points) :
    points.Nodup ∧ ∀ c ∈ points, ∀ a ∈ points, ∀ b ∈ points, a ≠ b → a ≠ c → b ≠ c → ¬ Collinear c a b := by
  constructor
  · rw [List.nodup_iff_injective_getElem]
    intro i j hij
    by_contra hne
    have hne : i.1 ≠ j.1 := fun e => hne (Fin.ext e)
    have hi := List.getElem?_eq_getElem i.2
    have hj := List.getElem?_eq_getElem j.2
    have hij : points[i.1] = points[j.1] := hij
    rw [← hij] at hj
    generalize points[i.1] = m at hi hj
    have hlt : (i.1 + 1) % points.length < points.length := Nat.mod_lt _ (by omega)
    have hn := List.getElem?_eq_getElem hlt
    generalize points[(i.1 + 1) % points.length] = n at hn
    by_cases e : j.1 = (i.1 + 1) % points.length
    · rw [← e, hj] at hn
      cases hn
      obtain ⟨k, hk, hk1, hk2⟩ : ∃ k, k < points.length ∧ k ≠ i.1 ∧ k ≠ j.1 := by
        by_cases z0 : i.1 ≠ 0 ∧ j.1 ≠ 0
        · exact ⟨0, by omega, by omega, by omega⟩
        · by_cases z1 : i.1 ≠ 1 ∧ j.1 ≠ 1
          · exact ⟨1, by omega, by omega, by omega⟩
          · exact ⟨2, by omega, by omega, by omega⟩
      have := h i.1 m m k _ ⟨hi, by rw [← e]; exact hj⟩ (List.getElem?_eq_getElem hk) hk1 (by rw [← e]; exact hk2)
      simp at this
    · have := h i.1 m n j.1 m ⟨hi, hn⟩ hj (Ne.symm hne) e
      simp at this
  · intro c hc a ha b hb hab hac hbc hcol
    obtain ⟨i, hi⟩ := List.mem_iff_getElem?.1 hc
    obtain ⟨j, hj⟩ := List.mem_iff_getElem?.1 ha
    obtain ⟨k, hk⟩ := List.mem_iff_getElem?.1 hb
    have hij : i ≠ j := fun e => hac (by rw [e, hj] at hi; cases hi; rfl)
    have hik : i ≠ k := fun e => hbc (by rw [e, hk] at hi; cases hi; rfl)
    have hjk : j ≠ k := fun e => hab (by rw [e, hk] at hj; cases hj; rfl)
    -- the squares of the distances and the scalar product
    have hd : 0 < (a.x - c.x) ^ 2 + (a.y - c.y) ^ 2 := by
      rcases lt_or_eq_of_le (add_nonneg (sq_nonneg (a.x - c.x)) (sq_nonneg (a.y - c.y))) with h | h
      · exact h
      · exact absurd (Vec.ext (by nlinarith [sq_nonneg (a.x - c.x), sq_nonneg (a.y - c.y)]) (by nlinarith [sq_nonneg (a.x - c.x), sq_nonneg (a.y - c.y)])) hac
    unfold Collinear at hcol
    set d := (a.x - c.x) ^ 2 + (a.y - c.y) ^ 2 with hdd
    set s := (a.x - c.x) * (b.x - c.x) + (a.y - c.y) * (b.y - c.y) with hs
    have e1 : d * (b.x - c.x) = s * (a.x - c.x) := by rw [hdd, hs]; linear_combination (- (a.y - c.y)) * hcol
    have e2 : d * (b.y - c.y) = s * (a.y - c.y) := by rw [hdd, hs]; linear_combination (a.x - c.x) * hcol
    rcases lt_trichotomy s 0 with s0 | s0 | s0
    · exact no_middle points h3 h i j k c a b hi hj hk hij hik hjk (-s) d (by linarith) hd (by linarith) (by linarith)
    · rw [s0] at e1 e2
      refine hbc (Vec.ext ?_ ?_)
      · have := (mul_eq_zero.1 (e1.trans (zero_mul _))).resolve_left hd.ne'
        linarith
      · have := (mul_eq_zero.1 (e2.trans (zero_mul _))).resolve_left hd.ne'
        linarith
    · rcases lt_trichotomy s d with sd | sd | sd
      · exact no_middle points h3 h k i j b c a hk hi hj (Ne.symm hik) (Ne.symm hjk) hij (d - s) s (by linarith) s0
          (by linear_combination -e1) (by linear_combination -e2)
      · rw [sd] at e1 e2
        refine hab (Vec.ext ?_ ?_)
        · have := mul_left_cancel₀ hd.ne' e1
          linarith
        · have := mul_left_cancel₀ hd.ne' e2
          linarith
      · exact no_middle points h3 h j i k a c b hj hi hk (Ne.symm hij) hjk hik (s - d) d (by linarith) hd
          (by linear_combination e1) (by linear_combination e2)

/-- C248 is false of `is_convex`: for every strictly convex polygon in clockwise order, the hull is made, and has its vertices in another order; once
`is_convex` has been asked for, the hull is the polygon itself. -/
theorem hull_asked_wrong (points : List (Vec ℝ)) (p : Polygon ℝ) (hp : Polygon.create points = .ok p) (h : StrictlyConvexClockwise points) :
    (∃ r, hullOf p = .ok r ∧ ∀ q, r = .inl q → q.points ≠ points) ∧
    hullOf p.getIsConvex.2 = .ok (.inl p.getIsConvex.2) ∧ p.getIsConvex.2.points = points := by
  have hc := Polygon.isConvex_complete points p hp (.inr h)
  obtain ⟨k1, k2⟩ := getIsConvex_state p true hc
  have h3 : 3 ≤ points.length ∧ p = { points := points } := by
    unfold Polygon.create at hp
    split at hp
    · cases hp
    · cases hp; exact ⟨by omega, rfl⟩
  obtain ⟨h3, rfl⟩ := h3
  refine ⟨?_, by unfold hullOf; rw [if_pos k1], k2⟩
  obtain ⟨hnd, hal⟩ := convex_distinct points h3 h
  obtain ⟨p0, hp0⟩ := (convexHull_cases points).1 (by rintro rfl; simp at h3)
  obtain ⟨hull, e, -, -, -, -, hleft⟩ := convexHull_partial points hnd p0 hp0 fun a ha b hb h1 h2 h3 => hal p0 hp0.1 a ha b hb h1 h2 h3
  have hne : hull ≠ points := by
    rintro rfl
    have hn := List.getElem?_eq_getElem (l := hull) (i := 0) (by omega)
    have hn1 := List.getElem?_eq_getElem (l := hull) (i := 1) (by omega)
    have hn2 := List.getElem?_eq_getElem (l := hull) (i := 2) (by omega)
    have hm : (0 + 1) % hull.length = 1 := Nat.mod_eq_of_lt (by omega)
    have he : IsEdge hull 0 hull[0] hull[1] := ⟨hn, by rw [hm]; exact hn1⟩
    have g1 := hleft 0 _ _ he _ (List.getElem_mem (l := hull) (n := 2) (by omega))
    have g2 := h 0 _ _ 2 _ he hn2 (by omega) (by rw [hm]; omega)
    unfold LeftOf at g1
    linarith
  unfold hullOf convexHullPolygon
  rw [if_neg (by simp), e]
  dsimp only
  split
  · refine ⟨_, by unfold Polygon.create; rw [if_neg (by omega)]; rfl, ?_⟩
    intro q hq
    cases hq
    exact hne
  · exact ⟨_, rfl, fun q hq => by cases hq⟩

/-- C248 is false of a polygon which is declared to be convex: whatever its vertices, its hull is the polygon itself. -/
theorem hull_declared_wrong (points : List (Vec ℝ)) (p : Polygon ℝ) (hp : Polygon.create points (some true) = .ok p) :
    hullOf p = .ok (.inl p) ∧ p.points = points := by
  unfold Polygon.create at hp
  split at hp
  · cases hp
  · cases hp
    exact ⟨by simp [hullOf], rfl⟩

/-- A strictly convex polygon in clockwise order exists. -/
example : StrictlyConvexClockwise [(⟨0, 0⟩ : Vec ℝ), ⟨1, 1⟩, ⟨2, 0⟩] := by
  rintro i a b k c ⟨h1, h2⟩ h3 n1 n2
  have hi : i < 3 := (List.getElem?_eq_some_iff.1 h1).1
  have hk : k < 3 := (List.getElem?_eq_some_iff.1 h3).1
  simp only [List.length_cons, List.length_nil] at n2 h2
  have : i = 0 ∨ i = 1 ∨ i = 2 := by omega
  have : k = 0 ∨ k = 1 ∨ k = 2 := by omega
  rcases ‹i = 0 ∨ i = 1 ∨ i = 2› with rfl | rfl | rfl <;> rcases ‹k = 0 ∨ k = 1 ∨ k = 2› with rfl | rfl | rfl <;>
    simp_all <;> subst h1 h2 h3 <;> norm_num

end Patro.Hull
