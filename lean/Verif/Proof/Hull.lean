import Verif.Spec.Hull
import Verif.Props.Vector
import Verif.Props.Polygon
/-! # Lemmas for the convex hull -/

namespace Patro.Hull

open Classical

/-! ## Convex combinations -/

theorem inHull_mono {S T : List (Vec ℝ)} (h : ∀ x ∈ S, InHull T x) {q : Vec ℝ} (hq : InHull S q) : InHull T q := by
  induction hq with
  | point q hq => exact h q hq
  | between a b q _ _ hb iha ihb => exact .between a b q iha ihb hb

theorem inHull_subset {S T : List (Vec ℝ)} (h : ∀ x ∈ S, x ∈ T) {q : Vec ℝ} (hq : InHull S q) : InHull T q :=
  inHull_mono (fun x hx => .point x (h x hx)) hq

theorem inHull_triangle {S : List (Vec ℝ)} {a b c q : Vec ℝ} (ha : InHull S a) (hb : InHull S b) (hc : InHull S c)
    (u v w : ℝ) (hu : 0 ≤ u) (hv : 0 ≤ v) (hw : 0 ≤ w) (h1 : u + v + w = 1)
    (hx : q.x = u * a.x + v * b.x + w * c.x) (hy : q.y = u * a.y + v * b.y + w * c.y) : InHull S q := by
  rcases hu.lt_or_eq with hu0 | hu0
  · have hp : 0 < u + v := by linarith
    have hm : InHull S ⟨(1 - v / (u + v)) * a.x + v / (u + v) * b.x, (1 - v / (u + v)) * a.y + v / (u + v) * b.y⟩ :=
      .between a b _ ha hb ⟨v / (u + v), by positivity, by rw [div_le_one hp]; linarith, rfl⟩
    refine .between _ c q hm hc ⟨w, hw, by linarith, ?_⟩
    have hw1 : 1 - w = u + v := by linarith
    ext
    · rw [hx, hw1]; simp only; field_simp; ring
    · rw [hy, hw1]; simp only; field_simp; ring
  · refine .between b c q hb hc ⟨w, hw, by linarith, ?_⟩
    have : v = 1 - w := by linarith
    ext
    · rw [hx, ← hu0, this]; ring
    · rw [hy, ← hu0, this]; ring

theorem leftOf_inHull {S : List (Vec ℝ)} {a b q : Vec ℝ} (h : ∀ x ∈ S, LeftOf a b x) (hq : InHull S q) :
    LeftOf a b q := by
  induction hq with
  | point q hq => exact h q hq
  | between c d q _ _ hb ihc ihd =>
    obtain ⟨t, t0, t1, rfl⟩ := hb
    unfold LeftOf at *
    simp only
    have := mul_nonneg (sub_nonneg.2 t1) ihc
    have := mul_nonneg t0 ihd
    linarith

/-! ## Orientations -/

/-- The half plane of the directions from the lowest point. -/
def Upper (v : Vec ℝ) : Prop := 0 < v.y ∨ (v.y = 0 ∧ 0 < v.x)

theorem Upper.ne_zero {v : Vec ℝ} (h : Upper v) : v ≠ 0 := by
  rintro rfl
  rcases h with h | h <;> simp at h

theorem radians_lt (a b : ℝ) : Vec.radians a < Vec.radians b ↔ a < b := by
  unfold Vec.radians
  have := Real.pi_pos
  constructor
  · intro h
    have := (mul_lt_mul_iff_of_pos_right (show (0:ℝ) < Real.pi / 180 by positivity)).1 (by
      show a * (Real.pi / 180) < b * (Real.pi / 180)
      linarith)
    exact this
  · intro h
    have := mul_lt_mul_of_pos_right h (show (0:ℝ) < Real.pi / 180 by positivity)
    linarith

theorem upper_polar {v : Vec ℝ} (h : Upper v) :
    ∃ r t, 0 < r ∧ 0 ≤ t ∧ t < Real.pi ∧ Vec.radians v.orientation = t ∧ v.x = r * Real.cos t ∧ v.y = r * Real.sin t := by
  have hne := h.ne_zero
  obtain ⟨h1, h2, h3⟩ := Vec.fromPolar_orientation v hne
  have hr := Vec.magnitude_pos v hne
  have hpi : Vec.radians 180 = Real.pi := by unfold Vec.radians; field_simp
  have hpin : Vec.radians (-180) = -Real.pi := by unfold Vec.radians; field_simp
  have l := (radians_lt _ _).2 h2
  rw [hpin] at l
  have u : Vec.radians v.orientation ≤ Real.pi := by
    rcases h3.lt_or_eq with h3 | h3
    · have := (radians_lt _ _).2 h3; rw [hpi] at this; exact this.le
    · rw [h3, hpi]
  have hx : v.x = v.magnitude * Real.cos (Vec.radians v.orientation) := by
    have := congrArg Vec.x h1
    simpa [Vec.fromPolar, Vec.fromAngle] using this.symm
  have hy : v.y = v.magnitude * Real.sin (Vec.radians v.orientation) := by
    have := congrArg Vec.y h1
    simpa [Vec.fromPolar, Vec.fromAngle] using this.symm
  refine ⟨v.magnitude, _, hr, ?_, ?_, rfl, hx, hy⟩
  · by_contra hn
    have hs := Real.sin_neg_of_neg_of_neg_pi_lt (not_le.1 hn) l
    have : v.y < 0 := by rw [hy]; exact mul_neg_of_pos_of_neg hr hs
    rcases h with h | h <;> linarith [h]
  · rcases u.lt_or_eq with u | u
    · exact u
    · exfalso
      rw [u, Real.sin_pi, mul_zero] at hy
      rw [u, Real.cos_pi] at hx
      rcases h with h | h
      · linarith
      · have := h.2; linarith

theorem cross_polar (r s a b : ℝ) :
    (r * Real.cos a) * (s * Real.sin b) - (r * Real.sin a) * (s * Real.cos b) = r * s * Real.sin (b - a) := by
  rw [Real.sin_sub]; ring

/-- Orientations and cross products agree in the half plane. -/
theorem cross_pos_of_lt {u v : Vec ℝ} (hu : Upper u) (hv : Upper v) (h : u.orientation < v.orientation) :
    0 < u.x * v.y - u.y * v.x := by
  obtain ⟨r, a, r0, a0, a1, ra, ux, uy⟩ := upper_polar hu
  obtain ⟨s, b, s0, b0, b1, rb, vx, vy⟩ := upper_polar hv
  have hab : a < b := by rw [← ra, ← rb]; exact (radians_lt _ _).2 h
  rw [ux, uy, vx, vy, cross_polar]
  exact mul_pos (mul_pos r0 s0) (Real.sin_pos_of_pos_of_lt_pi (by linarith) (by linarith))

theorem orientation_eq_iff {u v : Vec ℝ} (hu : Upper u) (hv : Upper v) :
    u.orientation = v.orientation ↔ u.x * v.y - u.y * v.x = 0 := by
  constructor
  · intro h
    obtain ⟨r, a, r0, a0, a1, ra, ux, uy⟩ := upper_polar hu
    obtain ⟨s, b, s0, b0, b1, rb, vx, vy⟩ := upper_polar hv
    have hab : a = b := by rw [← ra, ← rb, h]
    rw [ux, uy, vx, vy, cross_polar, hab, sub_self, Real.sin_zero, mul_zero]
  · intro h
    rcases lt_trichotomy u.orientation v.orientation with l | l | l
    · have := cross_pos_of_lt hu hv l; linarith
    · exact l
    · have := cross_pos_of_lt hv hu l; linarith

/-! ## The two sorts -/

theorem sortByY_le (a b : Vec ℝ) : ¬ sortByY b a < 0 ↔ a.y < b.y ∨ (a.y = b.y ∧ a.x ≤ b.x) := by
  unfold sortByY
  split
  · rename_i h
    rw [not_lt, sub_nonneg]
    constructor
    · intro h'; exact Or.inr ⟨h.symm, h'⟩
    · rintro (h' | h')
      · linarith
      · exact h'.2
  · rename_i h
    rw [not_lt, sub_nonneg]
    constructor
    · intro h'; exact Or.inl (lt_of_le_of_ne h' (Ne.symm h))
    · rintro (h' | h')
      · exact h'.le
      · exact absurd h'.1.symm h

theorem sortedByY (points : List (Vec ℝ)) :
    ∃ l, points.mergeSort (fun a b => decide (¬ sortByY b a < 0)) = l ∧ l.Perm points ∧
      l.Pairwise fun a b => a.y < b.y ∨ (a.y = b.y ∧ a.x ≤ b.x) := by
  refine ⟨_, rfl, List.mergeSort_perm _ _, ?_⟩
  have := List.pairwise_mergeSort (le := fun a b => decide (¬ sortByY b a < 0)) ?_ ?_ points
  · refine this.imp fun {a b} h => ?_
    exact (sortByY_le a b).1 (of_decide_eq_true h)
  · intro a b c h1 h2
    simp only [decide_eq_true_eq, sortByY_le] at *
    rcases h1 with h1 | h1 <;> rcases h2 with h2 | h2
    · left; linarith
    · left; linarith
    · left; linarith
    · right; exact ⟨by linarith, by linarith⟩
  · intro a b
    simp only [Bool.or_eq_true, decide_eq_true_eq, sortByY_le]
    rcases lt_trichotomy a.y b.y with h | h | h
    · exact Or.inl (Or.inl h)
    · rcases le_total a.x b.x with h' | h'
      · exact Or.inl (Or.inr ⟨h, h'⟩)
      · exact Or.inr (Or.inr ⟨h.symm, h'⟩)
    · exact Or.inr (Or.inl h)

theorem sortedByAngle (data : List (Vec ℝ × ℝ)) :
    ∃ l, data.mergeSort (fun a b => decide (¬ b.2 < a.2)) = l ∧ l.Perm data ∧ l.Pairwise fun a b => a.2 ≤ b.2 := by
  refine ⟨_, rfl, List.mergeSort_perm _ _, ?_⟩
  have := List.pairwise_mergeSort (le := fun a b : Vec ℝ × ℝ => decide (¬ b.2 < a.2)) ?_ ?_ data
  · refine this.imp fun {a b} h => ?_
    exact not_lt.1 (of_decide_eq_true h)
  · intro a b c h1 h2
    simp only [decide_eq_true_eq, not_lt] at *
    linarith
  · intro a b
    simp only [Bool.or_eq_true, decide_eq_true_eq, not_lt]
    exact le_total _ _

/-- The scan of the sorted data fails exactly when two items have the same orientation. -/
theorem scanData_spec (l : List (Vec ℝ × ℝ)) (h : l.Pairwise fun a b => a.2 ≤ b.2) :
    (scanData l = .ok () ∧ l.Pairwise fun a b => a.2 < b.2) ∨
    (scanData l = .error .typeError ∧ ¬ l.Pairwise fun a b => a.2 ≠ b.2) := by
  match l with
  | [] => left; exact ⟨rfl, List.Pairwise.nil⟩
  | [a] => left; exact ⟨rfl, List.pairwise_singleton _ _⟩
  | a :: b :: rest =>
    unfold scanData
    by_cases he : a.2 = b.2
    · right
      rw [if_pos he]
      refine ⟨rfl, fun hp => ?_⟩
      exact (List.pairwise_cons.1 hp).1 b (by simp) he
    · rw [if_neg he]
      obtain ⟨h1, h2⟩ := List.pairwise_cons.1 h
      rcases scanData_spec (b :: rest) h2 with ⟨e, g⟩ | ⟨e, g⟩
      · left
        refine ⟨e, List.pairwise_cons.2 ⟨?_, g⟩⟩
        have hab : a.2 < b.2 := lt_of_le_of_ne (h1 b (by simp)) he
        intro c hc
        rcases List.mem_cons.1 hc with rfl | hc
        · exact hab
        · exact hab.trans ((List.pairwise_cons.1 g).1 c hc)
      · right
        exact ⟨e, fun hp => g (List.pairwise_cons.1 hp).2⟩

/-! ## The stack -/

/-- Four points seen from `o` in this order: two consecutive left turns make the other turns left. -/
theorem turn_left {o a b c d : Vec ℝ} (hab : 0 < ccw o a b) (hac : 0 < ccw o a c)
    (hbc : 0 < ccw o b c) (hbd : 0 < ccw o b d) (hcd : 0 < ccw o c d) (h1 : 0 ≤ ccw a b c) (h2 : 0 ≤ ccw b c d) :
    0 ≤ ccw a b d ∧ 0 ≤ ccw a c d := by
  have e1 : ccw a b c = ccw o a b + ccw o b c - ccw o a c := by unfold ccw; ring
  have e2 : ccw b c d = ccw o b c + ccw o c d - ccw o b d := by unfold ccw; ring
  have e3 : ccw a b d = ccw o a b + ccw o b d - ccw o a d := by unfold ccw; ring
  have e4 : ccw a c d = ccw o a c + ccw o c d - ccw o a d := by unfold ccw; ring
  have pl : ccw o a b * ccw o c d - ccw o a c * ccw o b d + ccw o a d * ccw o b c = 0 := by unfold ccw; ring
  rw [e1] at h1
  rw [e2] at h2
  rw [e3, e4]
  generalize ccw o a b = ab at *
  generalize ccw o a c = ac at *
  generalize ccw o a d = ad at *
  generalize ccw o b c = bc at *
  generalize ccw o b d = bd at *
  generalize ccw o c d = cd at *
  constructor
  · have k1 := mul_nonneg hbd.le h1
    have k2 := mul_nonneg hab.le h2
    have : 0 ≤ bc * (ab + bd - ad) := by nlinarith
    exact nonneg_of_mul_nonneg_right this hbc
  · have k1 := mul_nonneg hac.le h2
    have k2 := mul_nonneg hcd.le h1
    have : 0 ≤ bc * (ac + cd - ad) := by nlinarith
    exact nonneg_of_mul_nonneg_right this hbc

/-- All the triples of a stack turn left. -/
def Turns : List (Vec ℝ) → Prop
  | [] => True
  | d :: l => (l.Pairwise fun c b => 0 ≤ ccw b c d) ∧ Turns l

theorem Turns.suffix {l m : List (Vec ℝ)} (h : Turns m) (hs : l <:+ m) : Turns l := by
  induction m with
  | nil => rw [List.suffix_nil.1 hs]; trivial
  | cons d m ih =>
    rcases List.suffix_cons_iff.1 hs with rfl | hs
    · exact h
    · exact ih h.2 hs

/-- The stack above the lowest point while the point `pt` is examined. -/
theorem popLoop_spec (p0 pt : Vec ℝ) (l : List (Vec ℝ)) (hord : l.Pairwise fun c b => 0 < ccw p0 b c)
    (hpt : ∀ x ∈ l, 0 < ccw p0 x pt) :
    ∃ l', popLoop pt (l ++ [p0]) = l' ++ [p0] ∧ l' <:+ l ∧
      (∀ c b rest, l' = c :: b :: rest → 0 ≤ ccw b c pt) ∧
      (∀ x ∈ l, InHull (pt :: l' ++ [p0]) x) := by
  induction l with
  | nil => exact ⟨[], by simp [popLoop], List.suffix_refl _, by simp, by simp⟩
  | cons c l ih =>
    cases l with
    | nil =>
      refine ⟨[c], ?_, List.suffix_refl _, by simp, ?_⟩
      · simp only [List.cons_append, List.nil_append, popLoop]
        rw [if_neg (not_lt.2 (hpt c (by simp)).le)]
      · intro x hx
        exact .point x (by simp at hx ⊢; tauto)
    | cons b rest =>
      simp only [List.cons_append, popLoop]
      by_cases hcw : ccw b c pt < 0
      · rw [if_pos hcw]
        obtain ⟨l', e, hs, ht, hm⟩ := ih (List.pairwise_cons.1 hord).2 (fun x hx => hpt x (List.mem_cons_of_mem _ hx))
        refine ⟨l', e, hs.trans (List.suffix_cons _ _), ht, ?_⟩
        intro x hx
        rcases List.mem_cons.1 hx with rfl | hx
        · have hb := hm b (by simp)
          have h1 := (List.pairwise_cons.1 hord).1 b (by simp)
          have h2 := hpt x (by simp)
          have h3 := hpt b (by simp)
          have hD : ccw p0 b pt ≠ 0 := h3.ne'
          have hsum : ccw p0 b pt = ccw p0 x pt + ccw p0 b x - ccw b x pt := by unfold ccw; ring
          refine inHull_triangle (a := p0) (b := b) (c := pt) (.point p0 (by simp)) hb (.point pt (by simp))
            (-ccw b x pt / ccw p0 b pt) (ccw p0 x pt / ccw p0 b pt) (ccw p0 b x / ccw p0 b pt)
            (div_nonneg (by linarith) h3.le) (div_nonneg h2.le h3.le) (div_nonneg h1.le h3.le) ?_ ?_ ?_
          · rw [← add_div, ← add_div, div_eq_one_iff_eq hD]; linarith
          · rw [div_mul_eq_mul_div, div_mul_eq_mul_div, div_mul_eq_mul_div, ← add_div, ← add_div, eq_div_iff hD]
            unfold ccw; ring
          · rw [div_mul_eq_mul_div, div_mul_eq_mul_div, div_mul_eq_mul_div, ← add_div, ← add_div, eq_div_iff hD]
            unfold ccw; ring
        · exact hm x hx
      · rw [if_neg hcw]
        refine ⟨c :: b :: rest, rfl, List.suffix_refl _, ?_, ?_⟩
        · rintro c' b' rest' h
          injection h with h1 h
          injection h with h2 h
          subst h1 h2
          exact not_lt.1 hcw
        · intro x hx
          exact .point x (by simp at hx ⊢; tauto)

theorem turns_push (p0 d : Vec ℝ) (l : List (Vec ℝ)) (hord : l.Pairwise fun c b => 0 < ccw p0 b c)
    (hd : ∀ x ∈ l, 0 < ccw p0 x d) (ht : Turns l)
    (htop : ∀ c b rest, l = c :: b :: rest → 0 ≤ ccw b c d) : l.Pairwise fun c b => 0 ≤ ccw b c d := by
  match l, hord, hd, ht, htop with
  | [], _, _, _, _ => exact List.Pairwise.nil
  | [c], _, _, _, _ => exact List.pairwise_singleton _ _
  | c :: b :: rest, hord, hd, ht, htop =>
    have h0 := htop c b rest rfl
    obtain ⟨oc, hord'⟩ := List.pairwise_cons.1 hord
    have oc' := (List.pairwise_cons.1 hord').1
    have hc : ∀ x ∈ b :: rest, 0 ≤ ccw x c d := by
      intro x hx
      rcases List.mem_cons.1 hx with rfl | hx
      · exact h0
      · exact (turn_left (o := p0) (a := x) (b := b) (c := c) (d := d) (oc' x hx)
          (oc x (List.mem_cons_of_mem _ hx)) (oc b (by simp)) (hd b (by simp)) (hd c (by simp))
          ((List.pairwise_cons.1 ht.1).1 x hx) h0).2
    refine List.pairwise_cons.2 ⟨hc, ?_⟩
    have key : ∀ m : List (Vec ℝ), (∀ x ∈ m, x ∈ b :: rest) → (m.Pairwise fun c b => 0 < ccw p0 b c) →
        (m.Pairwise fun y x => 0 ≤ ccw x y c) → m.Pairwise fun y x => 0 ≤ ccw x y d := by
      intro m hm h1 h2
      induction m with
      | nil => exact List.Pairwise.nil
      | cons y m ih =>
        obtain ⟨g1, g1'⟩ := List.pairwise_cons.1 h1
        obtain ⟨g2, g2'⟩ := List.pairwise_cons.1 h2
        refine List.pairwise_cons.2 ⟨fun x hx => ?_, ih (fun z hz => hm z (List.mem_cons_of_mem _ hz)) g1' g2'⟩
        have hy := hm y (by simp)
        have hx' := hm x (List.mem_cons_of_mem _ hx)
        exact (turn_left (o := p0) (a := x) (b := y) (c := c) (d := d) (g1 x hx) (oc x hx') (oc y hy)
          (hd y (List.mem_cons_of_mem _ hy)) (hd c (by simp)) (g2 x hx) (hc y hy)).1
    exact key (b :: rest) (fun x hx => hx) hord' ht.1

/-- The invariant of the scan. -/
theorem scan_spec (p0 : Vec ℝ) (pts : List (Vec ℝ)) (l done : List (Vec ℝ))
    (hord : l.Pairwise fun c b => 0 < ccw p0 b c) (ht : Turns l) (hsub : ∀ x ∈ l, x ∈ done)
    (hin : ∀ q ∈ done, InHull (l ++ [p0]) q)
    (hpts : pts.Pairwise fun a b => 0 < ccw p0 a b) (hl : ∀ x ∈ l, ∀ q ∈ pts, 0 < ccw p0 x q) :
    ∃ l', pts.foldl (fun stack point => point :: popLoop point stack) (l ++ [p0]) = l' ++ [p0] ∧
      (l'.Pairwise fun c b => 0 < ccw p0 b c) ∧ Turns l' ∧ (∀ x ∈ l', x ∈ done ++ pts) ∧
      (∀ q ∈ done ++ pts, InHull (l' ++ [p0]) q) ∧ (l' = [] → l = [] ∧ pts = []) := by
  induction pts generalizing l done with
  | nil => exact ⟨l, rfl, hord, ht, by simpa using hsub, by simpa using hin, fun h => ⟨h, rfl⟩⟩
  | cons pt pts ih =>
    obtain ⟨k1, k2⟩ := List.pairwise_cons.1 hpts
    obtain ⟨l', e, hs, htop, hm⟩ := popLoop_spec p0 pt l hord fun x hx => hl x hx pt (by simp)
    have hsm := hs.sublist.subset
    have hord' : l'.Pairwise fun c b => 0 < ccw p0 b c := hord.sublist hs.sublist
    have hpt : ∀ x ∈ l', 0 < ccw p0 x pt := fun x hx => hl x (hsm hx) pt (by simp)
    have htn := turns_push p0 pt l' hord' hpt (ht.suffix hs) htop
    obtain ⟨l2, e2, r1, r2, r3, r4, r5⟩ := ih (pt :: l') (done ++ [pt])
      (List.pairwise_cons.2 ⟨hpt, hord'⟩) ⟨htn, ht.suffix hs⟩
      (by
        intro x hx
        rcases List.mem_cons.1 hx with rfl | hx
        · simp
        · exact List.mem_append_left _ (hsub x (hsm hx)))
      (by
        intro q hq
        rcases List.mem_append.1 hq with hq | hq
        · refine inHull_mono (fun x hx => ?_) (hin q hq)
          rcases List.mem_append.1 hx with hx | hx
          · exact hm x hx
          · exact .point x (by simp at hx ⊢; tauto)
        · exact .point q (by simp at hq ⊢; tauto))
      k2
      (by
        intro x hx q hq
        rcases List.mem_cons.1 hx with rfl | hx
        · exact k1 q hq
        · exact hl x (hsm hx) q (List.mem_cons_of_mem _ hq))
    refine ⟨l2, ?_, r1, r2, ?_, ?_, ?_⟩
    · rw [List.foldl_cons, e]; exact e2
    · simpa using r3
    · simpa using r4
    · intro h; exact absurd (r5 h).1 (by simp)

end Patro.Hull
