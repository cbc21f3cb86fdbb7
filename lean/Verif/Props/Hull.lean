import Verif.Proof.Hull
/-! # C89: the convex hull -/

namespace Patro.Hull

open Classical

theorem turns_append (p0 : Vec ℝ) (l : List (Vec ℝ)) (hord : l.Pairwise fun c b => 0 < ccw p0 b c) (ht : Turns l) :
    Turns (l ++ [p0]) := by
  induction l with
  | nil => exact ⟨List.Pairwise.nil, trivial⟩
  | cons d l ih =>
    obtain ⟨h1, h2⟩ := List.pairwise_cons.1 hord
    refine ⟨?_, ih h2 ht.2⟩
    show List.Pairwise _ (l ++ [p0])
    rw [List.pairwise_append]
    refine ⟨ht.1, List.pairwise_singleton _ _, ?_⟩
    intro c hc b hb
    rw [List.mem_singleton.1 hb]
    exact (h1 c hc).le

theorem turns_getElem (m : List (Vec ℝ)) (h : Turns m) (i j k : Nat) (hij : i < j) (hjk : j < k) (hk : k < m.length) :
    0 ≤ ccw m[k] m[j] m[i] := by
  induction m generalizing i j k with
  | nil => simp at hk
  | cons d m ih =>
    obtain ⟨j, rfl⟩ := Nat.exists_eq_succ_of_ne_zero (show j ≠ 0 by omega)
    obtain ⟨k, rfl⟩ := Nat.exists_eq_succ_of_ne_zero (show k ≠ 0 by omega)
    cases i with
    | zero => exact List.pairwise_iff_getElem.1 h.1 j k _ _ (by omega)
    | succ i => exact ih h.2 i j k (by omega) (by omega) (by simpa using hk)

theorem upper_sub {p0 q : Vec ℝ} (h : p0.y < q.y ∨ (p0.y = q.y ∧ p0.x ≤ q.x)) (hne : q ≠ p0) : Upper (q - p0) := by
  rcases h with h | ⟨h, h'⟩
  · left; simp only [Vec.sub_y]; linarith
  · right
    refine ⟨by simp only [Vec.sub_y]; linarith, ?_⟩
    simp only [Vec.sub_x]
    rcases h'.lt_or_eq with h' | h'
    · linarith
    · exact absurd (Vec.ext h'.symm h.symm) hne

theorem cross_eq_ccw (p0 a b : Vec ℝ) : (a - p0).x * (b - p0).y - (a - p0).y * (b - p0).x = ccw p0 a b := by
  simp only [Vec.sub_x, Vec.sub_y, ccw]

/-- What the sort for the scan gives, for distinct points. -/
theorem sortPoints_spec (points : List (Vec ℝ)) (hnd : points.Nodup) (p0 : Vec ℝ) (hp0 : IsLowest points p0) :
    (∃ l, sortPoints points = .ok (p0 :: l) ∧ (p0 :: l).Perm points ∧ l.Pairwise fun a b => 0 < ccw p0 a b) ∨
    (sortPoints points = .error .typeError ∧
      ∃ a ∈ points, ∃ b ∈ points, a ≠ b ∧ a ≠ p0 ∧ b ≠ p0 ∧ ccw p0 a b = 0) := by
  obtain ⟨l, e, hperm, hs⟩ := sortedByY points
  unfold sortPoints
  simp only [e]
  cases l with
  | nil =>
    have := hperm.mem_iff.2 hp0.1
    simp at this
  | cons c rest =>
    obtain ⟨hc, _⟩ := List.pairwise_cons.1 hs
    have hcp : c = p0 := by
      rcases List.mem_cons.1 (hperm.mem_iff.2 hp0.1) with h | h
      · exact h.symm
      · have h1 := hc p0 h
        have h2 := hp0.2 c (hperm.mem_iff.1 (by simp))
        have hy : c.y = p0.y := by rcases h1 with h1 | h1 <;> rcases h2 with h2 | h2 <;> linarith [h1, h2]
        have hx : c.x = p0.x := by
          rcases h1 with h1 | h1
          · linarith
          · rcases h2 with h2 | h2
            · linarith
            · linarith [h1.2, h2.2]
        exact Vec.ext hx hy
    subst hcp
    have hnd' : (c :: rest).Nodup := hperm.nodup_iff.2 hnd
    obtain ⟨hcn, hrn⟩ := List.nodup_cons.1 hnd'
    have hup : ∀ q ∈ rest, Upper (q - c) := fun q hq => upper_sub (hc q hq) fun h => hcn (h ▸ hq)
    obtain ⟨data, e2, hperm2, hs2⟩ := sortedByAngle (rest.map fun point => (point, (point - c).orientation))
    simp only [e2]
    have hdata : ∀ x ∈ data, x.1 ∈ rest ∧ x.2 = (x.1 - c).orientation := by
      intro x hx
      obtain ⟨q, hq, rfl⟩ := List.mem_map.1 (hperm2.mem_iff.1 hx)
      exact ⟨hq, rfl⟩
    have hperm3 : (data.map (·.1)).Perm rest := by
      have := hperm2.map (·.1)
      simpa [Function.comp_def] using this
    rcases scanData_spec data hs2 with ⟨e3, hlt⟩ | ⟨e3, hno⟩
    · left
      simp only [e3]
      refine ⟨_, rfl, (hperm3.cons c).trans hperm, ?_⟩
      rw [List.pairwise_map]
      refine List.Pairwise.imp_of_mem ?_ hlt
      intro a b ha hb hab
      obtain ⟨ha1, ha2⟩ := hdata a ha
      obtain ⟨hb1, hb2⟩ := hdata b hb
      rw [← cross_eq_ccw]
      exact cross_pos_of_lt (hup _ ha1) (hup _ hb1) (by rw [← ha2, ← hb2]; exact hab)
    · right
      simp only [e3]
      refine ⟨trivial, ?_⟩
      by_contra hcon
      apply hno
      have hnd3 : data.Pairwise fun a b => a.1 ≠ b.1 := by
        have := hperm3.nodup_iff.2 hrn
        exact List.pairwise_map.1 this
      refine List.Pairwise.imp_of_mem ?_ hnd3
      intro a b ha hb hab heq
      obtain ⟨ha1, ha2⟩ := hdata a ha
      obtain ⟨hb1, hb2⟩ := hdata b hb
      apply hcon
      refine ⟨a.1, hperm.mem_iff.1 (List.mem_cons_of_mem _ ha1), b.1, hperm.mem_iff.1 (List.mem_cons_of_mem _ hb1), hab,
        fun h => hcn (h ▸ ha1), fun h => hcn (h ▸ hb1), ?_⟩
      rw [← cross_eq_ccw]
      exact (orientation_eq_iff (hup _ ha1) (hup _ hb1)).1 (by rw [← ha2, ← hb2]; exact heq)

/-- C89. For distinct points, no two of which are aligned with the lowest one, `convex_hull` returns the vertices of the
convex hull: some of the points, all distinct and starting from the lowest one, such that every point is in their convex
hull, and on the left of every side of the polygon. -/
theorem convexHull_partial (points : List (Vec ℝ)) (hnd : points.Nodup) (p0 : Vec ℝ) (hp0 : IsLowest points p0)
    (hal : ∀ a ∈ points, ∀ b ∈ points, a ≠ b → a ≠ p0 → b ≠ p0 → ¬ Collinear p0 a b) :
    ∃ h, convexHull points = .ok h ∧ (∀ x ∈ h, x ∈ points) ∧ h.Nodup ∧ h.head? = some p0 ∧
      (∀ q ∈ points, InHull h q) ∧
      (∀ i a b, IsEdge h i a b → ∀ q ∈ points, LeftOf a b q) := by
  rcases sortPoints_spec points hnd p0 hp0 with ⟨l, e, hperm, hord⟩ | ⟨_, a, ha, b, hb, h1, h2, h3, h4⟩
  · have hnil : popLoop p0 [] = [] := by simp [popLoop]
    obtain ⟨l', e', r1, r2, r3, r4, _⟩ := scan_spec p0 l [] [] List.Pairwise.nil trivial (by simp) (by simp) hord (by simp)
    have hsub : ∀ x ∈ (l' ++ [p0]).reverse, x ∈ points := by
      intro x hx
      rw [List.mem_reverse] at hx
      apply hperm.mem_iff.1
      rcases List.mem_append.1 hx with hx | hx
      · exact List.mem_cons_of_mem _ (by simpa using r3 x hx)
      · rw [List.mem_singleton.1 hx]; simp
    have hin : ∀ q ∈ points, InHull (l' ++ [p0]).reverse q := by
      intro q hq
      rcases List.mem_cons.1 (hperm.mem_iff.2 hq) with rfl | hq
      · exact .point _ (by simp)
      · exact inHull_subset (fun x hx => List.mem_reverse.2 hx) (r4 q (by simpa using hq))
    have hne : ∀ q, ccw p0 p0 q = 0 := fun q => by unfold ccw; ring
    refine ⟨(l' ++ [p0]).reverse, ?_, hsub, ?_, by simp, hin, ?_⟩
    · unfold convexHull
      rw [e]
      simp only [List.foldl_cons, hnil]
      rw [List.nil_append] at e'
      rw [e']
    · rw [List.nodup_reverse, List.nodup_append]
      refine ⟨r1.imp fun {c b} h hcb => ?_, List.nodup_singleton _, ?_⟩
      · rw [hcb] at h
        have : ccw p0 b b = 0 := by unfold ccw; ring
        linarith
      · intro x hx y hy hxy
        rw [List.mem_singleton.1 hy] at hxy
        subst hxy
        have hx' := r3 x hx
        simp only [List.nil_append] at hx'
        have := (hperm.nodup_iff.2 hnd)
        exact (List.nodup_cons.1 this).1 hx'
    · have hT := turns_append p0 l' r1 r2
      generalize hm : l' ++ [p0] = m at hT hsub hin
      have htri : ∀ i j k (hij : i < j) (hjk : j < k) (hk : k < m.reverse.length),
          0 ≤ ccw (m.reverse[i]'(by omega)) (m.reverse[j]'(by omega)) m.reverse[k] := by
        intro i j k hij hjk hk
        simp only [List.getElem_reverse]
        rw [List.length_reverse] at hk
        exact turns_getElem m hT _ _ _ (by omega) (by omega) (by omega)
      intro i a b ⟨ha, hb⟩ q hq
      refine leftOf_inHull (fun x hx => ?_) (hin q hq)
      obtain ⟨hi, rfl⟩ := List.getElem?_eq_some_iff.1 ha
      obtain ⟨hi', rfl⟩ := List.getElem?_eq_some_iff.1 hb
      obtain ⟨k, hk, rfl⟩ := List.getElem_of_mem hx
      have cyc1 : ∀ a b c, ccw a b c = ccw b c a := fun a b c => by unfold ccw; ring
      have self1 : ∀ a b, ccw a b a = 0 := fun a b => by unfold ccw; ring
      have self2 : ∀ a b, ccw a b b = 0 := fun a b => by unfold ccw; ring
      show 0 ≤ ccw _ _ _
      have hmod := Polygon.succ_mod i m.reverse.length hi
      by_cases hl : i + 1 = m.reverse.length
      · rw [if_pos hl] at hmod
        simp only [hmod]
        by_cases c1 : k = 0
        · simp only [c1, self2]; exact le_refl _
        · by_cases c2 : k = i
          · simp only [c2, self1]; exact le_refl _
          · rw [cyc1]; exact htri 0 k i (by omega) (by omega) hi
      · rw [if_neg hl] at hmod
        simp only [hmod]
        rcases lt_trichotomy k i with c | c | c
        · rw [cyc1, cyc1]; exact htri k i (i + 1) c (by omega) (by omega)
        · simp only [c, self1]; exact le_refl _
        · rcases Nat.lt_or_ge (i + 1) k with c' | c'
          · exact htri i (i + 1) k (by omega) c' hk
          · simp only [show k = i + 1 by omega, self2]; exact le_refl _
  · exfalso
    refine hal a ha b hb h1 h2 h3 ?_
    unfold Collinear
    unfold ccw at h4
    linarith

/-- C89 fails when two of the points are aligned with the lowest one: a `TypeError` is raised. -/
theorem convexHull_raises_iff (points : List (Vec ℝ)) (hnd : points.Nodup) (p0 : Vec ℝ) (hp0 : IsLowest points p0) :
    convexHull points = .error .typeError ↔
      ∃ a ∈ points, ∃ b ∈ points, a ≠ b ∧ a ≠ p0 ∧ b ≠ p0 ∧ Collinear p0 a b := by
  constructor
  · intro h
    by_contra hcon
    obtain ⟨x, hx, _⟩ := convexHull_partial points hnd p0 hp0 fun a ha b hb h1 h2 h3 h4 =>
      hcon ⟨a, ha, b, hb, h1, h2, h3, h4⟩
    rw [hx] at h; cases h
  · rintro ⟨a, ha, b, hb, h1, h2, h3, h4⟩
    rcases sortPoints_spec points hnd p0 hp0 with ⟨l, e, hperm, hord⟩ | ⟨e, _⟩
    · exfalso
      have hal : ∀ x ∈ points, x ≠ p0 → x ∈ l := fun x hx hne => by
        rcases List.mem_cons.1 (hperm.mem_iff.2 hx) with h | h
        · exact absurd h hne
        · exact h
      have hsym : l.Pairwise fun a b => ccw p0 a b ≠ 0 := hord.imp fun h => h.ne'
      have : Std.Symm fun a b => ccw p0 a b ≠ 0 := ⟨fun x y h h' => h (by unfold ccw at *; linarith)⟩
      apply hsym.forall (hal a ha h2) (hal b hb h3) h1
      unfold ccw
      unfold Collinear at h4
      linarith
    · unfold convexHull; rw [e]

/-- C89. The lowest point exists as soon as the list is not empty, so that for distinct points the two theorems above cover
all the cases; an empty list raises `IndexError`. -/
theorem convexHull_cases (points : List (Vec ℝ)) :
    (points ≠ [] → ∃ p0, IsLowest points p0) ∧ convexHull [] = .error .indexError := by
  constructor
  · intro h
    obtain ⟨l, _, hperm, hs⟩ := sortedByY points
    cases l with
    | nil => exact absurd (List.nil_perm.1 hperm) h
    | cons c rest =>
      refine ⟨c, hperm.mem_iff.1 (by simp), fun q hq => ?_⟩
      rcases List.mem_cons.1 (hperm.mem_iff.2 hq) with rfl | hq
      · exact Or.inr ⟨rfl, le_refl _⟩
      · exact (List.pairwise_cons.1 hs).1 q hq
  · unfold convexHull sortPoints
    simp

/-- C89 fails for the corners of a square and the middle of its lower side. -/
theorem convexHull_wrong :
    convexHull [⟨0, 0⟩, ⟨1, 0⟩, ⟨2, 0⟩, ⟨2, 2⟩, ⟨0, 2⟩] = .error .typeError := by
  rw [convexHull_raises_iff _ (by simp [Vec.ext_iff]) ⟨0, 0⟩ ⟨by simp, by simp⟩]
  exact ⟨⟨1, 0⟩, by simp, ⟨2, 0⟩, by simp, by simp, by simp [Vec.ext_iff], by simp [Vec.ext_iff], by simp [Collinear]⟩

/-- C89. The polygon returned for a hull of at least three points is really counter-clockwise, as it is declared. -/
theorem convexHullPolygon_clockwise (points : List (Vec ℝ)) (hnd : points.Nodup) (p0 : Vec ℝ) (hp0 : IsLowest points p0)
    (p : Polygon ℝ) (h : convexHullPolygon points = .ok (.inl p)) :
    p.isConvex = some true ∧ p.isClockwise = some false ∧ 0 ≤ signedArea p.points ∧ convexHull points = .ok p.points := by
  unfold convexHullPolygon at h
  cases hc : convexHull points with
  | error e => rw [hc] at h; cases h
  | ok hull =>
    rw [hc] at h
    simp only at h
    split at h
    · rename_i h3
      unfold Polygon.create at h
      rw [if_neg (by omega)] at h
      injection h with h
      injection h with h
      subst h
      refine ⟨rfl, rfl, ?_, rfl⟩
      by_cases hal : ∃ a ∈ points, ∃ b ∈ points, a ≠ b ∧ a ≠ p0 ∧ b ≠ p0 ∧ Collinear p0 a b
      · rw [(convexHull_raises_iff points hnd p0 hp0).2 hal] at hc; cases hc
      · obtain ⟨h', e', _, _, hhead, _, hleft⟩ := convexHull_partial points hnd p0 hp0 fun a ha b hb h1 h2 h3 h4 =>
          hal ⟨a, ha, b, hb, h1, h2, h3, h4⟩
        rw [hc] at e'
        injection e' with e'
        subst e'
        unfold signedArea
        apply List.sum_nonneg
        intro x hx
        obtain ⟨t, ht, rfl⟩ := List.mem_map.1 hx
        obtain ⟨rest, hr⟩ : ∃ rest, hull = p0 :: rest := by
          cases hull with
          | nil => simp at hhead
          | cons c r => simp at hhead; exact ⟨r, by rw [hhead]⟩
        rw [hr] at ht
        have hfan : ∀ (l : List (Vec ℝ)) (t), t ∈ fan p0 l → ∃ i : Nat, t.1 = p0 ∧ l[i]? = some t.2.1 ∧
            l[i + 1]? = some t.2.2 := by
          intro l
          induction l with
          | nil => intro t ht; simp [fan] at ht
          | cons a l ih =>
            intro t ht
            cases l with
            | nil => simp [fan] at ht
            | cons b l =>
              simp only [fan, List.mem_cons] at ht
              rcases ht with rfl | ht
              · exact ⟨0, rfl, rfl, rfl⟩
              · obtain ⟨i, g1, g2, g3⟩ := ih t ht
                exact ⟨i + 1, g1, g2, g3⟩
        obtain ⟨i, g1, g2, g3⟩ := hfan rest t ht
        have hi := (List.getElem?_eq_some_iff.1 g3).1
        have hl := hleft (i + 1) t.2.1 t.2.2 ⟨by rw [hr]; exact g2, by
          rw [hr, Polygon.succ_mod _ _ (by simp; omega), if_neg (by simp; omega)]
          exact g3⟩ p0 hp0.1
        unfold LeftOf at hl
        unfold triangleArea
        rw [g1]
        apply div_nonneg _ (by norm_num)
        linarith
    · cases h

/-- The hypotheses of `convexHull_partial` are met by four points. -/
example : ∃ h, convexHull [⟨2, 2⟩, ⟨0, 0⟩, ⟨1, 3⟩, ⟨3, 1⟩] = .ok h ∧ h.head? = some ⟨0, 0⟩ := by
  obtain ⟨h, e, _, _, hh, _⟩ := convexHull_partial [⟨2, 2⟩, ⟨0, 0⟩, ⟨1, 3⟩, ⟨3, 1⟩] (by simp [Vec.ext_iff])
    ⟨0, 0⟩ ⟨by simp, by simp⟩ (by
      intro a ha b hb
      simp only [List.mem_cons, List.not_mem_nil, or_false] at ha hb
      rcases ha with rfl | rfl | rfl | rfl <;> rcases hb with rfl | rfl | rfl | rfl <;>
        norm_num [Collinear, Vec.ext_iff])
  exact ⟨h, e, hh⟩

end Patro.Hull
