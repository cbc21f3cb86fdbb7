import Verif.Spec.Simplify
import Verif.Props.Polygon
import Verif.Props.Vector
/-! # Lemmas for the simplification of polygons -/

namespace Patro.Polygon

open Classical

theorem getItem_ok {α : Type} (l : List α) (i : Nat) (h : i < l.length) : Py.getItem l i = .ok l[i] := by
  unfold Py.getItem
  rw [List.getElem?_eq_getElem h]

theorem test_spec (points : List (Vec ℝ)) (threshold : ℝ) (remove : List Nat) (i j k : Nat)
    (hi : i < points.length) (hj : j < points.length) (hk : k < points.length)
    (ek : (if i = points.length - 1 then skipRemoved remove (points.length - (j + 1) % points.length)
      ((j + 1) % points.length) else (j + 1) % points.length) = k) :
    (points[k] = points[i] ∧ testEdgePair points threshold remove i j = .error .zeroDivisionError) ∨
    (points[k] ≠ points[i] ∧ Near threshold points[i] points[j] points[k] ∧
      testEdgePair points threshold remove i j = .ok true) ∨
    (points[k] ≠ points[i] ∧ ¬ Near threshold points[i] points[j] points[k] ∧
      testEdgePair points threshold remove i j = .ok false) := by
  unfold testEdgePair
  simp only [ek, getItem_ok points i hi, getItem_ok points j hj, getItem_ok points k hk]
  generalize points[k] = p3
  generalize points[i] = p1
  generalize points[j] = p2
  dsimp only [bind, Except.bind]
  unfold Vec.deviationWith Vec.pyDiv
  by_cases h : p3 = p1
  · left
    refine ⟨h, ?_⟩
    have : (p3 - p1).magnitude = 0 := by
      rw [Vec.magnitude_eq_zero, h]; ext <;> simp
    rw [if_pos this]
  · right
    have hne : p3 - p1 ≠ 0 := by
      intro h'
      apply h
      have hx := congrArg Vec.x h'
      have hy := congrArg Vec.y h'
      simp only [Vec.sub_x, Vec.sub_y, Vec.zero_x, Vec.zero_y] at hx hy
      exact Vec.ext (by linarith) (by linarith)
    have hp := Vec.magnitude_pos _ hne
    rw [if_neg hp.ne']
    have hd : (p3 - p1).magnitude = distance p1 p3 := by
      rw [distance_eq]
      unfold distance
      congr 1
      ring
    have key : |(p3 - p1).cross (p2 - p1) / (p3 - p1).magnitude| ≤ threshold ↔ Near threshold p1 p2 p3 := by
      rw [abs_div, abs_of_pos hp, div_le_iff₀ hp, hd]
      unfold Near
      constructor
      · intro h'; exact ⟨h, by simpa [Vec.cross] using h'⟩
      · rintro ⟨_, h'⟩; simpa [Vec.cross] using h'
    by_cases hn : Near threshold p1 p2 p3
    · left; refine ⟨h, hn, ?_⟩
      simp only [pure, Except.pure, decide_eq_true (key.2 hn)]
    · right; refine ⟨h, hn, ?_⟩
      simp only [pure, Except.pure, decide_eq_false (fun h' => hn (key.1 h'))]

theorem skip_le (remove : List Nat) (fuel k m : Nat) (hm : m ∉ remove) (h1 : k ≤ m) (h2 : m < k + fuel) :
    skipRemoved remove fuel k ≤ m ∧ k ≤ skipRemoved remove fuel k ∧ skipRemoved remove fuel k ∉ remove := by
  induction fuel generalizing k with
  | zero => omega
  | succ fuel ih =>
    unfold skipRemoved
    by_cases hk : k ∈ remove
    · rw [if_pos hk]
      have : k ≠ m := fun h => hm (h ▸ hk)
      obtain ⟨a, b, c⟩ := ih (k + 1) (by omega) (by omega)
      exact ⟨a, by omega, c⟩
    · rw [if_neg hk]; exact ⟨h1, le_refl _, hk⟩

/-- The vertices kept and removed so far: for each vertex `m` from 1 to `j - 1`, seen from the last vertex `a` kept before
it. -/
def Decided (points : List (Vec ℝ)) (threshold : ℝ) (remove : List Nat) (m : Nat) : Prop :=
  ∃ a pa pm pn, a < m ∧ (a ∉ remove ∨ a = 0) ∧ (∀ b, a < b → b < m → b ∈ remove) ∧ points[a]? = some pa ∧ points[m]? = some pm ∧
    points[(m + 1) % points.length]? = some pn ∧ pn ≠ pa ∧ (m ∈ remove ↔ Near threshold pa pm pn)

/-- The loop when it comes back to the first vertex. -/
theorem loop_first (points : List (Vec ℝ)) (threshold : ℝ) (h3 : 3 ≤ points.length) (fuel i : Nat) (remove : List Nat)
    (h0 : 0 < i) (hi : i < points.length) (hir : i ∉ remove) :
    (∃ k, ∃ hk : k < points.length, points[k] = points[i] ∧ (k = i → (i = 1 ∧ i + 1 < points.length) ∨ (i + 1 = points.length ∧ ∀ m, 0 < m → m < i → m ∈ remove)) ∧
      simplifyLoop points threshold (fuel + 1) i 0 remove = some (.error .zeroDivisionError)) ∨
    (∃ k, ∃ hk : k < points.length, After points.length remove i k ∧ ¬ Near threshold points[i] points[0] points[k] ∧
      simplifyLoop points threshold (fuel + 1) i 0 remove = some (.ok remove)) ∨
    (∃ k, ∃ hk : k < points.length, After points.length remove i k ∧ Near threshold points[i] points[0] points[k] ∧
      simplifyLoop points threshold (fuel + 1) i 0 remove = some (.ok (remove ++ [0]))) := by
  obtain ⟨k, hk, k0, kc, ek⟩ : ∃ k, k < points.length ∧ After points.length remove i k ∧ (k = i → (i = 1 ∧ i + 1 < points.length) ∨ (i + 1 = points.length ∧ ∀ m, 0 < m → m < i → m ∈ remove)) ∧
      (if i = points.length - 1 then skipRemoved remove (points.length - (0 + 1) % points.length)
      ((0 + 1) % points.length) else (0 + 1) % points.length) = k := by
    rw [Nat.mod_eq_of_lt (show 0 + 1 < points.length by omega)]
    split
    · obtain ⟨s1, s2, s3⟩ := skip_le remove (points.length - (0 + 1)) (0 + 1) i hir (by omega) (by omega)
      have least : ∀ m, 0 < m → m < skipRemoved remove (points.length - (0 + 1)) (0 + 1) → m ∈ remove := by
        intro m m0 mi
        by_contra hm
        have := (skip_le remove (points.length - (0 + 1)) (0 + 1) m hm (by omega) (by omega)).1
        omega
      exact ⟨_, by omega, ⟨by omega, fun _ => by omega, fun _ => ⟨s3, least⟩⟩,
        fun e => Or.inr ⟨by omega, fun m m0 mi => least m m0 (by omega)⟩, rfl⟩
    · exact ⟨_, by omega, ⟨by omega, fun _ => rfl, fun _ => by omega⟩, fun e => Or.inl ⟨e.symm, by omega⟩, rfl⟩
  unfold simplifyLoop
  rw [if_pos hi]
  rcases test_spec points threshold remove i 0 k hi (by omega) hk ek with ⟨h, e⟩ | ⟨_, hnear, e⟩ | ⟨_, hnear, e⟩
  · left; refine ⟨k, hk, h, kc, ?_⟩; rw [e]
  · right; right; refine ⟨k, hk, k0, hnear, ?_⟩; rw [e]; simp only [if_pos h0]
  · right; left; refine ⟨k, hk, k0, hnear, ?_⟩; rw [e]; simp only [if_pos h0]

/-- Why a division by zero happens. -/
def Degenerate (points : List (Vec ℝ)) (threshold : ℝ) : Prop :=
  ¬ points.Nodup ∨ (∀ m, 0 < m → m + 1 < points.length → NearFrom points threshold 0 m) ∨
    (¬ NearFrom points threshold 0 1 ∧ ∀ m, 1 < m → m < points.length → NearFrom points threshold 1 m)

/-- The loop ends, and what it has done. -/
theorem loop_spec (points : List (Vec ℝ)) (threshold : ℝ) (h3 : 3 ≤ points.length) (d i j : Nat) (remove : List Nat)
    (hd : d = points.length - j) (hij : i < j) (hj : j < points.length)
    (hrange : ∀ r ∈ remove, 0 < r ∧ r < j) (hi : i ∉ remove) (hbetween : ∀ b, i < b → b < j → b ∈ remove)
    (hdec : ∀ m, 0 < m → m < j → Decided points threshold remove m) :
    (simplifyLoop points threshold (d + 1) i j remove = some (.error .zeroDivisionError) ∧ Degenerate points threshold) ∨
    ∃ removed, simplifyLoop points threshold (d + 1) i j remove = some (.ok removed) ∧
      (∀ r ∈ removed, r < points.length) ∧ FirstDecided points threshold removed ∧
      (∀ m, 0 < m → m < points.length → Decided points threshold removed m) := by
  induction d generalizing i j remove with
  | zero => omega
  | succ d ih =>
    have hi' : i < points.length := by omega
    have hk : (j + 1) % points.length < points.length := Nat.mod_lt _ (by omega)
    have ek : (if i = points.length - 1 then skipRemoved remove (points.length - (j + 1) % points.length)
        ((j + 1) % points.length) else (j + 1) % points.length) = (j + 1) % points.length := by
      rw [if_neg (by omega)]
    have hjr : j ∉ remove := fun h => by have := hrange j h; omega
    unfold simplifyLoop
    rw [if_pos hi']
    -- the decision for the vertex `j`
    have decided : ∀ remove', (∀ m, m < j → (m ∈ remove' ↔ m ∈ remove)) →
        (j ∈ remove' ↔ Near threshold points[i] points[j] points[(j + 1) % points.length]) →
        points[(j + 1) % points.length] ≠ points[i] → ∀ m, 0 < m → m < j + 1 → Decided points threshold remove' m := by
      intro remove' hs hjd hne m m0 mj
      rcases Nat.lt_or_ge m j with hm | hm
      · obtain ⟨a, pa, pm, pn, g1, g2, g3, g4, g5, g6, g7, g8⟩ := hdec m m0 hm
        refine ⟨a, pa, pm, pn, g1, ?_, ?_, g4, g5, g6, g7, ?_⟩
        · rw [hs a (by omega)]; exact g2
        · intro b h1 h2; rw [hs b (by omega)]; exact g3 b h1 h2
        · rw [hs m hm]; exact g8
      · obtain rfl : m = j := by omega
        refine ⟨i, points[i], points[m], points[(m + 1) % points.length], hij, ?_, ?_,
          List.getElem?_eq_getElem _, List.getElem?_eq_getElem _, List.getElem?_eq_getElem _, hne, hjd⟩
        · left; rw [hs i hij]; exact hi
        · intro b h1 h2; rw [hs b h2]; exact hbetween b h1 h2
    -- what remains when the first vertex has been reached
    have final : ∀ i' remove', i' ∉ remove' → 0 < i' → i' < points.length → j + 1 = points.length →
        (∀ r ∈ remove', 0 < r ∧ r < points.length) →
        (∀ m, 0 < m → m < points.length → Decided points threshold remove' m) →
        (∀ b, i' < b → b < points.length → b ∈ remove') → (i' + 1 = points.length → ∃ m, 0 < m ∧ m < i' ∧ m ∉ remove') →
        (simplifyLoop points threshold (d + 1) i' 0 remove' = some (.error .zeroDivisionError) ∧ Degenerate points threshold) ∨
        ∃ removed, simplifyLoop points threshold (d + 1) i' 0 remove' = some (.ok removed) ∧
          (∀ r ∈ removed, r < points.length) ∧ FirstDecided points threshold removed ∧
          (∀ m, 0 < m → m < points.length → Decided points threshold removed m) := by
      intro i' remove' k1 k2 k3 _ k5 k6 k7 k8
      rcases loop_first points threshold h3 d i' remove' k2 k3 k1 with ⟨k, hk, hkk, kc, e⟩ | ⟨k, hk, k0, hnear, e⟩ | ⟨k, hk, k0, hnear, e⟩
      · left
        refine ⟨e, ?_⟩
        by_cases hnd : points.Nodup
        · right
          have hki : k = i' := (List.Nodup.getElem_inj_iff hnd).1 hkk
          have hi1 : i' = 1 ∧ i' + 1 < points.length := by
            rcases kc hki with h1 | ⟨h1, h2⟩
            · exact h1
            · obtain ⟨m, m0, mi, hm⟩ := k8 h1
              exact absurd (h2 m m0 mi) hm
          obtain ⟨rfl, hl1⟩ := hi1
          right
          constructor
          · rintro ⟨pa, pm, pn, q1, q2, q3, q4⟩
            obtain ⟨a, pa', pm', pn', g1, g2, g3, g4, g5, g6, g7, g8⟩ := k6 1 (by omega) (by omega)
            obtain rfl : a = 0 := by omega
            rw [q1] at g4; rw [q2] at g5; rw [q3] at g6
            cases g4; cases g5; cases g6
            exact k1 (g8.2 q4)
          · intro m m1 mn
            obtain ⟨a, pa, pm, pn, g1, g2, g3, g4, g5, g6, g7, g8⟩ := k6 m (by omega) mn
            have : a = 1 := by
              by_contra ha
              rcases Nat.lt_or_ge a 1 with h | h
              · exact k1 (g3 1 h m1)
              · rcases g2 with g2 | g2
                · exact g2 (k7 a (by omega) (by omega))
                · omega
            subst this
            exact ⟨pa, pm, pn, g4, g5, g6, g8.1 (k7 m m1 mn)⟩
        · exact Or.inl hnd
      · right; exact ⟨_, e, fun r hr => (k5 r hr).2, ⟨i', k, _, _, _, k2, k1, k7, k0, List.getElem?_eq_getElem _, List.getElem?_eq_getElem _,
          List.getElem?_eq_getElem _, iff_of_false (fun h => absurd (k5 0 h).1 (lt_irrefl 0)) hnear⟩, k6⟩
      · right
        have hmem : ∀ b, 0 < b → (b ∈ remove' ++ [0] ↔ b ∈ remove') := fun b hb => by
          rw [List.mem_append, List.mem_singleton]
          exact or_iff_left (by omega)
        refine ⟨_, e, ?_, ⟨i', k, _, _, _, k2, fun h => k1 ((hmem _ k2).1 h), fun b h1 h2 => List.mem_append_left _ (k7 b h1 h2),
          ⟨k0.1, k0.2.1, fun h => ⟨fun h' => (k0.2.2 h).1 ((hmem _ k0.1).1 h'), fun b h1 h2 => List.mem_append_left _ ((k0.2.2 h).2 b h1 h2)⟩⟩,
          List.getElem?_eq_getElem _, List.getElem?_eq_getElem _, List.getElem?_eq_getElem _, iff_of_true (by simp) hnear⟩, ?_⟩
        · intro r hr
          rcases List.mem_append.1 hr with hr | hr
          · exact (k5 r hr).2
          · rw [List.mem_singleton.1 hr]; omega
        · intro m m0 mn
          obtain ⟨a, pa, pm, pn, g1, g2, g3, g4, g5, g6, g7, g8⟩ := k6 m m0 mn
          refine ⟨a, pa, pm, pn, g1, ?_, ?_, g4, g5, g6, g7, ?_⟩
          · by_cases ha : a = 0
            · exact Or.inr ha
            · rcases g2 with g2 | g2
              · left
                intro h
                rcases List.mem_append.1 h with h | h
                · exact g2 h
                · exact ha (List.mem_singleton.1 h)
              · exact absurd g2 ha
          · intro b h1 h2; exact List.mem_append_left _ (g3 b h1 h2)
          · rw [← g8]
            constructor
            · intro h
              rcases List.mem_append.1 h with h | h
              · exact h
              · have := List.mem_singleton.1 h; omega
            · exact fun h => List.mem_append_left _ h
    rcases test_spec points threshold remove i j _ hi' hj hk ek with ⟨heq, e⟩ | ⟨hne, hn, e⟩ | ⟨hne, hn, e⟩
    · left
      rw [e]
      refine ⟨rfl, ?_⟩
      by_cases hnd : points.Nodup
      · right; left
        have hki : (j + 1) % points.length = i := (List.Nodup.getElem_inj_iff hnd).1 heq
        have hl : j + 1 = points.length := by
          by_contra h
          rw [Nat.mod_eq_of_lt (by omega)] at hki
          omega
        rw [hl, Nat.mod_self] at hki
        subst hki
        intro m m0 mn
        obtain ⟨a, pa, pm, pn, g1, g2, g3, g4, g5, g6, g7, g8⟩ := hdec m m0 (by omega)
        have : a = 0 := by
          by_contra ha
          rcases g2 with g2 | g2
          · exact g2 (hbetween a (by omega) (by omega))
          · exact ha g2
        subst this
        exact ⟨pa, pm, pn, g4, g5, g6, g8.1 (hbetween m m0 (by omega))⟩
      · exact Or.inl hnd
    · -- the vertex is removed
      rw [e]
      simp only [if_neg (show ¬ j < i by omega)]
      have hdec' := decided (remove ++ [j]) (by
          intro m hm
          constructor
          · intro h
            rcases List.mem_append.1 h with h | h
            · exact h
            · have := List.mem_singleton.1 h; omega
          · exact fun h => List.mem_append_left _ h) (iff_of_true (by simp) hn) hne
      have hir' : i ∉ remove ++ [j] := by
        intro h
        rcases List.mem_append.1 h with h | h
        · exact hi h
        · have := List.mem_singleton.1 h; omega
      have hrange' : ∀ r ∈ remove ++ [j], 0 < r ∧ r < j + 1 := by
        intro r hr
        rcases List.mem_append.1 hr with hr | hr
        · have := hrange r hr; omega
        · have := List.mem_singleton.1 hr; omega
      by_cases hl : j + 1 = points.length
      · have hz : (j + 1) % points.length = 0 := by rw [hl, Nat.mod_self]
        by_cases hi0 : i = 0
        · exfalso
          apply hne
          simp only [hz, hi0]
        · rw [hz]
          exact final i (remove ++ [j]) hir' (by omega) hi' hl (by rw [← hl]; exact hrange') (by rw [← hl]; exact hdec')
            (fun b h1 h2 => by
              rcases Nat.lt_or_ge b j with hb | hb
              · exact List.mem_append_left _ (hbetween b h1 hb)
              · rw [show b = j by omega]; simp) (fun h => by omega)
      · rw [Nat.mod_eq_of_lt (by omega)]
        refine ih i (j + 1) (remove ++ [j]) (by omega) (by omega) (by omega) hrange' hir' ?_ hdec'
        intro b h1 h2
        rcases Nat.lt_or_ge b j with hb | hb
        · exact List.mem_append_left _ (hbetween b h1 hb)
        · rw [show b = j by omega]; simp
    · -- the vertex is kept
      rw [e]
      simp only [if_neg (show ¬ j < i by omega)]
      have hdec' := decided remove (fun _ _ => Iff.rfl) (iff_of_false hjr hn) hne
      have hrange' : ∀ r ∈ remove, 0 < r ∧ r < j + 1 := fun r hr => by have := hrange r hr; omega
      by_cases hl : j + 1 = points.length
      · have hz : (j + 1) % points.length = 0 := by rw [hl, Nat.mod_self]
        rw [hz]
        exact final j remove hjr (by omega) hj hl (by rw [← hl]; exact hrange') (by rw [← hl]; exact hdec')
          (fun b h1 h2 => by omega) (fun _ => by
            refine ⟨i, Nat.pos_of_ne_zero fun h0 => ?_, hij, hi⟩
            apply hne
            simp only [hz, h0])
      · rw [Nat.mod_eq_of_lt (by omega)]
        exact ih j (j + 1) remove (by omega) (by omega) (by omega) hrange' hjr (fun b h1 h2 => by omega) hdec'

end Patro.Polygon
