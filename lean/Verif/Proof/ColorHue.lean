import Mathlib.Tactic.LinearCombination
import Verif.Proof.Color
/-!
# Lemmas about hues
-/

namespace Patro.Colour

theorem mod1_eq {q : ℚ} (k : ℤ) (h0 : (k : ℚ) ≤ q) (h1 : q < k + 1) : mod1 q = q - k := by
  unfold mod1
  rw [Int.floor_eq_iff.2 ⟨h0, h1⟩]

/-- The six sectors of the hue, for components whose least value is `m` and greatest value `M`. -/
def Sector (r g b M m X : ℚ) : Prop :=
  (0 ≤ X ∧ X < 1 ∧ r = M ∧ b = m ∧ g = m + (M - m) * X) ∨
  (1 ≤ X ∧ X < 2 ∧ g = M ∧ b = m ∧ r = M - (M - m) * (X - 1)) ∨
  (2 ≤ X ∧ X < 3 ∧ g = M ∧ r = m ∧ b = m + (M - m) * (X - 2)) ∨
  (3 ≤ X ∧ X < 4 ∧ b = M ∧ r = m ∧ g = M - (M - m) * (X - 3)) ∨
  (4 ≤ X ∧ X < 5 ∧ b = M ∧ g = m ∧ r = m + (M - m) * (X - 4)) ∨
  (5 ≤ X ∧ X < 6 ∧ r = M ∧ g = m ∧ b = M - (M - m) * (X - 5))

theorem hueOf_sector (r g b : ℚ) (M m : ℚ) (hM : M = max (max r g) b) (hm : m = min (min r g) b) (hne : m ≠ M) :
    Sector r g b M m (hueOf r g b M m * 6) := by
  have rM : r ≤ M := hM ▸ (le_max_left _ _).trans (le_max_left _ _)
  have gM : g ≤ M := hM ▸ (le_max_right _ _).trans (le_max_left _ _)
  have bM : b ≤ M := hM ▸ le_max_right _ _
  have rm : m ≤ r := hm ▸ (min_le_left _ _).trans (min_le_left _ _)
  have gm : m ≤ g := hm ▸ (min_le_left _ _).trans (min_le_right _ _)
  have bm : m ≤ b := hm ▸ min_le_right _ _
  have hD : 0 < M - m := sub_pos.2 (lt_of_le_of_ne (rm.trans rM) hne)
  have hD' : M - m ≠ 0 := hD.ne'
  have hmem : m = r ∨ m = g ∨ m = b := by
    rcases min_choice (min r g) b with h | h
    · rcases min_choice r g with h' | h'
      · left; rw [hm, h, h']
      · right; left; rw [hm, h, h']
    · right; right; rw [hm, h]
  have hMem : M = r ∨ M = g ∨ M = b := by
    rcases max_choice (max r g) b with h | h
    · rcases max_choice r g with h' | h'
      · left; rw [hM, h, h']
      · right; left; rw [hM, h, h']
    · right; right; rw [hM, h]
  have diff : ∀ u v : ℚ, ∃ y, (M - u) / (M - m) - (M - v) / (M - m) = y ∧ (M - m) * y = v - u := by
    intro u v
    refine ⟨_, rfl, ?_⟩
    field_simp; ring
  have hmod : ∀ x : ℚ, 0 ≤ x → x < 6 → mod1 (x / 6) * 6 = x := by
    intro x h0 h1
    rw [mod1_eq 0 (by norm_num; positivity) (by norm_num; linarith)]
    push_cast; ring
  have hmod' : ∀ x : ℚ, -6 ≤ x → x < 0 → mod1 (x / 6) * 6 = x + 6 := by
    intro x h0 h1
    rw [mod1_eq (-1) (by norm_num; linarith) (by norm_num; linarith)]
    push_cast; ring
  unfold hueOf
  by_cases hr : r = M
  · simp only [hr, if_true]
    obtain ⟨y, hy, hyD⟩ := diff b g
    rw [hy]
    by_cases hgb : b ≤ g
    · have hb : m = b := by
        rcases hmem with h | h | h
        · exact absurd (h.trans hr) hne
        · linarith
        · exact h
      have y0 : 0 ≤ y := by
        by_contra h
        nlinarith
      have y1 : y ≤ 1 := by
        by_contra h
        nlinarith
      rw [hmod y y0 (by linarith)]
      rcases lt_or_eq_of_le y1 with h | h
      · left; exact ⟨y0, h, rfl, hb.symm, by linarith⟩
      · right; left; exact ⟨by linarith, by linarith, by rw [h] at hyD; linarith, hb.symm, by rw [h]; ring⟩
    · push Not at hgb
      have hg : m = g := by
        rcases hmem with h | h | h
        · exact absurd (h.trans hr) hne
        · exact h
        · linarith
      have y0 : y < 0 := by
        by_contra h
        nlinarith
      have y1 : -1 ≤ y := by
        by_contra h
        nlinarith
      rw [hmod' y (by linarith) y0]
      right; right; right; right; right
      exact ⟨by linarith, by linarith, rfl, hg.symm, by linarith⟩
  · simp only [hr, if_false]
    by_cases hg : g = M
    · simp only [hg, if_true]
      obtain ⟨y, hy, hyD⟩ := diff r b
      rw [add_sub_assoc, hy]
      by_cases hrb : r ≤ b
      · have hmr : m = r := by
          rcases hmem with h | h | h
          · exact h
          · exact absurd (h.trans hg) hne
          · linarith
        have y0 : 0 ≤ y := by
          by_contra h
          nlinarith
        have y1 : y ≤ 1 := by
          by_contra h
          nlinarith
        rw [hmod (2 + y) (by linarith) (by linarith)]
        rcases lt_or_eq_of_le y1 with h | h
        · right; right; left; exact ⟨by linarith, by linarith, rfl, hmr.symm, by linarith⟩
        · right; right; right; left
          exact ⟨by linarith, by linarith, by rw [h] at hyD; linarith, hmr.symm, by rw [h]; ring⟩
      · push Not at hrb
        have hmb : m = b := by
          rcases hmem with h | h | h
          · linarith
          · exact absurd (h.trans hg) hne
          · exact h
        have y0 : y < 0 := by
          by_contra h
          nlinarith
        have y1 : -1 ≤ y := by
          by_contra h
          nlinarith
        rw [hmod (2 + y) (by linarith) (by linarith)]
        right; left
        exact ⟨by linarith, by linarith, rfl, hmb.symm, by linarith⟩
    · simp only [hg, if_false]
      have hb : M = b := by
        rcases hMem with h | h | h
        · exact absurd h.symm hr
        · exact absurd h.symm hg
        · exact h
      obtain ⟨y, hy, hyD⟩ := diff g r
      rw [add_sub_assoc, hy]
      have rlt : r < M := lt_of_le_of_ne rM hr
      have glt : g < M := lt_of_le_of_ne gM hg
      by_cases hgr : g ≤ r
      · have hmg : m = g := by
          rcases hmem with h | h | h
          · linarith
          · exact h
          · exact absurd (h.trans hb.symm) hne
        have y0 : 0 ≤ y := by
          by_contra h
          nlinarith
        have y1 : y < 1 := by
          by_contra h
          nlinarith
        rw [hmod (4 + y) (by linarith) (by linarith)]
        right; right; right; right; left
        exact ⟨by linarith, by linarith, hb.symm, hmg.symm, by linarith⟩
      · push Not at hgr
        have hmr : m = r := by
          rcases hmem with h | h | h
          · exact h
          · linarith
          · exact absurd (h.trans hb.symm) hne
        have y0 : y < 0 := by
          by_contra h
          nlinarith
        have y1 : -1 ≤ y := by
          by_contra h
          nlinarith
        rw [hmod (4 + y) (by linarith) (by linarith)]
        right; right; right; left
        exact ⟨by linarith, by linarith, hb.symm, hmr.symm, by linarith⟩

theorem trunc_eq {q : ℚ} (k : ℤ) (hk : 0 ≤ k) (h0 : (k : ℚ) ≤ q) (h1 : q < k + 1) : trunc q = k := by
  unfold trunc
  have : (0 : ℚ) ≤ k := by exact_mod_cast hk
  rw [if_pos (by linarith), Int.floor_eq_iff.2 ⟨h0, h1⟩]

/-- The components given by `hsv_to_rgb` are in the sector of the hue. -/
theorem hsvToRgb_sector {r g b M m h s : ℚ} (hs : s ≠ 0) (hsv : M * s = M - m) (hX : Sector r g b M m (h * 6)) :
    hsvToRgb (.flt h) (.flt s) (.flt M) = (.flt r, .flt g, .flt b) := by
  have hs' : ¬ (Num.flt s).val = 0 := hs
  unfold hsvToRgb
  rw [if_neg hs']
  rcases hX with ⟨h0, h1, e⟩ | ⟨h0, h1, e⟩ | ⟨h0, h1, e⟩ | ⟨h0, h1, e⟩ | ⟨h0, h1, e⟩ | ⟨h0, h1, e⟩
  · have t := trunc_eq (q := h * 6) 0 (by norm_num) (by push_cast; linarith) (by push_cast; linarith)
    simp only [Num.val, t]; norm_num
    obtain ⟨rfl, rfl, rfl⟩ := e
    exact ⟨rfl, by linear_combination (h * 6 - 1) * hsv, by linear_combination -hsv⟩
  · have t := trunc_eq (q := h * 6) 1 (by norm_num) (by push_cast; linarith) (by push_cast; linarith)
    simp only [Num.val, t]; norm_num
    obtain ⟨rfl, rfl, rfl⟩ := e
    exact ⟨by linear_combination (1 - h * 6) * hsv, rfl, by linear_combination -hsv⟩
  · have t := trunc_eq (q := h * 6) 2 (by norm_num) (by push_cast; linarith) (by push_cast; linarith)
    simp only [Num.val, t]; norm_num
    obtain ⟨rfl, rfl, rfl⟩ := e
    exact ⟨by linear_combination -hsv, rfl, by linear_combination (h * 6 - 3) * hsv⟩
  · have t := trunc_eq (q := h * 6) 3 (by norm_num) (by push_cast; linarith) (by push_cast; linarith)
    simp only [Num.val, t]; norm_num
    obtain ⟨rfl, rfl, rfl⟩ := e
    exact ⟨by linear_combination -hsv, by linear_combination (3 - h * 6) * hsv, rfl⟩
  · have t := trunc_eq (q := h * 6) 4 (by norm_num) (by push_cast; linarith) (by push_cast; linarith)
    simp only [Num.val, t]; norm_num
    obtain ⟨rfl, rfl, rfl⟩ := e
    exact ⟨by linear_combination (h * 6 - 5) * hsv, by linear_combination -hsv, rfl⟩
  · have t := trunc_eq (q := h * 6) 5 (by norm_num) (by push_cast; linarith) (by push_cast; linarith)
    simp only [Num.val, t]; norm_num
    obtain ⟨rfl, rfl, rfl⟩ := e
    exact ⟨rfl, by linear_combination -hsv, by linear_combination (5 - h * 6) * hsv⟩

theorem hlsV_eq {m1 m2 hue Z : ℚ} (k : ℤ) (h : hue * 6 = Z + 6 * k) (h0 : 0 ≤ Z) (h1 : Z < 6) :
    hlsV m1 (.flt m2) hue = .flt (if Z < 1 then m1 + (m2 - m1) * Z else if Z < 3 then m2
      else if Z < 4 then m1 + (m2 - m1) * (4 - Z) else m1) := by
  have e : mod1 hue = Z / 6 := by
    rw [mod1_eq k (by linarith) (by linarith)]; linarith
  unfold hlsV
  simp only [e, Num.val]
  by_cases a : Z < 1
  · rw [if_pos (by linarith), if_pos a]; congr 1; ring
  · rw [if_neg (by linarith), if_neg a]
    by_cases b : Z < 3
    · rw [if_pos (by linarith), if_pos b]
    · rw [if_neg (by linarith), if_neg b]
      by_cases c : Z < 4
      · rw [if_pos (by linarith), if_pos c]; congr 1; ring
      · rw [if_neg (by linarith), if_neg c]

/-- The components computed by `hls_to_rgb` are in the sector of the hue. -/
theorem hlsV_sector {r g b M m h : ℚ} (hX : Sector r g b M m (h * 6)) :
    hlsV m (.flt M) (h + 1 / 3) = .flt r ∧ hlsV m (.flt M) h = .flt g ∧ hlsV m (.flt M) (h - 1 / 3) = .flt b := by
  rcases hX with ⟨h0, h1, rfl, rfl, rfl⟩ | ⟨h0, h1, rfl, rfl, rfl⟩ | ⟨h0, h1, rfl, rfl, rfl⟩ | ⟨h0, h1, rfl, rfl, rfl⟩ |
    ⟨h0, h1, rfl, rfl, rfl⟩ | ⟨h0, h1, rfl, rfl, rfl⟩
  · rw [hlsV_eq (Z := h * 6 + 2) 0 (by push_cast; ring) (by linarith) (by linarith),
      hlsV_eq (Z := h * 6) 0 (by push_cast; ring) (by linarith) (by linarith),
      hlsV_eq (Z := h * 6 + 4) (-1) (by push_cast; ring) (by linarith) (by linarith)]
    refine ⟨?_, ?_, ?_⟩ <;> congr 1
    · rw [if_neg (by linarith), if_pos (by linarith)]
    · rw [if_pos (by linarith)]
    · rw [if_neg (by linarith), if_neg (by linarith), if_neg (by linarith)]
  · rw [hlsV_eq (Z := h * 6 + 2) 0 (by push_cast; ring) (by linarith) (by linarith),
      hlsV_eq (Z := h * 6) 0 (by push_cast; ring) (by linarith) (by linarith),
      hlsV_eq (Z := h * 6 + 4) (-1) (by push_cast; ring) (by linarith) (by linarith)]
    refine ⟨?_, ?_, ?_⟩ <;> congr 1
    · rw [if_neg (by linarith), if_neg (by linarith), if_pos (by linarith)]; ring
    · rw [if_neg (by linarith), if_pos (by linarith)]
    · rw [if_neg (by linarith), if_neg (by linarith), if_neg (by linarith)]
  · rw [hlsV_eq (Z := h * 6 + 2) 0 (by push_cast; ring) (by linarith) (by linarith),
      hlsV_eq (Z := h * 6) 0 (by push_cast; ring) (by linarith) (by linarith),
      hlsV_eq (Z := h * 6 - 2) 0 (by push_cast; ring) (by linarith) (by linarith)]
    refine ⟨?_, ?_, ?_⟩ <;> congr 1
    · rw [if_neg (by linarith), if_neg (by linarith), if_neg (by linarith)]
    · rw [if_neg (by linarith), if_pos (by linarith)]
    · rw [if_pos (by linarith)]
  · rw [hlsV_eq (Z := h * 6 + 2) 0 (by push_cast; ring) (by linarith) (by linarith),
      hlsV_eq (Z := h * 6) 0 (by push_cast; ring) (by linarith) (by linarith),
      hlsV_eq (Z := h * 6 - 2) 0 (by push_cast; ring) (by linarith) (by linarith)]
    refine ⟨?_, ?_, ?_⟩ <;> congr 1
    · rw [if_neg (by linarith), if_neg (by linarith), if_neg (by linarith)]
    · rw [if_neg (by linarith), if_neg (by linarith), if_pos (by linarith)]; ring
    · rw [if_neg (by linarith), if_pos (by linarith)]
  · rw [hlsV_eq (Z := h * 6 - 4) 1 (by push_cast; ring) (by linarith) (by linarith),
      hlsV_eq (Z := h * 6) 0 (by push_cast; ring) (by linarith) (by linarith),
      hlsV_eq (Z := h * 6 - 2) 0 (by push_cast; ring) (by linarith) (by linarith)]
    refine ⟨?_, ?_, ?_⟩ <;> congr 1
    · rw [if_pos (by linarith)]
    · rw [if_neg (by linarith), if_neg (by linarith), if_neg (by linarith)]
    · rw [if_neg (by linarith), if_pos (by linarith)]
  · rw [hlsV_eq (Z := h * 6 - 4) 1 (by push_cast; ring) (by linarith) (by linarith),
      hlsV_eq (Z := h * 6) 0 (by push_cast; ring) (by linarith) (by linarith),
      hlsV_eq (Z := h * 6 - 2) 0 (by push_cast; ring) (by linarith) (by linarith)]
    refine ⟨?_, ?_, ?_⟩ <;> congr 1
    · rw [if_neg (by linarith), if_pos (by linarith)]
    · rw [if_neg (by linarith), if_neg (by linarith), if_neg (by linarith)]
    · rw [if_neg (by linarith), if_neg (by linarith), if_pos (by linarith)]; ring

theorem hlsToRgb_low {h l s : ℚ} (hs : s ≠ 0) (hl : l ≤ 1 / 2) :
    hlsToRgb (.flt h) (.flt l) (.flt s) =
      (hlsV (2 * l - l * (1 + s)) (.flt (l * (1 + s))) (h + 1 / 3), hlsV (2 * l - l * (1 + s)) (.flt (l * (1 + s))) h,
        hlsV (2 * l - l * (1 + s)) (.flt (l * (1 + s))) (h - 1 / 3)) := by
  have e : (if (Num.flt l).val ≤ 1 / 2 then Num.flt ((Num.flt l).val * (1 + (Num.flt s).val)) else hlsM2 (.flt l) (.flt s)) =
      .flt (l * (1 + s)) := if_pos hl
  unfold hlsToRgb
  rw [if_neg (show ¬ (Num.flt s).val = 0 from hs)]
  simp only [e]
  rfl

theorem hlsToRgb_high {h l s : ℚ} (hs : s ≠ 0) (hl : ¬ l ≤ 1 / 2) :
    hlsToRgb (.flt h) (.flt l) (.flt s) =
      (hlsV (2 * l - (l + s - l * s)) (.flt (l + s - l * s)) (h + 1 / 3),
        hlsV (2 * l - (l + s - l * s)) (.flt (l + s - l * s)) h,
        hlsV (2 * l - (l + s - l * s)) (.flt (l + s - l * s)) (h - 1 / 3)) := by
  have e : (if (Num.flt l).val ≤ 1 / 2 then Num.flt ((Num.flt l).val * (1 + (Num.flt s).val)) else hlsM2 (.flt l) (.flt s)) =
      .flt (l + s - l * s) := if_neg hl
  unfold hlsToRgb
  rw [if_neg (show ¬ (Num.flt s).val = 0 from hs)]
  simp only [e]
  rfl

/-- Every point of the six sectors is a triple of components. -/
theorem sector_exists (M m X : ℚ) (h0 : 0 ≤ X) (h1 : X < 6) : ∃ r g b, Sector r g b M m X := by
  unfold Sector
  rcases lt_or_ge X 1 with h | h
  · exact ⟨_, _, _, Or.inl ⟨h0, h, rfl, rfl, rfl⟩⟩
  rcases lt_or_ge X 2 with h' | h'
  · exact ⟨_, _, _, Or.inr (Or.inl ⟨h, h', rfl, rfl, rfl⟩)⟩
  rcases lt_or_ge X 3 with h | h
  · exact ⟨_, _, _, Or.inr (Or.inr (Or.inl ⟨h', h, rfl, rfl, rfl⟩))⟩
  rcases lt_or_ge X 4 with h' | h'
  · exact ⟨_, _, _, Or.inr (Or.inr (Or.inr (Or.inl ⟨h, h', rfl, rfl, rfl⟩)))⟩
  rcases lt_or_ge X 5 with h | h
  · exact ⟨_, _, _, Or.inr (Or.inr (Or.inr (Or.inr (Or.inl ⟨h', h, rfl, rfl, rfl⟩))))⟩
  · exact ⟨_, _, _, Or.inr (Or.inr (Or.inr (Or.inr (Or.inr ⟨h, h1, rfl, rfl, rfl⟩))))⟩

theorem sector_bounds {r g b M m X : ℚ} (h : Sector r g b M m X) (hm : m ≤ M) :
    max (max r g) b = M ∧ min (min r g) b = m := by
  have key : ∀ x, 0 ≤ x → x ≤ 1 → m ≤ m + (M - m) * x ∧ m + (M - m) * x ≤ M := by
    intro x x0 x1
    constructor <;> nlinarith
  have key' : ∀ x, 0 ≤ x → x ≤ 1 → m ≤ M - (M - m) * x ∧ M - (M - m) * x ≤ M := by
    intro x x0 x1
    constructor <;> nlinarith
  rcases h with ⟨h0, h1, rfl, rfl, rfl⟩ | ⟨h0, h1, rfl, rfl, rfl⟩ | ⟨h0, h1, rfl, rfl, rfl⟩ | ⟨h0, h1, rfl, rfl, rfl⟩ |
    ⟨h0, h1, rfl, rfl, rfl⟩ | ⟨h0, h1, rfl, rfl, rfl⟩
  · obtain ⟨a, c⟩ := key X h0 h1.le
    rw [max_eq_left c, max_eq_left hm, min_eq_right c, min_eq_right a]; exact ⟨rfl, rfl⟩
  · obtain ⟨a, c⟩ := key' (X - 1) (by linarith) (by linarith)
    rw [max_eq_right c, max_eq_left hm, min_eq_left c, min_eq_right a]; exact ⟨rfl, rfl⟩
  · obtain ⟨a, c⟩ := key (X - 2) (by linarith) (by linarith)
    rw [max_eq_right hm, max_eq_left c, min_eq_left hm, min_eq_left a]; exact ⟨rfl, rfl⟩
  · obtain ⟨a, c⟩ := key' (X - 3) (by linarith) (by linarith)
    rw [max_eq_right a, max_eq_right c, min_eq_left a, min_eq_left hm]; exact ⟨rfl, rfl⟩
  · obtain ⟨a, c⟩ := key (X - 4) (by linarith) (by linarith)
    rw [max_eq_left a, max_eq_right c, min_eq_right a, min_eq_left hm]; exact ⟨rfl, rfl⟩
  · obtain ⟨a, c⟩ := key' (X - 5) (by linarith) (by linarith)
    rw [max_eq_left hm, max_eq_left c, min_eq_right hm, min_eq_left a]; exact ⟨rfl, rfl⟩

end Patro.Colour
