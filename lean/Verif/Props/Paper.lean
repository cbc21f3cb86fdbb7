import Verif.Spec.Paper
import Verif.Props.Xml
import Mathlib.Tactic.FieldSimp
import Mathlib.Tactic.Ring
import Mathlib.Tactic.Linarith
import Mathlib.Tactic.Positivity
import Mathlib.Tactic.IntervalCases
import Mathlib.Data.Rat.Floor
/-! # C66, C67, C68: viewport, tiles and papers -/

namespace Patro.Paper

open Xml (intFromText natToText)

/-! ## C68: paper sizes -/

/-- The long side of size zero, in millimetres. -/
def longSide (c : Char) : Option ℝ := if c = 'A' then some 1189 else if c = 'B' then some 1414 else if c = 'C' then some 1297 else none

theorem natFromText (n : Nat) : intFromText (natToText n) = .ok (n : Int) := by
  have := Xml.int_round_trip (n : Int)
  simpa [Xml.intToText] using this

theorem toUpper_digit (d : Nat) (h : d < 10) : (Char.ofNat (48 + d)).toUpper = Char.ofNat (48 + d) := by
  interval_cases d <;> decide

theorem upper_natToText (n : Nat) : (natToText n).map Char.toUpper = natToText n := by
  induction n using Nat.strongRecOn with
  | _ n ih =>
    rw [natToText]
    split
    · rename_i h
      simp [toUpper_digit n h]
    · rename_i h
      rw [List.map_append, ih (n / 10) (by omega)]
      simp [toUpper_digit (n % 10) (by omega)]

/-- C68. A paper named by a letter and a level up to ten, with an orientation. -/
theorem paper_size (c : Char) (d : ℝ) (hc : longSide c = some d) (n : Nat) (hn : n ≤ 10) (landscape : Bool) (margin : ℝ) :
    ∃ p, PaperSize.new (c :: natToText n) (if landscape then "landscape" else "portrait") margin = .ok p ∧ p.margin = margin ∧
      p.landscape = landscape ∧
      (if landscape then p.width else p.height) = d / Real.sqrt 2 ^ n ∧ (if landscape then p.height else p.width) = d / Real.sqrt 2 ^ (n + 1) := by
  have hup : c.toUpper = c := by
    unfold longSide at hc
    split at hc
    · rename_i h; subst h; decide
    · split at hc
      · rename_i h; subst h; decide
      · split at hc
        · rename_i h; subst h; decide
        · cases hc
  have hl : letterToDimension c = some d := hc
  have hr : ¬ (((n : Int) < 0) ∨ (n : Int) > 10) := by omega
  have hs : Real.sqrt 2 ≠ 0 := by positivity
  have hpow : (Real.sqrt 2 : ℝ) ^ ((n : Int)) = Real.sqrt 2 ^ n := zpow_natCast _ _
  unfold PaperSize.new
  simp only [List.map_cons, hup, upper_natToText, Py.getItem, List.getElem?_cons_zero, List.drop_succ_cons, List.drop_zero, natFromText, hl,
    bind, Except.bind, if_neg hr, hpow]
  cases landscape
  · simp [pure, Except.pure]
    rw [pow_succ]
    field_simp
  · simp [pure, Except.pure]
    rw [pow_succ]
    field_simp

/-- C68. Each size is half of the previous one: its long side is the short side of the previous one, and its short side is half of the
long side of the previous one. -/
theorem halving (c : Char) (d : ℝ) (hc : longSide c = some d) (n : Nat) (hn : n < 10) (margin : ℝ) (p q : PaperSize)
    (hp : PaperSize.new (c :: natToText n) "portrait" margin = .ok p) (hq : PaperSize.new (c :: natToText (n + 1)) "portrait" margin = .ok q) :
    q.height = p.width ∧ q.width = p.height / 2 ∧ 0 < q.width ∧ q.width < q.height := by
  obtain ⟨p', h1, -, -, h2, h3⟩ := paper_size c d hc n (by omega) false margin
  obtain ⟨q', h4, -, -, h5, h6⟩ := paper_size c d hc (n + 1) (by omega) false margin
  simp only [Bool.false_eq_true, if_false] at h1 h2 h3 h4 h5 h6
  rw [hp] at h1
  rw [hq] at h4
  cases h1
  cases h4
  have hd : 0 < d := by
    unfold longSide at hc
    split_ifs at hc <;> cases hc <;> norm_num
  have h2' : (0 : ℝ) < Real.sqrt 2 := by positivity
  have hsq : Real.sqrt 2 * Real.sqrt 2 = 2 := Real.mul_self_sqrt (by norm_num)
  have h1' : (1 : ℝ) < Real.sqrt 2 := by
    rw [Real.lt_sqrt (by norm_num)]; norm_num
  refine ⟨by rw [h5, h3], ?_, by rw [h6]; positivity, ?_⟩
  · rw [h6, h2, pow_succ, pow_succ, mul_assoc, hsq]
    field_simp
  · rw [h6, h5]
    apply div_lt_div_of_pos_left hd (by positivity)
    rw [pow_succ (n := n + 1)]
    have : 0 < Real.sqrt 2 ^ (n + 1) := by positivity
    nlinarith

/-- C68. Landscape exchanges the width and the height; the margin is the one given. -/
theorem landscape_swaps (name : List Char) (margin : ℝ) (p : PaperSize) (hp : PaperSize.new name "portrait" margin = .ok p) :
    ∃ q, PaperSize.new name "landscape" margin = .ok q ∧ q.width = p.height ∧ q.height = p.width ∧ q.name = p.name ∧
      p.margin = margin ∧ q.margin = margin := by
  unfold PaperSize.new at hp ⊢
  simp only [bind, Except.bind] at hp ⊢
  cases h1 : Py.getItem (name.map Char.toUpper) 0 with
  | error e => rw [h1] at hp; cases hp
  | ok c =>
    rw [h1] at hp
    simp only at hp ⊢
    cases h2 : intFromText ((name.map Char.toUpper).drop 1) with
    | error e => rw [h2] at hp; cases hp
    | ok l =>
      rw [h2] at hp
      simp only at hp ⊢
      cases h3 : letterToDimension c with
      | none => rw [h3] at hp; cases hp
      | some d =>
        rw [h3] at hp
        simp only at hp ⊢
        by_cases h4 : l < 0 ∨ l > 10
        · rw [if_pos h4] at hp; cases hp
        · rw [if_neg h4] at hp ⊢
          simp [pure, Except.pure] at hp
          subst hp
          simp [pure, Except.pure]

theorem upper_eq {c d : Char} (h : c.toUpper = d) : c = d ∨ c.val = d.val - ('A'.val - 'a'.val) := by
  unfold Char.toUpper at h
  split at h
  · right
    rw [← h, UInt32.add_sub_cancel]
  · left; exact h

theorem upper_abc {c d : Char} (h : c.toUpper = d) (hd : d ∈ ['A', 'B', 'C']) : c ∈ ['A', 'B', 'C', 'a', 'b', 'c'] := by
  rcases upper_eq h with rfl | h
  · simp only [List.mem_cons, List.not_mem_nil, or_false] at hd ⊢
    tauto
  · simp only [List.mem_cons, List.not_mem_nil, or_false] at hd
    rcases hd with rfl | rfl | rfl
    · have : c = 'a' := Char.ext h
      subst this; decide
    · have : c = 'b' := Char.ext h
      subst this; decide
    · have : c = 'c' := Char.ext h
      subst this; decide

/-- C68. An accepted name has the letter A, B or C, in upper or lower case, followed by a number from zero to ten as read by `int`; the
orientation is one of the two. Every rejection is a `ValueError`, except for the empty name. -/
theorem accepted (name : List Char) (orientation : String) (margin : ℝ) :
    (∀ p, PaperSize.new name orientation margin = .ok p → ∃ c rest n, name = c :: rest ∧ c ∈ ['A', 'B', 'C', 'a', 'b', 'c'] ∧
      intFromText (rest.map Char.toUpper) = .ok n ∧ 0 ≤ n ∧ n ≤ 10 ∧ (orientation = "portrait" ∨ orientation = "landscape")) ∧
    (∀ e, PaperSize.new name orientation margin = .error e → name = [] ∧ e = .indexError ∨ name ≠ [] ∧ e = .valueError) := by
  have hparse : ∀ t e, intFromText t = .error e → e = .valueError := by
    have hd : ∀ (t : List Char) acc prev e, Xml.parseDigits acc prev t = .error e → e = .valueError := by
      intro t
      induction t with
      | nil => intro acc prev e h; unfold Xml.parseDigits at h; split at h <;> cases h; rfl
      | cons c t ih =>
        intro acc prev e h
        unfold Xml.parseDigits at h
        split at h
        · exact ih _ _ _ h
        · split at h
          · exact ih _ _ _ h
          · cases h; rfl
    intro t e h
    unfold intFromText at h
    split at h
    · rename_i r _
      cases hr : Xml.parseDigits 0 false r with
      | error e' => rw [hr] at h; cases h; exact hd _ _ _ _ hr
      | ok n => rw [hr] at h; cases h
    · rename_i r _
      cases hr : Xml.parseDigits 0 false r with
      | error e' => rw [hr] at h; cases h; exact hd _ _ _ _ hr
      | ok n => rw [hr] at h; cases h
    · cases hr : Xml.parseDigits 0 false (Xml.strip t) with
      | error e' => rw [hr] at h; cases h; exact hd _ _ _ _ hr
      | ok n => rw [hr] at h; cases h
  cases name with
  | nil =>
    constructor
    · intro p hp; cases hp
    · intro e he; cases he; exact Or.inl ⟨rfl, rfl⟩
  | cons c rest =>
    unfold PaperSize.new
    simp only [List.map_cons, Py.getItem, List.getElem?_cons_zero, List.drop_succ_cons, List.drop_zero, bind, Except.bind]
    cases h2 : intFromText (rest.map Char.toUpper) with
    | error e' =>
      refine ⟨fun p hp => (by cases hp), fun e he => ?_⟩
      simp only [Except.error.injEq] at he
      subst he
      exact Or.inr ⟨by simp, hparse _ _ h2⟩
    | ok l =>
      simp only
      cases h3 : letterToDimension c.toUpper with
      | none =>
        refine ⟨fun p hp => (by cases hp), fun e he => ?_⟩
        cases he
        exact Or.inr ⟨by simp, rfl⟩
      | some d =>
        simp only
        by_cases h4 : l < 0 ∨ l > 10
        · rw [if_pos h4]
          refine ⟨fun p hp => (by cases hp), fun e he => ?_⟩
          cases he
          exact Or.inr ⟨by simp, rfl⟩
        · rw [if_neg h4]
          by_cases h5 : orientation ≠ "portrait" ∧ orientation ≠ "landscape"
          · rw [if_pos h5]
            refine ⟨fun p hp => (by cases hp), fun e he => ?_⟩
            cases he
            exact Or.inr ⟨by simp, rfl⟩
          · rw [if_neg h5]
            refine ⟨fun p _ => ⟨c, rest, l, rfl, ?_, h2, by omega, by omega, by tauto⟩, fun e he => ?_⟩
            · unfold letterToDimension at h3
              split_ifs at h3 with ha hb hc
              · exact upper_abc ha (by decide)
              · exact upper_abc hb (by decide)
              · exact upper_abc hc (by decide)
            · split at he <;> cases he

/-- C68. Exactly the names which are the letter A, B or C, in upper or lower case, followed by a text that `int` reads as a number from zero to ten
are accepted, with one of the two orientations. -/
theorem accepted_iff (name : List Char) (orientation : String) (margin : ℝ) :
    (∃ p, PaperSize.new name orientation margin = .ok p) ↔ ∃ c rest n, name = c :: rest ∧ c ∈ ['A', 'B', 'C', 'a', 'b', 'c'] ∧
      intFromText (rest.map Char.toUpper) = .ok n ∧ 0 ≤ n ∧ n ≤ 10 ∧ (orientation = "portrait" ∨ orientation = "landscape") := by
  refine ⟨fun ⟨p, h⟩ => (accepted name orientation margin).1 p h, ?_⟩
  rintro ⟨c, rest, n, rfl, hc, hi, h0, h10, ho⟩
  have hd : ∃ d, letterToDimension c.toUpper = some d := by
    simp only [List.mem_cons, List.not_mem_nil, or_false] at hc
    rcases hc with rfl | rfl | rfl | rfl | rfl | rfl <;> exact ⟨_, by unfold letterToDimension; simp; rfl⟩
  obtain ⟨d, hd⟩ := hd
  unfold PaperSize.new
  simp only [List.map_cons, Py.getItem, List.getElem?_cons_zero, List.drop_succ_cons, List.drop_zero, hi, bind, Except.bind, hd]
  rw [if_neg (by omega), if_neg (by tauto)]
  split <;> exact ⟨_, rfl⟩

/-- C68. Names which are not those of a size are accepted as well, because of what `int` accepts. -/
theorem odd_names_wrong : ∃ p, PaperSize.new "a +0_4 ".toList "portrait" 10 = .ok p ∧ p.name = "A +0_4 ".toList := by
  have h : intFromText " +0_4 ".toList = .ok 4 := by decide +kernel
  have h2 : "a +0_4 ".toList.map Char.toUpper = 'A' :: " +0_4 ".toList := by decide +kernel
  refine ⟨⟨"A +0_4 ".toList, false, 10, 1189 / Real.sqrt 2 ^ (4 : Int), 1189 / Real.sqrt 2 ^ (4 : Int) / Real.sqrt 2⟩, ?_, rfl⟩
  unfold PaperSize.new
  simp only [h2, Py.getItem, List.getElem?_cons_zero, List.drop_succ_cons, List.drop_zero, h, bind, Except.bind, letterToDimension, if_true]
  rw [if_neg (by omega), if_neg (by simp)]
  simp [pure, Except.pure]

/-- The sides of A4: about 297 mm and 210 mm. -/
example : ∃ p, PaperSize.new "A4".toList "portrait" 10 = .ok p ∧ p.height = 297.25 := by
  obtain ⟨p, h1, -, -, h2, -⟩ := paper_size 'A' 1189 (if_pos rfl) 4 (by omega) false 10
  have e : "A4".toList = 'A' :: natToText 4 := by decide +kernel
  refine ⟨p, by rw [e]; exact h1, ?_⟩
  simp only [Bool.false_eq_true, if_false] at h2
  have h4 : Real.sqrt 2 ^ 4 = 4 := by
    have : Real.sqrt 2 ^ 2 = 2 := Real.sq_sqrt (by norm_num)
    calc Real.sqrt 2 ^ 4 = (Real.sqrt 2 ^ 2) ^ 2 := by ring
      _ = 4 := by rw [this]; norm_num
  rw [h2, h4]; norm_num

example : PaperSize.new "A11".toList "portrait" 10 = .error .valueError := by
  rcases h : PaperSize.new "A11".toList "portrait" 10 with e | p
  · rcases (accepted _ _ _).2 e h with ⟨h1, -⟩ | ⟨-, h1⟩
    · exact absurd h1 (by decide)
    · rw [h1]
  · obtain ⟨c, rest, n, h1, -, h2, -, h3, -⟩ := (accepted _ _ _).1 p h
    have e : "A11".toList = ['A', '1', '1'] := by decide
    rw [e] at h1
    cases h1
    have : intFromText (['1', '1'].map Char.toUpper) = .ok 11 := by decide +kernel
    rw [this] at h2
    cases h2
    omega

/-! ## C67: tiles -/

variable {K : Type} [Field K] [LinearOrder K] [IsStrictOrderedRing K] [FloorRing K]

omit [IsStrictOrderedRing K] in
/-- C67. There is one tile for each row and column; its size is the one of the page area. -/
theorem tiles_grid (box : Box K) (area : Vec K) :
    (tiles box area).map (fun t => (t.row, t.column)) =
      (List.range (numberOfRows box area)).flatMap (fun r => (List.range (numberOfColumns box area)).map fun c => (r, c)) ∧
    ∀ t ∈ tiles box area, t.interval.xSup = t.interval.xInf + area.x ∧ t.interval.ySup = t.interval.yInf + area.y ∧
      t.row < numberOfRows box area ∧ t.column < numberOfColumns box area ∧
      t.interval.xInf = box.xInf + t.row * area.x ∧ t.interval.yInf = box.yInf + t.column * area.y := by
  constructor
  · unfold tiles
    rw [List.map_flatMap]
    congr 1
    funext r
    rw [List.map_map]
    rfl
  · intro t ht
    unfold tiles at ht
    simp only [List.mem_flatMap, List.mem_map, List.mem_range] at ht
    obtain ⟨r, hr, c, hc, rfl⟩ := ht
    exact ⟨rfl, rfl, hr, hc, rfl, rfl⟩

theorem lt_or_of_ne {a b c d : Nat} (h : ¬ (a = c ∧ b = d)) : a < c ∨ c < a ∨ b < d ∨ d < b := by omega

/-- C67. Two tiles of different rows or columns do not overlap. -/
theorem tiles_disjoint (box : Box K) (area : Vec K) (hx : 0 < area.x) (hy : 0 < area.y) (t t' : Tile K) (ht : t ∈ tiles box area)
    (ht' : t' ∈ tiles box area) (hne : ¬ (t.row = t'.row ∧ t.column = t'.column)) (p : Vec K) : ¬ (Inside p t.interval ∧ Inside p t'.interval) := by
  obtain ⟨a1, a2, -, -, a3, a4⟩ := (tiles_grid box area).2 t ht
  obtain ⟨b1, b2, -, -, b3, b4⟩ := (tiles_grid box area).2 t' ht'
  rintro ⟨⟨c1, c2, c3, c4⟩, d1, d2, d3, d4⟩
  have key : ∀ (m n : Nat) (u : K), 0 < u → m < n → (m : K) * u + u ≤ n * u := by
    intro m n u hu h
    have : ((m : K) + 1) ≤ n := by exact_mod_cast h
    nlinarith
  rcases lt_or_of_ne hne with h | h | h | h
  · have := key _ _ _ hx h; rw [a1, a3] at c2; rw [b3] at d1; linarith
  · have := key _ _ _ hx h; rw [b1, b3] at d2; rw [a3] at c1; linarith
  · have := key _ _ _ hy h; rw [a2, a4] at c4; rw [b4] at d3; linarith
  · have := key _ _ _ hy h; rw [b2, b4] at d4; rw [a4] at c3; linarith

theorem pick_index (n : Nat) (u l x : K) (hu : 0 < u) (hn : (n : Int) = ⌈l / u⌉) (hl : 0 < l) (hx : 0 ≤ x) (hxl : x ≤ l) :
    ∃ k < n, (k : K) * u ≤ x ∧ x ≤ k * u + u := by
  have hln : l ≤ n * u := by
    have : l / u ≤ (n : K) := by
      have := Int.le_ceil (l / u)
      rw [← hn] at this
      exact_mod_cast this
    rwa [div_le_iff₀ hu] at this
  have hn0 : 0 < n := by
    rcases Nat.eq_zero_or_pos n with h | h
    · rw [h] at hln; simp at hln; linarith
    · exact h
  by_cases hlast : x < n * u
  · refine ⟨⌊x / u⌋.toNat, ?_, ?_, ?_⟩
    · have h0 : 0 ≤ ⌊x / u⌋ := Int.floor_nonneg.2 (by positivity)
      have h1 : ⌊x / u⌋ < (n : Int) := by
        rw [Int.floor_lt, div_lt_iff₀ hu]
        exact_mod_cast hlast
      omega
    · have h0 : 0 ≤ ⌊x / u⌋ := Int.floor_nonneg.2 (by positivity)
      have h2 : ((⌊x / u⌋.toNat : Nat) : K) = (⌊x / u⌋ : K) := by
        have : ((⌊x / u⌋.toNat : Nat) : Int) = ⌊x / u⌋ := Int.toNat_of_nonneg h0
        exact_mod_cast congrArg (Int.cast (R := K)) this
      rw [h2, ← le_div_iff₀ hu]
      exact Int.floor_le _
    · have h0 : 0 ≤ ⌊x / u⌋ := Int.floor_nonneg.2 (by positivity)
      have h2 : ((⌊x / u⌋.toNat : Nat) : K) = (⌊x / u⌋ : K) := by
        have : ((⌊x / u⌋.toNat : Nat) : Int) = ⌊x / u⌋ := Int.toNat_of_nonneg h0
        exact_mod_cast congrArg (Int.cast (R := K)) this
      rw [h2]
      have h3 := (Int.lt_floor_add_one (x / u)).le
      rw [div_le_iff₀ hu] at h3
      linarith
  · refine ⟨n - 1, by omega, ?_, ?_⟩
    · have : ((n - 1 : Nat) : K) = n - 1 := by push_cast [Nat.cast_sub hn0]; ring
      rw [this]; nlinarith
    · have : ((n - 1 : Nat) : K) = n - 1 := by push_cast [Nat.cast_sub hn0]; ring
      rw [this]
      nlinarith

theorem number_pos (l u : K) (hu : 0 < u) (hl : 0 < l) : ((⌈l / u⌉.toNat : Nat) : Int) = ⌈l / u⌉ :=
  Int.toNat_of_nonneg (Int.ceil_nonneg (by positivity))

/-- C67. The tiles cover the box exactly if the grid has as many rows as columns, because the row is used along the horizontal axis and the
column along the vertical one. -/
theorem tiles_cover_iff (box : Box K) (area : Vec K) (hx : 0 < area.x) (hy : 0 < area.y) (hbx : box.xInf < box.xSup)
    (hby : box.yInf < box.ySup) : Covers (tiles box area) box ↔ numberOfRows box area = numberOfColumns box area := by
  have hc := number_pos (box.xSup - box.xInf) area.x hx (by linarith)
  have hr := number_pos (box.ySup - box.yInf) area.y hy (by linarith)
  change ((numberOfColumns box area : Nat) : Int) = _ at hc
  change ((numberOfRows box area : Nat) : Int) = _ at hr
  constructor
  · intro hcov
    rcases lt_trichotomy (numberOfRows box area) (numberOfColumns box area) with h | h | h
    · exfalso
      obtain ⟨t, ht, -, h2, -⟩ := hcov ⟨box.xSup, box.yInf⟩ ⟨hbx.le, le_refl _, le_refl _, hby.le⟩
      obtain ⟨a1, -, a2, -, a3, -⟩ := (tiles_grid box area).2 t ht
      have h3 : ((numberOfColumns box area : Int) - 1 : K) < (box.xSup - box.xInf) / area.x := by
        have := Int.ceil_lt_add_one ((box.xSup - box.xInf) / area.x)
        rw [← hc] at this
        linarith
      rw [lt_div_iff₀ hx] at h3
      have h4 : (t.row : K) + 1 ≤ (numberOfColumns box area : K) - 1 := by
        have : (t.row : K) + 1 + 1 ≤ (numberOfColumns box area : K) := by exact_mod_cast (by omega : t.row + 1 + 1 ≤ numberOfColumns box area)
        linarith
      have h5 : ((numberOfColumns box area : Int) : K) = (numberOfColumns box area : K) := by push_cast; rfl
      rw [h5] at h3
      simp only at h2
      rw [a1, a3] at h2
      have h6 : ((t.row : K) + 1) * area.x ≤ ((numberOfColumns box area : K) - 1) * area.x := mul_le_mul_of_nonneg_right h4 hx.le
      linarith
    · exact h
    · exfalso
      obtain ⟨t, ht, -, -, -, h2⟩ := hcov ⟨box.xInf, box.ySup⟩ ⟨le_refl _, hbx.le, hby.le, le_refl _⟩
      obtain ⟨-, a1, -, a2, -, a3⟩ := (tiles_grid box area).2 t ht
      have h3 : ((numberOfRows box area : Int) - 1 : K) < (box.ySup - box.yInf) / area.y := by
        have := Int.ceil_lt_add_one ((box.ySup - box.yInf) / area.y)
        rw [← hr] at this
        linarith
      rw [lt_div_iff₀ hy] at h3
      have h4 : (t.column : K) + 1 ≤ (numberOfRows box area : K) - 1 := by
        have : (t.column : K) + 1 + 1 ≤ (numberOfRows box area : K) := by exact_mod_cast (by omega : t.column + 1 + 1 ≤ numberOfRows box area)
        linarith
      have h5 : ((numberOfRows box area : Int) : K) = (numberOfRows box area : K) := by push_cast; rfl
      rw [h5] at h3
      simp only at h2
      rw [a1, a3] at h2
      have h6 : ((t.column : K) + 1) * area.y ≤ ((numberOfRows box area : K) - 1) * area.y := mul_le_mul_of_nonneg_right h4 hy.le
      linarith
  · intro heq p ⟨p1, p2, p3, p4⟩
    obtain ⟨r, r1, r2, r3⟩ := pick_index (numberOfColumns box area) area.x (box.xSup - box.xInf) (p.x - box.xInf) hx hc (by linarith) (by linarith)
      (by linarith)
    obtain ⟨c, c1, c2, c3⟩ := pick_index (numberOfRows box area) area.y (box.ySup - box.yInf) (p.y - box.yInf) hy hr (by linarith) (by linarith)
      (by linarith)
    refine ⟨tile box area r c, ?_, ?_⟩
    · unfold tiles
      simp only [List.mem_flatMap, List.mem_map, List.mem_range]
      exact ⟨r, by omega, c, by omega, rfl⟩
    · simp only [Within, tile, mulVec, Vec.add_x, Vec.add_y]
      exact ⟨by linarith, by linarith, by linarith, by linarith⟩

/-- C67. The whole tiler: a scene with any bounding box is covered if its grid is square, and is not covered otherwise. -/
theorem tiler_cover (b : Box K) (width height paperMargin : K) (hb : b.xInf ≤ b.xSup ∧ b.yInf ≤ b.ySup)
    (hw : 2 * (paperMargin + 2) < width) (hh : 2 * (paperMargin + 2) < height) :
    ∃ l, tiler b width height paperMargin = .ok l ∧
      (Covers l ⟨b.xInf - 1, b.xSup + 1, b.yInf - 1, b.ySup + 1⟩ ↔
        ⌈(b.xSup - b.xInf + 2) / ((width - 2 * (paperMargin + 2)) / 10)⌉ = ⌈(b.ySup - b.yInf + 2) / ((height - 2 * (paperMargin + 2)) / 10)⌉) := by
  have ax : (areaVector width height paperMargin).x = (width - 2 * (paperMargin + 2)) / 10 := by
    simp only [areaVector, Vec.sub_x, Vec.sdiv_x, Vec.smul_x]; ring
  have ay : (areaVector width height paperMargin).y = (height - 2 * (paperMargin + 2)) / 10 := by
    simp only [areaVector, Vec.sub_y, Vec.sdiv_y, Vec.smul_y]; ring
  have hx : 0 < (areaVector width height paperMargin).x := by rw [ax]; apply div_pos <;> linarith
  have hy : 0 < (areaVector width height paperMargin).y := by rw [ay]; apply div_pos <;> linarith
  refine ⟨tiles (enlarge b 1) (areaVector width height paperMargin), ?_, ?_⟩
  · unfold tiler
    dsimp only
    rw [if_neg]
    rintro (h | h)
    · exact hx.ne' h
    · exact hy.ne' h
  · have hbx : (enlarge b 1).xInf < (enlarge b 1).xSup := by simp only [enlarge]; linarith [hb.1]
    have hby : (enlarge b 1).yInf < (enlarge b 1).ySup := by simp only [enlarge]; linarith [hb.2]
    have := tiles_cover_iff (enlarge b 1) (areaVector width height paperMargin) hx hy hbx hby
    have hc := number_pos ((enlarge b 1).xSup - (enlarge b 1).xInf) (areaVector width height paperMargin).x hx (by linarith)
    have hr := number_pos ((enlarge b 1).ySup - (enlarge b 1).yInf) (areaVector width height paperMargin).y hy (by linarith)
    refine this.trans ?_
    unfold numberOfRows numberOfColumns
    have e1 : (enlarge b 1).xSup - (enlarge b 1).xInf = b.xSup - b.xInf + 2 := by simp only [enlarge]; ring
    have e2 : (enlarge b 1).ySup - (enlarge b 1).yInf = b.ySup - b.yInf + 2 := by simp only [enlarge]; ring
    rw [e1, ax] at hc ⊢
    rw [e2, ay] at hr ⊢
    omega

/-- A scene of 30 cm by 20 cm on pages of 210 mm by 297 mm: one row, two columns; it is not covered. -/
example : ⌈((30 : ℚ) - 0 + 2) / ((210 - 2 * (10 + 2)) / 10)⌉ = 2 ∧ ⌈((20 : ℚ) - 0 + 2) / ((297 - 2 * (10 + 2)) / 10)⌉ = 1 := by
  constructor <;> norm_num [Int.ceil_eq_iff]

/-- A scene of 30 cm by 40 cm has two rows and two columns. -/
example : ⌈((40 : ℚ) - 0 + 2) / ((297 - 2 * (10 + 2)) / 10)⌉ = 2 := by
  norm_num [Int.ceil_eq_iff]

/-! ## C66: the viewport -/

omit [IsStrictOrderedRing K] [FloorRing K] in
/-- C66. The two mappings are inverse of each other, whatever the history of the viewport is, as soon as it has an area. -/
theorem viewport_round_trip (v : Viewport K) (hs : v.scale ≠ 0) (p q : Vec K) :
    v.sceneToViewport p = .ok q ↔ v.viewportToScene q = .ok p := by
  unfold Viewport.sceneToViewport Viewport.viewportToScene
  cases v.translation with
  | none => simp
  | some t =>
    simp only [Except.ok.injEq, Vec.ext_iff, Vec.sub_x, Vec.sub_y, Vec.sdiv_x, Vec.sdiv_y, Vec.smul_x, Vec.smul_y, Vec.add_x, Vec.add_y]
    constructor
    · rintro ⟨h1, h2⟩
      rw [← h1, ← h2]
      constructor <;> field_simp <;> ring
    · rintro ⟨h1, h2⟩
      rw [← h1, ← h2]
      constructor <;> field_simp <;> ring

omit [IsStrictOrderedRing K] [FloorRing K] in
/-- C66. Before the first update both mappings raise `AttributeError`. -/
theorem viewport_unset (v : Viewport K) (h : v.translation = none) (p : Vec K) :
    v.sceneToViewport p = .error .attributeError ∧ v.viewportToScene p = .error .attributeError := by
  unfold Viewport.sceneToViewport Viewport.viewportToScene
  rw [h]
  exact ⟨rfl, rfl⟩

omit [FloorRing K] in
/-- C66. After a zoom with a non null scale the mapping is the one of the centre and of the scale: the centre of the viewport shows the
given point, one unit of the scene is `scale` pixels, x goes to the right and y goes up. -/
theorem zoom_mapping (v : Viewport K) (size center : Vec K) (scale : K) (hsize : v.size = some size) (hscale : scale ≠ 0) :
    ∃ v', v.zoomAt center scale = .ok v' ∧ v'.scale = scale ∧ v'.center = some center ∧ v'.size = some size ∧ v'.scene = v.scene ∧
      ∀ p, v'.sceneToViewport p = .ok ⟨size.x / 2 + scale * (p.x - center.x), size.y / 2 - scale * (p.y - center.y)⟩ := by
  unfold Viewport.zoomAt Viewport.update
  dsimp only
  rw [hsize]
  refine ⟨_, rfl, rfl, rfl, rfl, rfl, fun p => ?_⟩
  unfold Viewport.sceneToViewport
  simp only [Except.ok.injEq, Vec.ext_iff, Vec.add_x, Vec.add_y, Vec.neg_x, Vec.neg_y, Vec.smul_x, Vec.smul_y, Vec.sdiv_x, Vec.sdiv_y]
  constructor <;> field_simp <;> ring

omit [FloorRing K] in
/-- C66. Without a size a zoom raises `TypeError`. -/
theorem zoom_without_size (v : Viewport K) (center : Vec K) (scale : K) (h : v.size = none) : v.zoomAt center scale = .error .typeError := by
  unfold Viewport.zoomAt Viewport.update
  dsimp only
  rw [h]

theorem axisScale_some {w l s : K} (hl : 0 ≤ l) (h : axisScale w l = some s) : 0 < l ∧ s * (l * (1 + 2 / 100)) = w := by
  unfold axisScale at h
  split at h
  · cases h
  · rename_i hne
    simp only [Option.some.injEq] at h
    have hl' : l ≠ 0 := by rintro rfl; simp at hne
    refine ⟨lt_of_le_of_ne hl (Ne.symm hl'), ?_⟩
    rw [← h, div_mul_cancel₀ _ hne]

/-- C66. After `fit_scene`, in a viewport of positive size and for a scene not reduced to a point, the whole scene is inside the viewport,
with its centre in the middle, and in one direction at least it takes the whole size but the margin of two percents. -/
theorem fit (v : Viewport K) (size : Vec K) (scene : Box K) (hsize : v.size = some size) (hscene : v.scene = some (some scene))
    (hx : 0 < size.x) (hy : 0 < size.y) (hsx : scene.xInf ≤ scene.xSup) (hsy : scene.yInf ≤ scene.ySup)
    (hpoint : scene.xInf < scene.xSup ∨ scene.yInf < scene.ySup) :
    ∃ v', v.fitScene = .ok v' ∧ 0 < v'.scale ∧
      (∀ p, Within p scene → ∃ q, v'.sceneToViewport p = .ok q ∧ Inside q ⟨0, size.x, 0, size.y⟩) ∧
      v'.sceneToViewport ⟨(scene.xInf + scene.xSup) / 2, (scene.yInf + scene.ySup) / 2⟩ = .ok ⟨size.x / 2, size.y / 2⟩ ∧
      (v'.lengthToViewport (scene.xSup - scene.xInf) * (1 + 2 / 100) = size.x ∨
        v'.lengthToViewport (scene.ySup - scene.yInf) * (1 + 2 / 100) = size.y) := by
  obtain ⟨s, hs, hs0, hsx', hsy', htight⟩ : ∃ s, computeScale size scene = some s ∧ 0 < s ∧
      s * ((scene.xSup - scene.xInf) * (1 + 2 / 100)) ≤ size.x ∧ s * ((scene.ySup - scene.yInf) * (1 + 2 / 100)) ≤ size.y ∧
      (s * ((scene.xSup - scene.xInf) * (1 + 2 / 100)) = size.x ∨ s * ((scene.ySup - scene.yInf) * (1 + 2 / 100)) = size.y) := by
    have hlx : 0 ≤ scene.xSup - scene.xInf := by linarith
    have hly : 0 ≤ scene.ySup - scene.yInf := by linarith
    have none_zero : ∀ {w l : K}, axisScale w l = none → l = 0 := by
      intro w l h
      unfold axisScale at h
      split at h
      · rename_i h0
        exact (mul_eq_zero.1 h0).resolve_right (by positivity)
      · cases h
    have pos : ∀ {s l w : K}, 0 < w → 0 < l → s * (l * (1 + 2 / 100)) = w → 0 < s := by
      intro s l w hw hl h
      by_contra hs
      have : s * (l * (1 + 2 / 100)) ≤ 0 := mul_nonpos_of_nonpos_of_nonneg (by linarith) (by positivity)
      linarith
    unfold computeScale
    cases ha : axisScale size.x (scene.xSup - scene.xInf) with
    | some a =>
      obtain ⟨a1, a2⟩ := axisScale_some hlx ha
      have apos := pos hx a1 a2
      cases hb : axisScale size.y (scene.ySup - scene.yInf) with
      | some b =>
        obtain ⟨b1, b2⟩ := axisScale_some hly hb
        have bpos := pos hy b1 b2
        by_cases hab : a ≤ b
        · refine ⟨a, by simp [hab], apos, a2.le, ?_, Or.inl a2⟩
          rw [← b2]
          exact mul_le_mul_of_nonneg_right hab (by positivity)
        · refine ⟨b, by simp [hab], bpos, ?_, b2.le, Or.inr b2⟩
          rw [← a2]
          exact mul_le_mul_of_nonneg_right (by linarith) (by positivity)
      | none =>
        refine ⟨a, rfl, apos, a2.le, ?_, Or.inl a2⟩
        rw [none_zero hb]; simp; exact hy.le
    | none =>
      have h0 := none_zero ha
      cases hb : axisScale size.y (scene.ySup - scene.yInf) with
      | some b =>
        obtain ⟨b1, b2⟩ := axisScale_some hly hb
        refine ⟨b, rfl, pos hy b1 b2, ?_, b2.le, Or.inr b2⟩
        rw [h0]; simp; exact hx.le
      | none =>
        have h1 := none_zero hb
        exfalso
        rcases hpoint with h | h <;> linarith
  obtain ⟨v', h1, h2, -, -, -, h5⟩ := zoom_mapping v size ⟨(scene.xInf + scene.xSup) / 2, (scene.yInf + scene.ySup) / 2⟩ s hsize hs0.ne'
  refine ⟨v', ?_, by rw [h2]; exact hs0, ?_, ?_, ?_⟩
  · unfold Viewport.fitScene
    rw [hscene]
    dsimp only
    rw [hsize]
    dsimp only
    rw [hs]
    exact h1
  · intro p ⟨p1, p2, p3, p4⟩
    refine ⟨_, h5 p, ?_⟩
    simp only [Inside]
    have k : ∀ (l d : K), 0 ≤ l → -(l / 2) ≤ d → d ≤ l / 2 → ∀ w, 0 < w → s * (l * (1 + 2 / 100)) ≤ w → -(w / 2) < s * d ∧ s * d < w / 2 := by
      intro l d hl hd1 hd2 w hw hsl
      have e1 : s * d ≤ s * (l / 2) := mul_le_mul_of_nonneg_left hd2 hs0.le
      have e2 : s * -(l / 2) ≤ s * d := mul_le_mul_of_nonneg_left hd1 hs0.le
      have e3 : 0 ≤ s * l := by positivity
      have e4 : s * l * (102 / 100) ≤ w := by calc s * l * (102 / 100) = s * (l * (1 + 2 / 100)) := by ring
                                               _ ≤ w := hsl
      have e5 : s * l < w := by
        rcases eq_or_lt_of_le e3 with h | h
        · rw [← h]; exact hw
        · linarith
      constructor <;> linarith
    obtain ⟨x1, x2⟩ := k (scene.xSup - scene.xInf) (p.x - (scene.xInf + scene.xSup) / 2) (by linarith) (by linarith) (by linarith) _ hx hsx'
    obtain ⟨y1, y2⟩ := k (scene.ySup - scene.yInf) (p.y - (scene.yInf + scene.ySup) / 2) (by linarith) (by linarith) (by linarith) _ hy hsy'
    exact ⟨by linarith, by linarith, by linarith, by linarith⟩
  · rw [h5]; simp
  · unfold Viewport.lengthToViewport
    rw [h2]
    rcases htight with h | h
    · left; rw [← h]; ring
    · right; rw [← h]; ring

omit [FloorRing K] in
/-- C66. A resize keeps the scale and the centre: the middle of the viewport shows the same point. -/
theorem resize (v : Viewport K) (size center : Vec K) (hc : v.center = some center) (hs : v.scale ≠ 0) (hscene : v.scene.isSome) :
    ∃ v', v.setSize size = .ok v' ∧ v'.scale = v.scale ∧ v'.center = some center ∧
      v'.sceneToViewport center = .ok ⟨size.x / 2, size.y / 2⟩ := by
  obtain ⟨v', h1, h2, h3, -, -, h5⟩ := zoom_mapping { v with size := some size } size center v.scale rfl hs
  refine ⟨v', ?_, h2, h3, ?_⟩
  · unfold Viewport.setSize
    dsimp only
    rw [if_pos hscene]
    unfold Viewport.zoomAt at h1
    rw [← h1]
    congr 1
    cases v
    simp only at hc
    subst hc
    rfl
  · rw [h5]; simp

omit [FloorRing K] in
/-- C66. A pan of `(dx, dy)` pixels moves what is shown by `dx` pixels to the left and `dy` pixels down. -/
theorem pan_moves (v : Viewport K) (size center dxy : Vec K) (hsize : v.size = some size) (hc : v.center = some center) (hs : v.scale ≠ 0) :
    ∃ v', v.pan dxy = .ok v' ∧ v'.scale = v.scale ∧
      ∀ p, v'.sceneToViewport p =
        .ok ⟨size.x / 2 + v.scale * (p.x - center.x) - dxy.x, size.y / 2 - v.scale * (p.y - center.y) + dxy.y⟩ := by
  obtain ⟨v', h1, h2, -, -, -, h5⟩ := zoom_mapping v size (center + v.panDeltaToScene dxy) v.scale hsize hs
  refine ⟨v', ?_, h2, fun p => ?_⟩
  · unfold Viewport.pan
    rw [hc]
    exact h1
  · rw [h5]
    simp only [Except.ok.injEq, Vec.ext_iff, Viewport.panDeltaToScene, Vec.add_x, Vec.add_y, Vec.smul_x, Vec.smul_y]
    constructor <;> field_simp <;> ring

omit [FloorRing K] in
/-- C66. A zoom at a position of the viewport brings the point shown there to the middle of the viewport. -/
theorem zoom_at_position (v : Viewport K) (size p q : Vec K) (zoom : K) (hsize : v.size = some size) (hs : v.scale ≠ 0) (hz : zoom ≠ 0)
    (hq : v.sceneToViewport p = .ok q) :
    ∃ v', v.zoomAtPosition q zoom = .ok v' ∧ v'.scale = zoom ∧ v'.sceneToViewport p = .ok ⟨size.x / 2, size.y / 2⟩ := by
  obtain ⟨v', h1, h2, -, -, -, h5⟩ := zoom_mapping v size p zoom hsize hz
  refine ⟨v', ?_, h2, ?_⟩
  · unfold Viewport.zoomAtPosition
    rw [(viewport_round_trip v hs p q).1 hq]
    exact h1
  · rw [h5]; simp

omit [IsStrictOrderedRing K] [FloorRing K] in
/-- C66. Lengths are mapped by the scale, and back. -/
theorem lengths (v : Viewport K) (hs : v.scale ≠ 0) (l : K) :
    v.lengthToScene (v.lengthToViewport l) = l ∧ v.lengthToViewport (v.lengthToScene l) = l := by
  unfold Viewport.lengthToScene Viewport.lengthToViewport
  constructor <;> field_simp

/-- A viewport of 200 by 100 pixels with a scene of 10 by 5. -/
example : ∃ v : Viewport ℚ, Viewport.fitScene (K := ℚ) { scale := 1, size := some ⟨200, 100⟩, scene := some (some ⟨0, 10, 0, 5⟩) } = .ok v ∧ 0 < v.scale := by
  obtain ⟨v, h1, h2, -⟩ := fit (K := ℚ) { scale := 1, size := some ⟨200, 100⟩, scene := some (some ⟨0, 10, 0, 5⟩) } ⟨200, 100⟩ ⟨0, 10, 0, 5⟩ rfl rfl
    (by norm_num) (by norm_num) (by norm_num) (by norm_num) (by norm_num)
  exact ⟨v, h1, h2⟩

end Patro.Paper
