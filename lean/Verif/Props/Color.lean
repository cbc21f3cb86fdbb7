import Verif.Proof.ColorHue
/-!
# Colours (C72, C73, C123, C124)
-/

namespace Patro.Colour

open Xml (Text)

/-! ## C72 -/

/-- C72. Every text made of `#` and six digits, in lower or upper case, is read, each pair of digits gives a component, and
the text of the colour is the same digits in lower case. -/
theorem text_read (t : Text) (d : Fin 6 → Fin 16) (h : IsColorText t d) :
    ∃ c, new [.text t] = .ok c ∧ HasDigits c d ∧ InRange c ∧ c.str = hexText d := by
  refine ⟨_, new_text h none, ?_⟩
  have hd : HasDigits ⟨toFloat (16 * (d 0 : ℤ) + d 1), toFloat (16 * (d 2 : ℤ) + d 3),
      toFloat (16 * (d 4 : ℤ) + d 5), none⟩ d := ⟨toInt_toFloat _, toInt_toFloat _, toInt_toFloat _⟩
  have hr : ∀ a b : Fin 16, 0 ≤ toFloat (16 * (a : ℤ) + b) ∧ toFloat (16 * (a : ℤ) + b) ≤ 1 := by
    intro a b
    refine isComponent_range (a := .num (.int (16 * (a : ℤ) + b))) (Or.inl ⟨_, rfl, ?_, ?_, rfl⟩)
    · omega
    · omega
  exact ⟨hd, ⟨hr _ _, hr _ _, hr _ _⟩, str_digits hd⟩

/-- C72. The text of a colour whose components are between 0 and 1 is read back as a colour with the same integer
components, equal to the first one. -/
theorem text_round_trip (c : Color) (h : InRange c) :
    ∃ c', new [.text c.str] = .ok c' ∧ c'.redInt = c.redInt ∧ c'.greenInt = c.greenInt ∧ c'.blueInt = c.blueInt ∧
      c'.eq c = true ∧ ∃ d, IsColorText c.str d := by
  obtain ⟨d, hd⟩ := inRange_digits h
  have ht : IsColorText c.str d := by rw [str_digits hd]; exact hexText_isColorText d
  obtain ⟨c', h1, h2, _, h4⟩ := text_read c.str d ht
  refine ⟨c', h1, h2.1.trans hd.1.symm, h2.2.1.trans hd.2.1.symm, h2.2.2.trans hd.2.2.symm, ?_, d, ht⟩
  unfold Color.eq
  rw [decide_eq_true_eq, h4, str_digits hd]

/-- C72. Three arguments make a colour exactly when each of them is an integer from 0 to 255 or a float from 0 to 1;
otherwise the exception is `ValueError`. -/
theorem three_arguments (a b c : Arg) (name : Option Text) :
    (∀ r g bl, new [a, b, c] { name := name } = .ok ⟨r, g, bl, name⟩ ↔ IsComponent a r ∧ IsComponent b g ∧ IsComponent c bl) ∧
    ((¬ ∃ r g bl, IsComponent a r ∧ IsComponent b g ∧ IsComponent c bl) →
      new [a, b, c] { name := name } = .error .valueError) := by
  have e : new [a, b, c] { name := name } = (match checkValue a with
      | .error e => .error e
      | .ok r => match checkValue b with
        | .error e => .error e
        | .ok g => match checkValue c with
          | .error e => .error e
          | .ok bl => .ok ⟨r, g, bl, name⟩) := by
    cases ha : checkValue a <;> cases hb : checkValue b <;> cases hc : checkValue c <;>
      simp [new, positional, keyword, ha, hb, hc, bind, Except.bind, pure, Except.pure]
  constructor
  · intro r g bl
    rw [← checkValue_iff, ← checkValue_iff, ← checkValue_iff, e]
    cases ha : checkValue a with
    | error e => simp
    | ok r' =>
      cases hb : checkValue b with
      | error e => simp
      | ok g' =>
        cases hc : checkValue c with
        | error e => simp
        | ok bl' => simp
  · intro h
    rw [e]
    cases ha : checkValue a with
    | error e => rw [checkValue_error a e ha]
    | ok r' =>
      cases hb : checkValue b with
      | error e => rw [checkValue_error b e hb]
      | ok g' =>
        cases hc : checkValue c with
        | error e => rw [checkValue_error c e hc]
        | ok bl' =>
          exact absurd ⟨r', g', bl', (checkValue_iff _ _).1 ha, (checkValue_iff _ _).1 hb, (checkValue_iff _ _).1 hc⟩ h

/-- C72. The colour of three integers from 0 to 255 has these components, and no other colour in range has its text
unless it has these components. -/
theorem integer_components (r g b : ℤ) (hr : 0 ≤ r ∧ r ≤ 255) (hg : 0 ≤ g ∧ g ≤ 255) (hb : 0 ≤ b ∧ b ≤ 255) :
    ∃ c, new [.num (.int r), .num (.int g), .num (.int b)] = .ok c ∧ InRange c ∧ c.redInt = r ∧ c.greenInt = g ∧ c.blueInt = b ∧
      ∀ c', InRange c' → (c'.eq c = true ↔ c'.redInt = r ∧ c'.greenInt = g ∧ c'.blueInt = b) := by
  have ir : IsComponent (.num (.int r)) (r / 255) := Or.inl ⟨r, rfl, hr.1, hr.2, rfl⟩
  have ig : IsComponent (.num (.int g)) (g / 255) := Or.inl ⟨g, rfl, hg.1, hg.2, rfl⟩
  have ib : IsComponent (.num (.int b)) (b / 255) := Or.inl ⟨b, rfl, hb.1, hb.2, rfl⟩
  have hc := ((three_arguments _ _ _ none).1 _ _ _).2 ⟨ir, ig, ib⟩
  have hin : InRange ⟨r / 255, g / 255, b / 255, none⟩ := ⟨isComponent_range ir, isComponent_range ig, isComponent_range ib⟩
  refine ⟨_, hc, hin, toInt_toFloat r, toInt_toFloat g, toInt_toFloat b, fun c' hc' => ?_⟩
  obtain ⟨d, hd⟩ := inRange_digits hin
  obtain ⟨d', hd'⟩ := inRange_digits hc'
  have e1 : (⟨r / 255, g / 255, b / 255, none⟩ : Color).redInt = r := toInt_toFloat r
  have e2 : (⟨r / 255, g / 255, b / 255, none⟩ : Color).greenInt = g := toInt_toFloat g
  have e3 : (⟨r / 255, g / 255, b / 255, none⟩ : Color).blueInt = b := toInt_toFloat b
  unfold Color.eq
  rw [decide_eq_true_eq]
  constructor
  · intro h
    rw [str_digits hd, str_digits hd'] at h
    have := hexText_injective h
    subst this
    exact ⟨hd'.1.trans (e1.symm.trans hd.1).symm, hd'.2.1.trans (e2.symm.trans hd.2.1).symm,
      hd'.2.2.trans (e3.symm.trans hd.2.2).symm⟩
  · rintro ⟨h1, h2, h3⟩
    unfold Color.str
    rw [h1, h2, h3, e1, e2, e3]

/-- C72. A component can be changed to exactly the same values, and the rest of the colour stays. -/
theorem set_component (c : Color) (v : Arg) :
    (∀ c', c.setRed v = .ok c' ↔ ∃ q, IsComponent v q ∧ c' = ⟨q, c.green, c.blue, c.name⟩) ∧
    (∀ c', c.setGreen v = .ok c' ↔ ∃ q, IsComponent v q ∧ c' = ⟨c.red, q, c.blue, c.name⟩) ∧
    (∀ c', c.setBlue v = .ok c' ↔ ∃ q, IsComponent v q ∧ c' = ⟨c.red, c.green, q, c.name⟩) := by
  refine ⟨fun c' => ?_, fun c' => ?_, fun c' => ?_⟩ <;>
  · simp only [Color.setRed, Color.setGreen, Color.setBlue]
    cases hv : checkValue v with
    | error e =>
      constructor
      · intro h; cases h
      · rintro ⟨q, hq, _⟩
        rw [(checkValue_iff _ _).2 hq] at hv; cases hv
    | ok q =>
      constructor
      · intro h; injection h with h; exact ⟨q, (checkValue_iff _ _).1 hv, h.symm⟩
      · rintro ⟨q', hq, rfl⟩
        rw [(checkValue_iff _ _).2 hq] at hv
        injection hv with hv; subst hv; rfl

/-- C72, the texts: a text is accepted exactly when it is `#` and the first two characters that follow, the next two and the last two
stand each for a number, which gives the component; a number has one or two digits, or one digit with a sign or a space. The other texts raise
`ValueError`. -/
theorem text_accepted_partial (t : Text) (name : Option Text) :
    (∀ c, new [.text t] { name := name } = .ok c ↔ ∃ rgb r g b, t = '#' :: rgb ∧ StandsFor (rgb.take 2) r ∧ StandsFor ((rgb.drop 2).take 2) g ∧
      StandsFor (rgb.drop (rgb.length - 2)) b ∧ c = ⟨r / 255, g / 255, b / 255, name⟩) ∧
    (∀ e, new [.text t] { name := name } = .error e → e = .valueError) := by
  have h2 : ∀ l : Text, (l.take 2).length ≤ 2 := fun l => by simp
  have h3 : ∀ l : Text, (l.drop (l.length - 2)).length ≤ 2 := fun l => by simp; omega
  by_cases hh : t.head? = some '#'
  · obtain ⟨rgb, rfl⟩ : ∃ rgb, t = '#' :: rgb := by
      cases t with
      | nil => cases hh
      | cons a l => injection hh with hh; exact ⟨l, by rw [hh]⟩
    have e : new [.text ('#' :: rgb)] { name := name } = (match readComponents rgb with
        | .ok (r, g, b) => .ok ⟨r, g, b, name⟩
        | .error e => .error e) := by
      have : positional [.text ('#' :: rgb)] = readComponents rgb := by simp [positional, Arg.hashText]
      unfold new
      rw [this]
      cases readComponents rgb <;> rfl
    rw [e]
    unfold readComponents
    cases h4 : intBase16 (rgb.take 2) with
    | error e1 =>
      have := intBase16_error _ _ h4
      subst this
      refine ⟨fun c => ⟨fun h => (by cases h), ?_⟩, fun e h => by injection h with h; exact h.symm⟩
      rintro ⟨rgb', r, g, b, h, hr, -⟩
      injection h with _ h; subst h
      rw [(intBase16_iff _ (h2 _) _).2 hr] at h4; cases h4
    | ok r =>
      cases h5 : intBase16 ((rgb.drop 2).take 2) with
      | error e1 =>
        have := intBase16_error _ _ h5
        subst this
        refine ⟨fun c => ⟨fun h => (by cases h), ?_⟩, fun e h => by injection h with h; exact h.symm⟩
        rintro ⟨rgb', r, g, b, h, -, hg, -⟩
        injection h with _ h; subst h
        rw [(intBase16_iff _ (h2 _) _).2 hg] at h5; cases h5
      | ok g =>
        cases h6 : intBase16 (rgb.drop (rgb.length - 2)) with
        | error e1 =>
          have := intBase16_error _ _ h6
          subst this
          refine ⟨fun c => ⟨fun h => (by cases h), ?_⟩, fun e h => by injection h with h; exact h.symm⟩
          rintro ⟨rgb', r, g, b, h, -, -, hb, -⟩
          injection h with _ h; subst h
          rw [(intBase16_iff _ (h3 _) _).2 hb] at h6; cases h6
        | ok b =>
          refine ⟨fun c => ⟨fun h => ?_, ?_⟩, fun e h => by cases h⟩
          · injection h with h
            exact ⟨rgb, r, g, b, rfl, (intBase16_iff _ (h2 _) _).1 h4, (intBase16_iff _ (h2 _) _).1 h5, (intBase16_iff _ (h3 _) _).1 h6, h.symm⟩
          · rintro ⟨rgb', r', g', b', h, hr, hg, hb, rfl⟩
            injection h with _ h; subst h
            rw [(intBase16_iff _ (h2 _) _).2 hr] at h4
            rw [(intBase16_iff _ (h2 _) _).2 hg] at h5
            rw [(intBase16_iff _ (h3 _) _).2 hb] at h6
            cases h4; cases h5; cases h6
            rfl
  · have e : new [.text t] { name := name } = .error .valueError := by
      have : positional [.text t] = .error .valueError := by simp [positional, Arg.hashText, hh]
      unfold new
      rw [this]
      rfl
    rw [e]
    refine ⟨fun c => ⟨fun h => (by cases h), ?_⟩, fun e h => by injection h with h; exact h.symm⟩
    rintro ⟨rgb, r, g, b, rfl, -⟩
    exact absurd rfl hh

/-- C72 fails for texts: whatever stands between the first four digits and the last two is ignored. -/
theorem text_middle_wrong (d : Fin 6 → Fin 16) (c : Fin 6 → Char) (h : ∀ i, IsHex (c i) (d i)) (middle : Text) :
    ∃ col, new [.text ('#' :: c 0 :: c 1 :: c 2 :: c 3 :: (middle ++ [c 4, c 5]))] = .ok col ∧ HasDigits col d := by
  refine ⟨_, ((text_accepted_partial _ none).1 _).2 ⟨_, _, _, 16 * (d 4 : ℤ) + d 5, rfl, .two (h 0) (h 1), .two (h 2) (h 3), ?_, rfl⟩,
    toInt_toFloat _, toInt_toFloat _, toInt_toFloat _⟩
  · have : (c 0 :: c 1 :: c 2 :: c 3 :: (middle ++ [c 4, c 5])).drop ((c 0 :: c 1 :: c 2 :: c 3 :: (middle ++ [c 4, c 5])).length - 2) = [c 4, c 5] := by
      have e : c 0 :: c 1 :: c 2 :: c 3 :: (middle ++ [c 4, c 5]) = (c 0 :: c 1 :: c 2 :: c 3 :: middle) ++ [c 4, c 5] := rfl
      rw [e, List.drop_append_of_le_length (by simp)]
      simp
    rw [this]
    exact .two (h 4) (h 5)

/-- C72 fails for texts: a minus sign before a digit which is not 0 gives a colour with a negative component, that cannot be cloned. -/
theorem text_negative_wrong (x : Fin 16) (a : Char) (d : Fin 6 → Fin 16) (c : Fin 6 → Char) (ha : IsHex a x) (hx : x ≠ 0)
    (h : ∀ i, IsHex (c i) (d i)) :
    ∃ col, new [.text ['#', '-', a, c 2, c 3, c 4, c 5]] = .ok col ∧ col.redInt = -x ∧ ¬ InRange col ∧ col.clone = .error .valueError := by
  have hx' : (0 : ℤ) < (x : ℤ) := by
    have : (x : ℕ) ≠ 0 := fun e => hx (Fin.ext e)
    omega
  have hneg : ((-(x : ℤ) : ℤ) : ℚ) / 255 < 0 := by
    have : ((-(x : ℤ) : ℤ) : ℚ) < 0 := by exact_mod_cast (by omega : -(x : ℤ) < 0)
    linarith [this]
  refine ⟨_, ((text_accepted_partial _ none).1 _).2 ⟨_, _, _, _, rfl, .minus ha, .two (h 2) (h 3), .two (h 4) (h 5), rfl⟩,
    toInt_toFloat _, fun hr => absurd hr.1.1 (not_le.2 hneg), ?_⟩
  refine (three_arguments _ _ _ none).2 ?_
  rintro ⟨r, g, b, h1, -⟩
  rcases h1 with ⟨i, hi, -⟩ | ⟨hq, h0, -⟩
  · cases hi
  · cases hq
    exact absurd h0 (not_le.2 hneg)

/-- C72 fails for texts: some that are not `#` and six digits are accepted, and a component can be negative; the colour
cannot be cloned then. -/
theorem text_wrong :
    (∃ c, new [.text "#-f0000".toList] = .ok c ∧ c.redInt = -15 ∧ c.clone = .error .valueError) ∧
    (∃ c, new [.text "#abc".toList] = .ok c ∧ c.redInt = 171 ∧ c.greenInt = 12 ∧ c.blueInt = 188) ∧
    (∃ c, new [.text "#11223344".toList] = .ok c ∧ c.redInt = 17 ∧ c.greenInt = 34 ∧ c.blueInt = 68) ∧
    (∃ c, new [.text "# 1 2+3".toList] = .ok c ∧ c.redInt = 1 ∧ c.greenInt = 2 ∧ c.blueInt = 3) := by
  refine ⟨⟨⟨-15 / 255, 0, 0, none⟩, ?_⟩, ⟨⟨171 / 255, 12 / 255, 188 / 255, none⟩, ?_⟩,
    ⟨⟨17 / 255, 34 / 255, 68 / 255, none⟩, ?_⟩, ⟨⟨1 / 255, 2 / 255, 3 / 255, none⟩, ?_⟩⟩ <;> decide +kernel

/-- C72. A colour made without a text, and from there with a text of six digits, clones or changed components, is always in
range. -/
inductive Made : Color → Prop
  | text {t d name c} : IsColorText t d → new [.text t] { name := name } = .ok c → Made c
  | three {a b c k col} : new [a, b, c] k = .ok col → Made col
  | nothing {args k col} : args.length ≠ 1 → new args k = .ok col → Made col
  | copy {c c' : Color} {name} : Made c → new [.color c] { name := name } = .ok c' → Made c'
  | clone {c c' : Color} : Made c → c.clone = .ok c' → Made c'
  | setRed {c c' : Color} {v} : Made c → c.setRed v = .ok c' → Made c'
  | setGreen {c c' : Color} {v} : Made c → c.setGreen v = .ok c' → Made c'
  | setBlue {c c' : Color} {v} : Made c → c.setBlue v = .ok c' → Made c'

theorem checkTriple_range {t : Num × Num × Num} {r g b : ℚ} (h : checkTriple t = .ok (r, g, b)) :
    (0 ≤ r ∧ r ≤ 1) ∧ (0 ≤ g ∧ g ≤ 1) ∧ 0 ≤ b ∧ b ≤ 1 := by
  have e : ∀ n q, checkNum n = .ok q → 0 ≤ q ∧ q ≤ 1 := fun n q hn =>
    isComponent_range ((checkValue_iff (.num n) q).1 hn)
  unfold checkTriple at h
  cases h1 : checkNum t.1 with
  | error e => rw [h1] at h; cases h
  | ok r' =>
    cases h2 : checkNum t.2.1 with
    | error e => rw [h1, h2] at h; cases h
    | ok g' =>
      cases h3 : checkNum t.2.2 with
      | error e => rw [h1, h2, h3] at h; cases h
      | ok b' =>
        rw [h1, h2, h3] at h
        injection h with h
        injection h with h h'
        injection h' with h' h''
        subst h h' h''
        exact ⟨e _ _ h1, e _ _ h2, e _ _ h3⟩

theorem keyword_range {k : Kwargs} {r g b : ℚ} (h : keyword k = .ok (some (r, g, b))) :
    (0 ≤ r ∧ r ≤ 1) ∧ (0 ≤ g ∧ g ≤ 1) ∧ 0 ≤ b ∧ b ≤ 1 := by
  unfold keyword at h
  split at h
  · cases h
  · cases hs : required k.saturation with
    | error e => rw [hs] at h; cases h
    | ok s =>
      rw [hs] at h
      simp only [bind, Except.bind, pure, Except.pure] at h
      split at h
      · cases h
      · rename_i x hx
        injection h with h; injection h with h; subst h
        exact checkTriple_range hx
  · cases hs : required k.saturation with
    | error e => rw [hs] at h; cases h
    | ok s =>
      rw [hs] at h
      simp only [bind, Except.bind, pure, Except.pure] at h
      split at h
      · cases h
      · rename_i x hx
        injection h with h; injection h with h; subst h
        exact checkTriple_range hx
  · cases h

theorem new_range {args : List Arg} {k : Kwargs} {c : Color} (h : new args k = .ok c)
    (hp : ∀ r g b, positional args = .ok (r, g, b) → (0 ≤ r ∧ r ≤ 1) ∧ (0 ≤ g ∧ g ≤ 1) ∧ 0 ≤ b ∧ b ≤ 1) : InRange c := by
  unfold new at h
  simp only [bind, Except.bind, pure, Except.pure] at h
  split at h
  · cases h
  · rename_i rgb hrgb
    split at h
    · cases h
    · rename_i kw hkw
      injection h with h
      subst h
      cases kw with
      | none => exact hp _ _ _ hrgb
      | some kw => exact keyword_range hkw

theorem positional_range {args : List Arg} (hl : args.length ≠ 1) {r g b : ℚ} (h : positional args = .ok (r, g, b)) :
    (0 ≤ r ∧ r ≤ 1) ∧ (0 ≤ g ∧ g ≤ 1) ∧ 0 ≤ b ∧ b ≤ 1 := by
  unfold positional at h
  split at h
  · exact absurd rfl hl
  · rename_i a b' c
    simp only [bind, Except.bind, pure, Except.pure] at h
    split at h
    · cases h
    · rename_i r' hr
      split at h
      · cases h
      · rename_i g' hg
        split at h
        · cases h
        · rename_i b'' hb
          injection h with h
          injection h with h h'
          injection h' with h' h''
          subst h h' h''
          exact ⟨isComponent_range ((checkValue_iff _ _).1 hr), isComponent_range ((checkValue_iff _ _).1 hg),
            isComponent_range ((checkValue_iff _ _).1 hb)⟩
  · injection h with h
    injection h with h h'
    injection h' with h' h''
    subst h h' h''
    norm_num

/-- Reading the text of a colour in range. -/
theorem new_color {c : Color} (h : InRange c) (name : Option Text) :
    ∃ c', new [.color c] { name := name } = .ok c' ∧ c'.str = c.str ∧ c'.name = name ∧ InRange c' := by
  obtain ⟨d, hd⟩ := inRange_digits h
  have ht : IsColorText c.str d := by rw [str_digits hd]; exact hexText_isColorText d
  have e : new [.color c] { name := name } = new [.text c.str] { name := name } := by
    unfold new
    have : positional [.color c] = positional [.text c.str] := by
      have h1 : (Arg.color c).hashText = some c.str := rfl
      have h2 : (Arg.text c.str).hashText = some c.str := rfl
      simp only [positional, h1, h2]
    rw [this]
  rw [e]
  obtain ⟨c', h1, h2, h3, h4⟩ := text_read c.str d ht
  have h1' := new_text ht none
  have h5 := new_text ht name
  rw [h1] at h1'
  injection h1' with h1'
  subst h1'
  refine ⟨_, h5, ?_, rfl, h3⟩
  rw [str_digits hd, ← h4]
  rfl

/-- C72. The components of a colour are between 0 and 1 as long as no text with a sign was read. -/
theorem components_in_range {c : Color} (h : Made c) : InRange c := by
  induction h with
  | @text t d name c ht hc =>
    obtain ⟨c', h1, _, h3, _⟩ := text_read t d ht
    have h1' := new_text ht none
    rw [h1] at h1'
    injection h1' with h1'
    rw [new_text ht name] at hc
    injection hc with hc
    subst hc h1'
    exact h3
  | three hc => exact new_range hc fun r g b hp => positional_range (by simp) hp
  | nothing hl hc => exact new_range hc fun r g b hp => positional_range hl hp
  | @copy c c' name _ hc ih =>
    obtain ⟨c'', h1, _, _, h4⟩ := new_color ih name
    rw [h1] at hc
    injection hc with hc
    exact hc ▸ h4
  | clone _ hc ih => exact new_range hc fun r g b hp => positional_range (by simp) hp
  | @setRed c c' v _ hc ih =>
    obtain ⟨q, hq, rfl⟩ := ((set_component c v).1 c').1 hc
    exact ⟨isComponent_range hq, ih.2⟩
  | @setGreen c c' v _ hc ih =>
    obtain ⟨q, hq, rfl⟩ := ((set_component c v).2.1 c').1 hc
    exact ⟨ih.1, isComponent_range hq, ih.2.2⟩
  | @setBlue c c' v _ hc ih =>
    obtain ⟨q, hq, rfl⟩ := ((set_component c v).2.2 c').1 hc
    exact ⟨ih.1, ih.2.1, isComponent_range hq⟩

example : new [.text "#Ff8000".toList] = .ok ⟨1, 128 / 255, 0, none⟩ ∧
    (⟨1, 128 / 255, 0, none⟩ : Color).str = "#ff8000".toList ∧
    new [.num (.int 256), .num (.int 0), .num (.int 0)] = .error .valueError ∧
    new [.num (.flt (1 / 2)), .num (.int 51), .num (.flt 0)] = .ok ⟨1 / 2, 1 / 5, 0, none⟩ := by decide +kernel

/-! ## C123 -/

/-- C123. A clone has the same components and the same name. -/
theorem clone_same (c : Color) (h : InRange c) : c.clone = .ok c :=
  ((three_arguments _ _ _ c.name).1 _ _ _).2
    ⟨Or.inr ⟨rfl, h.1⟩, Or.inr ⟨rfl, h.2.1⟩, Or.inr ⟨rfl, h.2.2⟩⟩

/-- C123. A colour made from a colour is equal to it, but has lost its name; the components are rounded down to
multiples of 1/255. -/
theorem copy_partial (c : Color) (h : InRange c) :
    ∃ c', new [.color c] = .ok c' ∧ c'.eq c = true ∧ c'.name = none ∧
      c'.redInt = c.redInt ∧ c'.greenInt = c.greenInt ∧ c'.blueInt = c.blueInt := by
  obtain ⟨c', h1, h2, h3, h4⟩ := new_color h none
  obtain ⟨d, hd⟩ := inRange_digits h
  obtain ⟨d', hd'⟩ := inRange_digits h4
  have : d' = d := hexText_injective (by rw [← str_digits hd, ← str_digits hd', h2])
  subst this
  refine ⟨c', h1, ?_, h3, hd'.1.trans hd.1.symm, hd'.2.1.trans hd.2.1.symm, hd'.2.2.trans hd.2.2.symm⟩
  unfold Color.eq
  rw [decide_eq_true_eq, h2]

theorem new_color_eq {c : Color} (h : InRange c) (name : Option Text) :
    new [.color c] { name := name } = .ok ⟨toFloat c.redInt, toFloat c.greenInt, toFloat c.blueInt, name⟩ := by
  obtain ⟨d, hd⟩ := inRange_digits h
  have ht : IsColorText c.str d := by rw [str_digits hd]; exact hexText_isColorText d
  have e : new [.color c] { name := name } = new [.text c.str] { name := name } := by
    unfold new
    have : positional [.color c] = positional [.text c.str] := by
      have h1 : (Arg.color c).hashText = some c.str := rfl
      have h2 : (Arg.text c.str).hashText = some c.str := rfl
      simp only [positional, h1, h2]
    rw [this]
  rw [e, new_text ht name, hd.1, hd.2.1, hd.2.2]

/-- C123 fails: a colour made from a colour has its components and its name exactly when the components are multiples of 1/255 and there is
no name. -/
theorem copy_wrong (c : Color) (h : InRange c) :
    new [.color c] = .ok c ↔ c.name = none ∧ (∃ n : ℤ, c.red = n / 255) ∧ (∃ n : ℤ, c.green = n / 255) ∧ ∃ n : ℤ, c.blue = n / 255 := by
  rw [new_color_eq h none]
  have key : ∀ x : ℚ, 0 ≤ x ∧ x ≤ 1 → (toFloat (toInt x) = x ↔ ∃ n : ℤ, x = n / 255) := by
    rintro x ⟨h0, h1⟩
    constructor
    · intro e
      exact ⟨toInt x, e.symm⟩
    · rintro ⟨n, rfl⟩
      rw [show ((n : ℚ) / 255) = toFloat n from rfl, toInt_toFloat]
  obtain ⟨r, g, b, n⟩ := c
  simp only [Color.redInt, Color.greenInt, Color.blueInt, Except.ok.injEq, Color.mk.injEq]
  rw [key r h.1, key g h.2.1, key b h.2.2]
  constructor
  · rintro ⟨h1, h2, h3, h4⟩; exact ⟨h4.symm, h1, h2, h3⟩
  · rintro ⟨h1, h2, h3, h4⟩; exact ⟨h2, h3, h4, h1.symm⟩

example : InRange ⟨1 / 2, 0, 0, some "half".toList⟩ ∧
    new [.color ⟨1 / 2, 0, 0, some "half".toList⟩] = .ok ⟨127 / 255, 0, 0, none⟩ := by
  unfold InRange
  decide +kernel

/-- C123. Two colours in range are equal exactly when their integer components are; equality is an equivalence. -/
theorem eq_iff (c d : Color) (hc : InRange c) (hd : InRange d) :
    (c.eq d = true ↔ c.redInt = d.redInt ∧ c.greenInt = d.greenInt ∧ c.blueInt = d.blueInt) ∧ c.eq c = true ∧ c.eq d = d.eq c := by
  obtain ⟨x, hx⟩ := inRange_digits hc
  obtain ⟨y, hy⟩ := inRange_digits hd
  refine ⟨⟨fun h => ?_, fun h => ?_⟩, by simp [Color.eq], by unfold Color.eq; rw [decide_eq_decide]; exact eq_comm⟩
  · unfold Color.eq at h
    rw [decide_eq_true_eq, str_digits hx, str_digits hy] at h
    have := hexText_injective h
    subst this
    exact ⟨hx.1.trans hy.1.symm, hx.2.1.trans hy.2.1.symm, hx.2.2.trans hy.2.2.symm⟩
  · unfold Color.eq Color.str
    rw [decide_eq_true_eq, h.1, h.2.1, h.2.2]

/-! ## C124 -/

/-- C124. A colour made from the hue, value and saturation of a colour in range, given as floats, has its components. -/
theorem hsv_round_trip (c : Color) (h : InRange c) :
    new [] { hue := some (.flt c.hsv.1), saturation := some (.flt c.hsv.2.1), value := some (.flt c.hsv.2.2), name := c.name } =
      .ok c := by
  have key : hsvToRgb (.flt c.hsv.1) (.flt c.hsv.2.1) (.flt c.hsv.2.2) = (.flt c.red, .flt c.green, .flt c.blue) := by
    unfold Color.hsv rgbToHsv
    simp only
    by_cases e : min (min c.red c.green) c.blue = max (max c.red c.green) c.blue
    · rw [if_pos e]
      have hr : c.red = max (max c.red c.green) c.blue := le_antisymm ((le_max_left _ _).trans (le_max_left _ _))
        (e ▸ (min_le_left _ _).trans (min_le_left _ _))
      have hg : c.green = max (max c.red c.green) c.blue := le_antisymm ((le_max_right _ _).trans (le_max_left _ _))
        (e ▸ (min_le_left _ _).trans (min_le_right _ _))
      have hb : c.blue = max (max c.red c.green) c.blue := le_antisymm (le_max_right _ _) (e ▸ min_le_right _ _)
      unfold hsvToRgb
      rw [if_pos (by rfl), ← hr, ← hr.trans hb.symm, ← hr.trans hg.symm]
    · rw [if_neg e]
      have hm0 : 0 ≤ min (min c.red c.green) c.blue := le_min (le_min h.1.1 h.2.1.1) h.2.2.1
      have hle : min (min c.red c.green) c.blue ≤ max (max c.red c.green) c.blue :=
        (min_le_right _ _).trans (le_max_right _ _)
      have hlt := lt_of_le_of_ne hle e
      have hM : max (max c.red c.green) c.blue ≠ 0 := by linarith
      refine hsvToRgb_sector (m := min (min c.red c.green) c.blue) ?_ ?_ (hueOf_sector _ _ _ _ _ rfl rfl e)
      · exact div_ne_zero (by linarith) hM
      · field_simp
  unfold new
  simp only [positional, keyword, required, bind, Except.bind, pure, Except.pure, key, checkTriple, checkNum]
  rw [if_pos h.1, if_pos h.2.1, if_pos h.2.2]
  rfl

/-- C124. A colour made from the hue, lightness and saturation of a colour in range, given as floats, has its
components. -/
theorem hls_round_trip (c : Color) (h : InRange c) :
    new [] { hue := some (.flt c.hls.1), light := some (.flt c.hls.2.1), saturation := some (.flt c.hls.2.2), name := c.name } =
      .ok c := by
  have key : hlsToRgb (.flt c.hls.1) (.flt c.hls.2.1) (.flt c.hls.2.2) = (.flt c.red, .flt c.green, .flt c.blue) := by
    unfold Color.hls rgbToHls
    simp only
    have hm0 : 0 ≤ min (min c.red c.green) c.blue := le_min (le_min h.1.1 h.2.1.1) h.2.2.1
    have hM1 : max (max c.red c.green) c.blue ≤ 1 := max_le (max_le h.1.2 h.2.1.2) h.2.2.2
    by_cases e : min (min c.red c.green) c.blue = max (max c.red c.green) c.blue
    · rw [if_pos e]
      have hr : c.red = max (max c.red c.green) c.blue := le_antisymm ((le_max_left _ _).trans (le_max_left _ _))
        (e ▸ (min_le_left _ _).trans (min_le_left _ _))
      have hg : c.green = max (max c.red c.green) c.blue := le_antisymm ((le_max_right _ _).trans (le_max_left _ _))
        (e ▸ (min_le_left _ _).trans (min_le_right _ _))
      have hb : c.blue = max (max c.red c.green) c.blue := le_antisymm (le_max_right _ _) (e ▸ min_le_right _ _)
      unfold hlsToRgb
      rw [if_pos (by rfl), e, add_self_div_two]
      rw [← hr, ← hr.trans hb.symm, ← hr.trans hg.symm]
    · rw [if_neg e]
      have hle : min (min c.red c.green) c.blue ≤ max (max c.red c.green) c.blue :=
        (min_le_right _ _).trans (le_max_right _ _)
      have hlt := lt_of_le_of_ne hle e
      obtain ⟨s1, s2, s3⟩ := hlsV_sector (hueOf_sector _ _ _ _ _ rfl rfl e)
      generalize hM : max (max c.red c.green) c.blue = M at *
      generalize hm : min (min c.red c.green) c.blue = m at *
      by_cases hl : (m + M) / 2 ≤ 1 / 2
      · rw [if_pos hl]
        have hs : ¬ (M - m) / (M + m) = 0 := div_ne_zero (by linarith) (by linarith)
        have hne : M + m ≠ 0 := by linarith
        rw [hlsToRgb_low hs hl, show (m + M) / 2 * (1 + (M - m) / (M + m)) = M by field_simp; ring, show 2 * ((m + M) / 2) - M = m by ring, s1, s2, s3]
      · rw [if_neg hl]
        have hs : ¬ (M - m) / (2 - M - m) = 0 := div_ne_zero (by linarith) (by linarith)
        have hne : 2 - M - m ≠ 0 := by linarith
        rw [hlsToRgb_high hs hl, show (m + M) / 2 + (M - m) / (2 - M - m) - (m + M) / 2 * ((M - m) / (2 - M - m)) = M by field_simp; ring,
          show 2 * ((m + M) / 2) - M = m by ring, s1, s2, s3]
  unfold new
  simp only [positional, keyword, required, bind, Except.bind, pure, Except.pure, key, checkTriple, checkNum]
  rw [if_pos h.1, if_pos h.2.1, if_pos h.2.2]
  rfl

/-- C124. Every hue, saturation and value given as floats between 0 and 1 makes a colour; its greatest component is the
value and its least one the value times one minus the saturation. -/
theorem hsv_accepted (h s v : ℚ) (hh : 0 ≤ h ∧ h < 1) (hs : 0 ≤ s ∧ s ≤ 1) (hv : 0 ≤ v ∧ v ≤ 1) :
    ∃ c, new [] { hue := some (.flt h), saturation := some (.flt s), value := some (.flt v) } = .ok c ∧ InRange c ∧
      max (max c.red c.green) c.blue = v ∧ min (min c.red c.green) c.blue = v * (1 - s) := by
  have main : ∀ r g b, hsvToRgb (.flt h) (.flt s) (.flt v) = (.flt r, .flt g, .flt b) → max (max r g) b = v →
      min (min r g) b = v * (1 - s) →
      ∃ c, new [] { hue := some (.flt h), saturation := some (.flt s), value := some (.flt v) } = .ok c ∧ InRange c ∧
        max (max c.red c.green) c.blue = v ∧ min (min c.red c.green) c.blue = v * (1 - s) := by
    intro r g b e hM hm
    have m0 : 0 ≤ min (min r g) b := hm ▸ mul_nonneg hv.1 (by linarith)
    have M1 : max (max r g) b ≤ 1 := hM ▸ hv.2
    have hr : 0 ≤ r ∧ r ≤ 1 := ⟨m0.trans ((min_le_left _ _).trans (min_le_left _ _)),
      ((le_max_left _ _).trans (le_max_left _ _)).trans M1⟩
    have hg : 0 ≤ g ∧ g ≤ 1 := ⟨m0.trans ((min_le_left _ _).trans (min_le_right _ _)),
      ((le_max_right _ _).trans (le_max_left _ _)).trans M1⟩
    have hb : 0 ≤ b ∧ b ≤ 1 := ⟨m0.trans (min_le_right _ _), (le_max_right _ _).trans M1⟩
    refine ⟨⟨r, g, b, none⟩, ?_, ⟨hr, hg, hb⟩, hM, hm⟩
    unfold new
    simp only [positional, keyword, required, bind, Except.bind, pure, Except.pure, e, checkTriple, checkNum]
    rw [if_pos hr, if_pos hg, if_pos hb]
    rfl
  by_cases s0 : s = 0
  · subst s0
    refine main v v v ?_ (by simp) (by simp)
    unfold hsvToRgb; rw [if_pos (by rfl)]
  · obtain ⟨r, g, b, hX⟩ := sector_exists v (v * (1 - s)) (h * 6) (by linarith) (by linarith)
    have hle : v * (1 - s) ≤ v := by nlinarith [mul_nonneg hv.1 hs.1]
    obtain ⟨hM, hm⟩ := sector_bounds hX hle
    exact main r g b (hsvToRgb_sector s0 (by ring) hX) hM hm

/-- C124. Every hue, lightness and saturation given as floats between 0 and 1 makes a colour; the lightness is the mean of
its least and greatest components. -/
theorem hls_accepted (h l s : ℚ) (hh : 0 ≤ h ∧ h < 1) (hl : 0 ≤ l ∧ l ≤ 1) (hs : 0 ≤ s ∧ s ≤ 1) :
    ∃ c, new [] { hue := some (.flt h), light := some (.flt l), saturation := some (.flt s) } = .ok c ∧ InRange c ∧
      (max (max c.red c.green) c.blue + min (min c.red c.green) c.blue) / 2 = l := by
  have main : ∀ r g b M m, hlsToRgb (.flt h) (.flt l) (.flt s) = (.flt r, .flt g, .flt b) → max (max r g) b = M →
      min (min r g) b = m → 0 ≤ m → M ≤ 1 → M + m = 2 * l →
      ∃ c, new [] { hue := some (.flt h), light := some (.flt l), saturation := some (.flt s) } = .ok c ∧ InRange c ∧
        (max (max c.red c.green) c.blue + min (min c.red c.green) c.blue) / 2 = l := by
    intro r g b M m e hM hm m0 M1 hsum
    subst hM hm
    have hr : 0 ≤ r ∧ r ≤ 1 := ⟨m0.trans ((min_le_left _ _).trans (min_le_left _ _)),
      ((le_max_left _ _).trans (le_max_left _ _)).trans M1⟩
    have hg : 0 ≤ g ∧ g ≤ 1 := ⟨m0.trans ((min_le_left _ _).trans (min_le_right _ _)),
      ((le_max_right _ _).trans (le_max_left _ _)).trans M1⟩
    have hb : 0 ≤ b ∧ b ≤ 1 := ⟨m0.trans (min_le_right _ _), (le_max_right _ _).trans M1⟩
    refine ⟨⟨r, g, b, none⟩, ?_, ⟨hr, hg, hb⟩, by show (max (max r g) b + min (min r g) b) / 2 = l; linarith⟩
    unfold new
    simp only [positional, keyword, required, bind, Except.bind, pure, Except.pure, e, checkTriple, checkNum]
    rw [if_pos hr, if_pos hg, if_pos hb]
    rfl
  by_cases s0 : s = 0
  · subst s0
    refine main l l l l l ?_ (by simp) (by simp) hl.1 hl.2 (by ring)
    unfold hlsToRgb; rw [if_pos (by rfl)]
  · by_cases hl2 : l ≤ 1 / 2
    · obtain ⟨r, g, b, hX⟩ := sector_exists (l * (1 + s)) (2 * l - l * (1 + s)) (h * 6) (by linarith) (by linarith)
      have hle : 2 * l - l * (1 + s) ≤ l * (1 + s) := by nlinarith [mul_nonneg hl.1 hs.1]
      obtain ⟨hM, hm⟩ := sector_bounds hX hle
      obtain ⟨s1, s2, s3⟩ := hlsV_sector hX
      refine main r g b _ _ ?_ hM hm (by nlinarith) (by nlinarith) (by ring)
      rw [hlsToRgb_low s0 hl2, s1, s2, s3]
    · obtain ⟨r, g, b, hX⟩ := sector_exists (l + s - l * s) (2 * l - (l + s - l * s)) (h * 6) (by linarith) (by linarith)
      have hle : 2 * l - (l + s - l * s) ≤ l + s - l * s := by nlinarith [mul_nonneg hs.1 (sub_nonneg.2 hl.2)]
      obtain ⟨hM, hm⟩ := sector_bounds hX hle
      obtain ⟨s1, s2, s3⟩ := hlsV_sector hX
      refine main r g b _ _ ?_ hM hm (by nlinarith) (by nlinarith) (by ring)
      rw [hlsToRgb_high s0 hl2, s1, s2, s3]

/-- C124 fails for integers: the value 1, and the light 1 without saturation, are then taken as 1/255. White comes out nearly black for every
hue, and so does the strongest component of every colour of value 1. -/
theorem hue_wrong (h s : Num) :
    (s.val = 0 → new [] { hue := some h, value := some (.int 1), saturation := some s } = .ok ⟨1 / 255, 1 / 255, 1 / 255, none⟩ ∧
      new [] { hue := some h, light := some (.int 1), saturation := some s } = .ok ⟨1 / 255, 1 / 255, 1 / 255, none⟩) ∧
    (0 < s.val → s.val ≤ 1 → 0 ≤ h.val → ∃ c, new [] { hue := some h, value := some (.int 1), saturation := some s } = .ok c ∧
      (c.red = 1 / 255 ∨ c.green = 1 / 255 ∨ c.blue = 1 / 255)) := by
  have c1 : checkNum (.int 1) = .ok (1 / 255) := by decide +kernel
  have c2 : ∀ x : ℚ, 0 ≤ x → x ≤ 1 → checkNum (.flt x) = .ok x := by
    intro x h0 h1
    simp [checkNum, h0, h1]
  obtain ⟨rgb, hp⟩ : ∃ rgb, positional [] = .ok rgb := ⟨_, rfl⟩
  have hnew : ∀ a b c r g bl, hsvToRgb h s (.int 1) = (a, b, c) → checkNum a = .ok r → checkNum b = .ok g → checkNum c = .ok bl →
      new [] { hue := some h, value := some (.int 1), saturation := some s } = .ok ⟨r, g, bl, none⟩ := by
    intro a b c r g bl h1 h2 h3 h4
    unfold new keyword required
    rw [hp]
    dsimp only
    simp only [bind, Except.bind, pure, Except.pure, h1, checkTriple, h2, h3, h4, Option.getD_some]
  have hnew' : ∀ a b c r g bl, hlsToRgb h (.int 1) s = (a, b, c) → checkNum a = .ok r → checkNum b = .ok g → checkNum c = .ok bl →
      new [] { hue := some h, light := some (.int 1), saturation := some s } = .ok ⟨r, g, bl, none⟩ := by
    intro a b c r g bl h1 h2 h3 h4
    unfold new keyword required
    rw [hp]
    dsimp only
    simp only [bind, Except.bind, pure, Except.pure, h1, checkTriple, h2, h3, h4, Option.getD_some]
  refine ⟨fun hs => ⟨?_, ?_⟩, fun hs0 hs1 hh => ?_⟩
  · exact hnew _ _ _ _ _ _ (by unfold hsvToRgb; rw [if_pos hs]) c1 c1 c1
  · exact hnew' _ _ _ _ _ _ (by unfold hlsToRgb; rw [if_pos hs]) c1 c1 c1
  · have e1 : (Num.int 1).val = 1 := by norm_num [Num.val]
    have hf : 0 ≤ h.val * 6 - trunc (h.val * 6) ∧ h.val * 6 - trunc (h.val * 6) ≤ 1 := by
      have h6 : 0 ≤ h.val * 6 := by linarith
      have et : trunc (h.val * 6) = ⌊h.val * 6⌋ := if_pos h6
      rw [et]
      exact ⟨sub_nonneg.2 (Int.floor_le _), by linarith [Int.lt_floor_add_one (h.val * 6)]⟩
    generalize hfe : h.val * 6 - trunc (h.val * 6) = f at hf
    obtain ⟨hf0, hf1⟩ := hf
    have hpc := c2 (1 * (1 - s.val)) (by linarith) (by linarith)
    have hqc := c2 (1 * (1 - s.val * f)) (by nlinarith) (by nlinarith)
    have htc := c2 (1 * (1 - s.val * (1 - f))) (by nlinarith) (by nlinarith)
    have hrgb : hsvToRgb h s (.int 1) = if trunc (h.val * 6) % 6 = 0 then (.int 1, .flt (1 * (1 - s.val * (1 - f))), .flt (1 * (1 - s.val)))
        else if trunc (h.val * 6) % 6 = 1 then (.flt (1 * (1 - s.val * f)), .int 1, .flt (1 * (1 - s.val)))
        else if trunc (h.val * 6) % 6 = 2 then (.flt (1 * (1 - s.val)), .int 1, .flt (1 * (1 - s.val * (1 - f))))
        else if trunc (h.val * 6) % 6 = 3 then (.flt (1 * (1 - s.val)), .flt (1 * (1 - s.val * f)), .int 1)
        else if trunc (h.val * 6) % 6 = 4 then (.flt (1 * (1 - s.val * (1 - f))), .flt (1 * (1 - s.val)), .int 1)
        else (.int 1, .flt (1 * (1 - s.val)), .flt (1 * (1 - s.val * f))) := by
      unfold hsvToRgb
      rw [if_neg hs0.ne']
      dsimp only
      rw [hfe, e1]
    split at hrgb
    · exact ⟨_, hnew _ _ _ _ _ _ hrgb c1 htc hpc, Or.inl rfl⟩
    split at hrgb
    · exact ⟨_, hnew _ _ _ _ _ _ hrgb hqc c1 hpc, Or.inr (Or.inl rfl)⟩
    split at hrgb
    · exact ⟨_, hnew _ _ _ _ _ _ hrgb hpc c1 htc, Or.inr (Or.inl rfl)⟩
    split at hrgb
    · exact ⟨_, hnew _ _ _ _ _ _ hrgb hpc hqc c1, Or.inr (Or.inr rfl)⟩
    split at hrgb
    · exact ⟨_, hnew _ _ _ _ _ _ hrgb htc hpc c1, Or.inr (Or.inr rfl)⟩
    · exact ⟨_, hnew _ _ _ _ _ _ hrgb c1 hpc hqc, Or.inl rfl⟩

/-- White and red. -/
example : (∃ c, new [] { hue := some (.int 0), value := some (.int 1), saturation := some (.int 0) } = .ok c ∧ c.str = "#010101".toList) ∧
    (∃ c, new [] { hue := some (.int 0), value := some (.int 1), saturation := some (.int 1) } = .ok c ∧ c.str = "#010000".toList) := by
  refine ⟨⟨⟨1 / 255, 1 / 255, 1 / 255, none⟩, ?_⟩, ⟨⟨1 / 255, 0, 0, none⟩, ?_⟩⟩ <;> decide +kernel

/-- C124 fails for the integer light 1, which is white for every hue and saturation: with an integer saturation which is not zero one component, chosen
by the hue, is 1/255. -/
theorem light_integer_wrong (h : ℚ) (s : ℤ) (hh : 0 ≤ h ∧ h < 1) (hs : s ≠ 0) :
    new [] { hue := some (.flt h), light := some (.int 1), saturation := some (.int s) } =
      .ok (if h < 1 / 6 ∨ 5 / 6 ≤ h then ⟨1 / 255, 1, 1, none⟩ else if h < 1 / 2 then ⟨1, 1 / 255, 1, none⟩ else ⟨1, 1, 1 / 255, none⟩) := by
  have key : ∀ (k : ℤ) (x : ℚ), (k : ℚ) ≤ x → x < k + 1 →
      hlsV 1 (.int 1) x = if 1 / 6 ≤ x - k ∧ x - k < 1 / 2 then .int 1 else .flt 1 := by
    intro k x h0 h1
    unfold hlsV
    rw [mod1_eq k h0 h1]
    dsimp only
    have e : (Num.int 1).val = 1 := by norm_num [Num.val]
    rw [e]
    by_cases c1 : x - k < 1 / 6
    · rw [if_pos c1, if_neg (by rintro ⟨h, -⟩; linarith)]; norm_num
    · rw [if_neg c1]
      by_cases c2 : x - k < 1 / 2
      · rw [if_pos c2, if_pos ⟨not_lt.1 c1, c2⟩]
      · rw [if_neg c2]
        have hno : ¬ (1 / 6 ≤ x - k ∧ x - k < 1 / 2) := fun h => c2 h.2
        rw [if_neg hno]
        split
        · norm_num
        · rfl
  have hl : ¬ (Num.int 1).val ≤ 1 / 2 := by norm_num [Num.val]
  have hs' : (Num.int s).val ≠ 0 := by simpa [Num.val] using hs
  have hrgb : hlsToRgb (.flt h) (.int 1) (.int s) = (hlsV 1 (.int 1) (h + 1 / 3), hlsV 1 (.int 1) h, hlsV 1 (.int 1) (h - 1 / 3)) := by
    unfold hlsToRgb
    rw [if_neg hs', if_neg hl]
    have e : hlsM2 (.int 1) (.int s) = .int 1 := by simp [hlsM2]
    rw [e]
    norm_num [Num.val]
  have c1 : checkNum (.int 1) = .ok (1 / 255) := by decide +kernel
  have c2 : checkNum (.flt 1) = .ok 1 := by decide +kernel
  obtain ⟨rgb, hp⟩ : ∃ rgb, positional [] = .ok rgb := ⟨_, rfl⟩
  have hnew : ∀ a b c r g bl, hlsToRgb (.flt h) (.int 1) (.int s) = (a, b, c) → checkNum a = .ok r → checkNum b = .ok g → checkNum c = .ok bl →
      new [] { hue := some (.flt h), light := some (.int 1), saturation := some (.int s) } = .ok ⟨r, g, bl, none⟩ := by
    intro a b c r g bl h1 h2 h3 h4
    unfold new keyword required
    rw [hp]
    dsimp only
    simp only [bind, Except.bind, pure, Except.pure, h1, checkTriple, h2, h3, h4, Option.getD_some]
  rw [key 0 h (by simpa using hh.1) (by simpa using hh.2)] at hrgb
  by_cases a1 : h < 1 / 6 ∨ 5 / 6 ≤ h
  · rw [if_pos a1]
    rcases a1 with a1 | a1
    · rw [key 0 (h + 1 / 3) (by push_cast; linarith) (by push_cast; linarith), key (-1) (h - 1 / 3) (by push_cast; linarith) (by push_cast; linarith),
        if_pos ⟨by push_cast; linarith, by push_cast; linarith⟩, if_neg (by push_cast; rintro ⟨b1, b2⟩; linarith),
        if_neg (by push_cast; rintro ⟨b1, b2⟩; linarith)] at hrgb
      exact hnew _ _ _ _ _ _ hrgb c1 c2 c2
    · rw [key 1 (h + 1 / 3) (by push_cast; linarith) (by push_cast; linarith), key 0 (h - 1 / 3) (by push_cast; linarith) (by push_cast; linarith),
        if_pos ⟨by push_cast; linarith, by push_cast; linarith⟩, if_neg (by push_cast; rintro ⟨b1, b2⟩; linarith),
        if_neg (by push_cast; rintro ⟨b1, b2⟩; linarith)] at hrgb
      exact hnew _ _ _ _ _ _ hrgb c1 c2 c2
  · rw [if_neg a1]
    push Not at a1
    by_cases a2 : h < 1 / 2
    · rw [if_pos a2]
      rw [key 0 (h + 1 / 3) (by push_cast; linarith) (by push_cast; linarith), if_neg (by push_cast; rintro ⟨b1, b2⟩; linarith),
        if_pos ⟨by push_cast; linarith, by push_cast; linarith⟩] at hrgb
      have h3 : hlsV 1 (.int 1) (h - 1 / 3) = .flt 1 := by
        rcases lt_or_ge h (1 / 3) with h3 | h3
        · rw [key (-1) _ (by push_cast; linarith) (by push_cast; linarith), if_neg (by push_cast; rintro ⟨b1, b2⟩; linarith)]
        · rw [key 0 _ (by push_cast; linarith) (by push_cast; linarith), if_neg (by push_cast; rintro ⟨b1, b2⟩; linarith)]
      rw [h3] at hrgb
      exact hnew _ _ _ _ _ _ hrgb c2 c1 c2
    · rw [if_neg a2]
      rw [key 0 (h - 1 / 3) (by push_cast; linarith) (by push_cast; linarith), if_neg (by push_cast; rintro ⟨b1, b2⟩; linarith)] at hrgb
      have h3 : hlsV 1 (.int 1) (h + 1 / 3) = .flt 1 := by
        rcases lt_or_ge h (2 / 3) with h3 | h3
        · rw [key 0 _ (by push_cast; linarith) (by push_cast; linarith), if_neg (by push_cast; rintro ⟨b1, b2⟩; linarith)]
        · rw [key 1 _ (by push_cast; linarith) (by push_cast; linarith), if_neg (by push_cast; rintro ⟨b1, b2⟩; linarith)]
      rw [h3, if_pos ⟨by push_cast; linarith, by push_cast; linarith⟩] at hrgb
      exact hnew _ _ _ _ _ _ hrgb c2 c2 c1

/-- C124. A hue without light nor value, or without saturation, is refused. -/
theorem hue_missing (h : Num) (l v s : Option Num) (args : List Arg) (hok : ∃ rgb, positional args = .ok rgb) :
    new args { hue := some h, saturation := s } = .error .valueError ∧
    (l.isSome ∨ v.isSome → new args { hue := some h, light := l, value := v } = .error .keyError) := by
  obtain ⟨rgb, hok⟩ := hok
  constructor
  · unfold new; rw [hok]; rfl
  · intro hlv
    unfold new; rw [hok]
    cases l with
    | some l => rfl
    | none =>
      cases v with
      | some v => rfl
      | none => simp at hlv

example : InRange ⟨1 / 5, 2 / 5, 3 / 5, none⟩ ∧ (⟨1 / 5, 2 / 5, 3 / 5, none⟩ : Color).hsv = (7 / 12, 2 / 3, 3 / 5) ∧
    (⟨1 / 5, 2 / 5, 3 / 5, none⟩ : Color).hls = (7 / 12, 2 / 5, 1 / 2) := by
  unfold InRange; decide +kernel

/-! ## C73 -/

/-- C73. When the sets of colours are loaded, each name, with underscores instead of spaces, gets the colour of its first
definition, whatever the later ones. -/
theorem load_first (sets : List (List (Text × Text))) (h : ∀ item ∈ sets.flatten, ∃ d, IsColorText item.2 d) :
    ∃ db, DataBase.load [] sets = .ok db ∧ ∀ name,
      match firstDefinition sets.flatten name with
      | none => db.get? name = none
      | some t => ∃ c d, db.get? name = some c ∧ IsColorText t d ∧ HasDigits c d ∧ c.name = some name := by
  have step : ∀ (items : List (Text × Text)) (db : DataBase), (∀ item ∈ items, ∃ d, IsColorText item.2 d) →
      ∃ db', items.foldlM DataBase.loadOne db = .ok db' ∧ ∀ name,
        match db.get? name with
        | some c => ∃ c', db'.get? name = some c' ∧ c'.str = c.str ∧ (c' = c ∨ (c'.name = some name ∧ InRange c'))
        | none => match firstDefinition items name with
          | none => db'.get? name = none
          | some t => ∃ c d, db'.get? name = some c ∧ IsColorText t d ∧ c.str = hexText d ∧ c.name = some name ∧ InRange c := by
    intro items
    induction items with
    | nil =>
      intro db _
      refine ⟨db, rfl, fun name => ?_⟩
      split
      · rename_i c hc; exact ⟨c, hc, rfl, Or.inl rfl⟩
      · rename_i hc; exact hc
    | cons item items ih =>
      intro db hitems
      obtain ⟨d, hd⟩ := hitems item (by simp)
      obtain ⟨c0, h1, h2, h3, h4⟩ := text_read item.2 d hd
      have e1 := new_text hd none
      have e2 := new_text hd (some (underscored item.1))
      rw [h1] at e1; injection e1 with e1; subst e1
      generalize hcol : (⟨toFloat (16 * (d 0 : ℤ) + d 1), toFloat (16 * (d 2 : ℤ) + d 3), toFloat (16 * (d 4 : ℤ) + d 5),
        some (underscored item.1)⟩ : Color) = col at e2
      have hstr : col.str = hexText d := by rw [← hcol]; exact h4
      have hname : col.name = some (underscored item.1) := by rw [← hcol]
      have hrange : InRange col := by rw [← hcol]; exact h3
      have hrep : Patro.Text.replace [' '] ['_'] item.1 = underscored item.1 := replaceGo_char _ _ _
      -- the database after this item
      have hone : ∃ db1, DataBase.loadOne db item = .ok db1 ∧
          (db1 = db ∧ (∃ old, db.get? (underscored item.1) = some old) ∨
           db1 = db.set (underscored item.1) col ∧ ∀ old, db.get? (underscored item.1) = some old → col.str = old.str) := by
        unfold DataBase.loadOne
        simp only [hrep, e2, bind, Except.bind, pure, Except.pure]
        cases hg : db.get? (underscored item.1) with
        | none => exact ⟨_, rfl, Or.inr ⟨rfl, fun old ho => by cases ho⟩⟩
        | some old =>
          by_cases hs : col.str = old.str
          · refine ⟨_, by simp only [ne_eq, hs, not_true_eq_false, if_false]; rfl, Or.inr ⟨rfl, ?_⟩⟩
            intro old' ho; injection ho with ho; rw [hs, ho]
          · exact ⟨db, by simp only [ne_eq, hs, not_false_eq_true, if_true], Or.inl ⟨rfl, old, rfl⟩⟩
      obtain ⟨db1, hdb1, hcase⟩ := hone
      obtain ⟨db', hdb', hspec⟩ := ih db1 (fun i hi => hitems i (by simp [hi]))
      refine ⟨db', by rw [List.foldlM_cons, hdb1]; exact hdb', fun name => ?_⟩
      have hs := hspec name
      have hfd : firstDefinition (item :: items) name =
          if underscored item.1 = name then some item.2 else firstDefinition items name := by
        unfold firstDefinition
        rw [List.find?_cons]
        by_cases hn : underscored item.1 = name <;> simp [hn]
      rcases hcase with ⟨rfl, old, hold⟩ | ⟨rfl, hnew⟩
      · by_cases hn : underscored item.1 = name
        · subst hn
          rw [hold] at hs ⊢
          exact hs
        · cases hg : db1.get? name with
          | some c => rw [hg] at hs; exact hs
          | none =>
            rw [hg] at hs
            simp only [hfd, if_neg hn]
            exact hs
      · by_cases hn : underscored item.1 = name
        · subst hn
          rw [Dict.get?_set_self] at hs
          obtain ⟨c', g1, g2, g3⟩ := hs
          cases hg : db.get? (underscored item.1) with
          | some c =>
            refine ⟨c', g1, g2.trans (hnew c hg), Or.inr ?_⟩
            rcases g3 with rfl | g3
            · exact ⟨hname, hrange⟩
            · exact g3
          | none =>
            simp only [hfd, if_true]
            refine ⟨c', d, g1, hd, g2.trans hstr, ?_⟩
            rcases g3 with rfl | g3
            · exact ⟨hname, hrange⟩
            · exact g3
        · rw [Dict.get?_set_ne db col hn] at hs
          cases hg : db.get? name with
          | some c => rw [hg] at hs; exact hs
          | none =>
            rw [hg] at hs
            simp only [hfd, if_neg hn]
            exact hs
  obtain ⟨db, hdb, hspec⟩ := step sets.flatten [] h
  refine ⟨db, hdb, fun name => ?_⟩
  have hs := hspec name
  rw [Dict.get?_nil] at hs
  cases hf : firstDefinition sets.flatten name with
  | none => rw [hf] at hs; exact hs
  | some t =>
    rw [hf] at hs
    obtain ⟨c, d, h1, h2, h3, h4, h5⟩ := hs
    refine ⟨c, d, h1, h2, ?_, h4⟩
    obtain ⟨d', hd'⟩ := inRange_digits h5
    have : d' = d := hexText_injective (by rw [← str_digits hd', h3])
    exact this ▸ hd'

/-- C73. `add` by itself replaces: the last colour registered under a name is the one that is found, and the other names
are not affected. -/
theorem add_replaces (db : DataBase) (name : Text) (c : Color) :
    (db.add name c).get? name = some c ∧ ∀ other, other ≠ name → (db.add name c).get? other = db.get? other :=
  ⟨Dict.get?_set_self db name c, fun _ h => Dict.get?_set_ne db c (Ne.symm h)⟩

/-- C73. `ensure_color` leaves `None` and colours as they are, reads the texts of colours, finds the registered names,
and refuses the rest. -/
theorem ensureColor_spec (db : DataBase) :
    db.ensureColor none = .ok none ∧ (∀ c, db.ensureColor (some (.color c)) = .ok (some c)) ∧
    (∀ t d, IsColorText t d → ∃ c, db.ensureColor (some (.text t)) = .ok (some c) ∧ HasDigits c d) ∧
    (∀ name, name.head? ≠ some '#' → db.ensureColor (some (.text name)) =
      match db.get? name with | some c => .ok (some c) | none => .error .keyError) ∧
    (∀ n, db.ensureColor (some (.num n)) = .error .valueError) ∧ db.ensureColor (some .other) = .error .valueError := by
  refine ⟨rfl, fun _ => rfl, fun t d h => ?_, fun name h => ?_, fun _ => rfl, rfl⟩
  · obtain ⟨c, h1, h2, _⟩ := text_read t d h
    refine ⟨c, ?_, h2⟩
    have : t.head? = some '#' := by obtain ⟨_, rfl, _⟩ := h; rfl
    simp only [DataBase.ensureColor, this, if_true, h1]
    rfl
  · simp only [DataBase.ensureColor, if_neg h, Dict.getItem]
    cases db.get? name <;> rfl

example : ∃ db, DataBase.load [] [[("dark red".toList, "#8B0000".toList)], [("dark_red".toList, "#840000".toList)]] = .ok db ∧
    (db.get? "dark_red".toList).map Color.str = some "#8b0000".toList := by
  refine ⟨[("dark_red".toList, ⟨139 / 255, 0, 0, some "dark_red".toList⟩)], ?_, ?_⟩ <;> decide +kernel

end Patro.Colour
