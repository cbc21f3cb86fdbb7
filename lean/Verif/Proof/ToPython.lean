import Verif.Spec.ToPython
import Mathlib.Tactic.Tauto
/-! # Lemmas on `to_python` -/

namespace Patro.ToPython

open Patro.Text (Text)

theorem expect_append (p t : Text) : expect p (p ++ t) = some t := by
  induction p with
  | nil => simp [expect]
  | cons c p ih => simp [expect, ih]

theorem takeWhile_stop {p : Char → Bool} (a : Text) (c : Char) (r : Text) (h : ∀ x ∈ a, p x = true) (hc : p c = false) :
    (a ++ c :: r).takeWhile p = a ∧ (a ++ c :: r).dropWhile p = c :: r := by
  induction a with
  | nil => simp [hc]
  | cons x a ih =>
    have hx := h x (by simp)
    obtain ⟨h1, h2⟩ := ih (fun y hy => h y (by simp [hy]))
    simp [hx, h1, h2]

theorem digit_num {c : Char} (h : c.isDigit = true) : isNumChar c = true := by simp [isNumChar, h]

theorem digits_num {t : Text} (h : digits t = true) : ∀ c ∈ t, isNumChar c = true := by
  simp only [digits, Bool.and_eq_true, List.all_eq_true] at h
  exact fun c hc => digit_num (h.1 c hc)

theorem exponent_num {t : Text} (h : exponent t = true) : ∀ c ∈ t, isNumChar c = true := by
  have he : ∀ c : Char, (c = 'e' || c = 'E') = true → isNumChar c = true := by
    intro c hc
    simp only [Bool.or_eq_true, decide_eq_true_eq] at hc
    rcases hc with rfl | rfl <;> decide
  unfold exponent at h
  split at h
  · simp
  · rename_i c d
    rw [Bool.and_eq_true] at h
    intro x hx
    rcases List.mem_cons.1 hx with rfl | hx
    · exact he _ h.1
    · rcases List.mem_cons.1 hx with rfl | hx
      · decide
      · exact digits_num h.2 x hx
  · rename_i c d
    rw [Bool.and_eq_true] at h
    intro x hx
    rcases List.mem_cons.1 hx with rfl | hx
    · exact he _ h.1
    · rcases List.mem_cons.1 hx with rfl | hx
      · decide
      · exact digits_num h.2 x hx
  · rename_i c d _ _
    rw [Bool.and_eq_true] at h
    intro x hx
    rcases List.mem_cons.1 hx with rfl | hx
    · exact he _ h.1
    · exact digits_num h.2 x hx

theorem takeDigits_num (t : Text) : ∀ c ∈ t.takeWhile Char.isDigit, isNumChar c = true := by
  induction t with
  | nil => simp
  | cons x t ih =>
    intro c hc
    rw [List.takeWhile_cons] at hc
    split at hc
    · rename_i hx
      rcases List.mem_cons.1 hc with rfl | hc
      · exact digit_num hx
      · exact ih c hc
    · simp at hc

theorem unsigned_num {t : Text} (h : unsigned t = true) : ∀ c ∈ t, isNumChar c = true := by
  intro c hc
  rw [← List.takeWhile_append_dropWhile (p := Char.isDigit) (l := t), List.mem_append] at hc
  rcases hc with hc | hc
  · exact takeDigits_num t c hc
  · unfold unsigned at h
    simp only at h
    split at h
    · rename_i hd
      rw [hd] at hc; simp at hc
    · rename_i r hd
      rw [hd] at hc
      rw [Bool.and_eq_true] at h
      rcases List.mem_cons.1 hc with rfl | hc
      · decide
      · rw [← List.takeWhile_append_dropWhile (p := Char.isDigit) (l := r), List.mem_append] at hc
        rcases hc with hc | hc
        · exact takeDigits_num r c hc
        · exact exponent_num h.2 c hc
    · rename_i hd
      rw [Bool.and_eq_true] at h
      exact exponent_num h.2 c hc

theorem isNumber_num {t : Text} (h : isNumber t = true) : ∀ c ∈ t, isNumChar c = true := by
  unfold isNumber at h
  split at h
  · intro c hc
    rcases List.mem_cons.1 hc with rfl | hc
    · decide
    · exact unsigned_num h c hc
  · intro c hc
    rcases List.mem_cons.1 hc with rfl | hc
    · decide
    · exact unsigned_num h c hc
  · exact unsigned_num h

theorem isNumber_ne {t : Text} (h : isNumber t = true) : t ≠ [] := by
  rintro rfl
  revert h
  decide

/-- After a value comes a comma or a parenthesis. -/
def Stop (r : Text) : Prop := ∃ c r', r = c :: r' ∧ (c = ',' ∨ c = ')')

theorem readNumber_ok {t r : Text} (h : isNumber t = true) (hr : Stop r) : readNumber (t ++ r) = some (t, r) := by
  obtain ⟨c, r', rfl, hc⟩ := hr
  have hc' : isNumChar c = false := by rcases hc with rfl | rfl <;> decide
  obtain ⟨h1, h2⟩ := takeWhile_stop t c r' (isNumber_num h) hc'
  simp [readNumber, h1, h2, h]

theorem readString_ok {t r : Text} (h : Plain t) : readString (t ++ "'".toList ++ r) = some (t, r) := by
  induction t with
  | nil => simp [readString]
  | cons c t ih =>
    obtain ⟨h1, h2, h3, h4⟩ := h c (by simp)
    have := ih (fun x hx => h x (by simp [hx]))
    rw [List.cons_append, List.cons_append, readString, if_neg h1, if_neg (by simp [h2, h3, h4]), this]
    rfl

theorem expect_head {p t : Text} {c d : Char} {p' t' : Text} (hp : p = c :: p') (ht : t = d :: t') (h : c ≠ d) : expect p t = none := by
  subst hp ht
  simp [expect, h]

theorem toList_quote : "'".toList = ['\''] := by decide
theorem toList_none : "None".toList = 'N' :: "one".toList := by decide
theorem toList_vector : "Vector2D(".toList = 'V' :: "ector2D(".toList := by decide
theorem toList_comma : ", ".toList = [',', ' '] := by decide
theorem toList_paren : ")".toList = [')'] := by decide

/-- The three prefixes are not found before another character. -/
theorem not_prefix {c : Char} {t : Text} (h1 : '\'' ≠ c) (h2 : 'N' ≠ c) (h3 : 'V' ≠ c) :
    expect "'".toList (c :: t) = none ∧ expect "None".toList (c :: t) = none ∧ expect "Vector2D(".toList (c :: t) = none :=
  ⟨expect_head toList_quote rfl h1, expect_head toList_none rfl h2, expect_head toList_vector rfl h3⟩

theorem readValue_number {t r : Text} (h : isNumber t = true) (hr : Stop r) : readValue (t ++ r) = some (.number t, r) := by
  cases ht : t with
  | nil => exact absurd ht (isNumber_ne h)
  | cons c t' =>
    rw [← ht]
    have hc : isNumChar c = true := isNumber_num h c (by simp [ht])
    have hcons : t ++ r = c :: (t' ++ r) := by rw [ht]; rfl
    have hne : ∀ d : Char, isNumChar d = false → d ≠ c := by rintro d hd rfl; rw [hc] at hd; cases hd
    obtain ⟨e1, e2, e3⟩ := not_prefix (t := t' ++ r) (hne '\'' (by decide)) (hne 'N' (by decide)) (hne 'V' (by decide))
    rw [← hcons] at e1 e2 e3
    unfold readValue
    simp only [e1, e2, e3, readNumber_ok h hr]
    rfl

theorem readValue_string {t r : Text} (h : Plain t) : readValue (quote t ++ r) = some (.str t, r) := by
  have : quote t ++ r = "'".toList ++ (t ++ "'".toList ++ r) := by simp [quote]
  unfold readValue
  rw [this, expect_append]
  simp only [readString_ok h]
  rfl

theorem text_none (isFloat : Text → Bool) : Arg.none.text isFloat = "None".toList := rfl
theorem text_other (isFloat : Text → Bool) : Arg.other.text isFloat = [] := rfl
theorem text_expr (isFloat : Text → Bool) (t : Text) : (Arg.expr t).text isFloat = if isFloat t then t else quote t := rfl
theorem text_vector (isFloat : Text → Bool) (x y : Text) :
    (Arg.vector x y).text isFloat = "Vector2D(".toList ++ x ++ ", ".toList ++ y ++ ")".toList := rfl

theorem readValue_ok {isFloat : Text → Bool} {a : Arg} {l : Lit} (h : Means isFloat a l) {r : Text} (hr : Stop r) :
    readValue (a.text isFloat ++ r) = some (l, r) := by
  cases a with
  | none =>
    simp only [Means] at h
    subst h
    have e1 : expect "'".toList ("None".toList ++ r) = none := by
      rw [toList_none, toList_quote]
      rfl
    unfold readValue
    simp only [text_none, e1, expect_append]
  | num t => obtain ⟨h1, rfl⟩ := h; exact readValue_number h1 hr
  | str t => obtain ⟨h1, rfl⟩ := h; exact readValue_string h1
  | point n => obtain ⟨h1, rfl⟩ := h; exact readValue_string h1
  | expr t =>
    simp only [Means] at h
    simp only [text_expr]
    by_cases hf : isFloat t = true
    · rw [if_pos hf] at h ⊢
      obtain ⟨h1, rfl⟩ := h
      exact readValue_number h1 hr
    · rw [if_neg hf] at h ⊢
      obtain ⟨h1, rfl⟩ := h
      exact readValue_string h1
  | vector x y =>
    obtain ⟨h1, h2, rfl⟩ := h
    have e1 : (Arg.vector x y).text isFloat ++ r = "Vector2D(".toList ++ (x ++ (", ".toList ++ (y ++ (")".toList ++ r)))) := by
      simp [text_vector]
    have e2 : ∀ w, expect "'".toList ("Vector2D(".toList ++ w) = none := by
      intro w
      rw [toList_vector, toList_quote]
      rfl
    have e3 : ∀ w, expect "None".toList ("Vector2D(".toList ++ w) = none := by
      intro w
      rw [toList_vector, toList_none]
      rfl
    unfold readValue
    simp only [e1, e2, e3, expect_append]
    unfold readVector
    simp only [readNumber_ok h1 (r := ", ".toList ++ (y ++ (")".toList ++ r))) ⟨',', _, rfl, .inl rfl⟩, bind, Option.bind, expect_append,
      readNumber_ok h2 (r := ")".toList ++ r) ⟨')', _, rfl, .inr rfl⟩]
    rfl
  | other => exact absurd h id

theorem readKey_ok {isFloat : Text → Bool} {k : Text} (hk : k ≠ []) (hi : ∀ c ∈ k, isIdent c = true) {a : Arg} {l : Lit}
    (h : Means isFloat a l) {r : Text} (hr : Stop r) :
    readKey (k ++ "=".toList ++ a.text isFloat ++ r) = some ((k, l), r) := by
  have e : k ++ "=".toList ++ a.text isFloat ++ r = k ++ '=' :: (a.text isFloat ++ r) := by simp
  obtain ⟨h1, h2⟩ := takeWhile_stop k '=' (a.text isFloat ++ r) hi (by decide)
  unfold readKey
  simp only [e, h1, h2, if_neg hk]
  rw [show ('=' :: (a.text isFloat ++ r)) = "=".toList ++ (a.text isFloat ++ r) from rfl, expect_append]
  simp only [bind, Option.bind, readValue_ok h hr]
  rfl

/-- The arguments of a call, each after a comma. -/
def tail (isFloat : Text → Bool) : List (Text × Arg) → Text
  | [] => ")".toList
  | (k, a) :: l => ", ".toList ++ (k ++ "=".toList ++ a.text isFloat ++ tail isFloat l)

theorem tail_stop (isFloat : Text → Bool) (l : List (Text × Arg)) : Stop (tail isFloat l) := by
  cases l with
  | nil => exact ⟨')', [], rfl, .inr rfl⟩
  | cons e l => exact ⟨',', _, rfl, .inl rfl⟩

theorem tail_ne {isFloat : Text → Bool} (e : Text × Arg) (l : List (Text × Arg)) : tail isFloat (e :: l) ≠ ")".toList := by
  intro h
  obtain ⟨k, a⟩ := e
  rw [tail, toList_comma, toList_paren] at h
  simp at h

theorem readArgs_ok {isFloat : Text → Bool} (l : List (Text × Arg)) (f : Text × Arg → Lit)
    (h : ∀ e ∈ l, e.1 ≠ [] ∧ (∀ c ∈ e.1, isIdent c = true) ∧ Means isFloat e.2 (f e)) :
    ∀ n, l.length < n → readArgs n (tail isFloat l) = some (l.map fun e => (e.1, f e)) := by
  induction l with
  | nil =>
    intro n hn
    cases n with
    | zero => omega
    | succ n => simp [readArgs, tail]
  | cons e l ih =>
    intro n hn
    cases n with
    | zero => omega
    | succ n =>
      obtain ⟨h1, h2, h3⟩ := h e (by simp)
      rw [readArgs, if_neg (tail_ne e l)]
      have hk := readKey_ok h1 h2 h3 (tail_stop isFloat l)
      have hi := ih (fun e' he' => h e' (by simp [he'])) n (by simpa using hn)
      obtain ⟨k, a⟩ := e
      rw [tail, expect_append]
      simp only at hk
      simp only [bind, Option.bind, hk, hi]
      rfl

/-- A value without text stops the reading. -/
theorem readArgs_other {isFloat : Text → Bool} (l : List (Text × Arg)) (k : Text) (rest : List (Text × Arg)) (f : Text × Arg → Lit)
    (h : ∀ e ∈ l, e.1 ≠ [] ∧ (∀ c ∈ e.1, isIdent c = true) ∧ Means isFloat e.2 (f e)) (hk : ∀ c ∈ k, isIdent c = true) :
    ∀ n, readArgs n (tail isFloat (l ++ (k, .other) :: rest)) = none := by
  induction l with
  | nil =>
    intro n
    cases n with
    | zero => rfl
    | succ n =>
      rw [List.nil_append, readArgs, if_neg (tail_ne _ _), tail, expect_append]
      have hkey : readKey (k ++ "=".toList ++ Arg.other.text isFloat ++ tail isFloat rest) = none := by
        obtain ⟨c, r', hc, hc'⟩ := tail_stop isFloat rest
        have e : k ++ "=".toList ++ Arg.other.text isFloat ++ tail isFloat rest = k ++ '=' :: (tail isFloat rest) := by
          simp only [text_other, List.append_assoc, List.nil_append, show "=".toList = ['='] from rfl, List.cons_append]
        obtain ⟨h1, h2⟩ := takeWhile_stop k '=' (tail isFloat rest) hk (by decide)
        have hv : readValue (tail isFloat rest) = none := by
          rw [hc]
          have hn : isNumChar c = false := by rcases hc' with rfl | rfl <;> decide
          obtain ⟨e1, e2, e3⟩ := not_prefix (c := c) (t := r') (by rcases hc' with rfl | rfl <;> decide)
            (by rcases hc' with rfl | rfl <;> decide) (by rcases hc' with rfl | rfl <;> decide)
          unfold readValue
          simp only [e1, e2, e3]
          simp only [readNumber, List.takeWhile_cons, hn]
          rfl
        unfold readKey
        simp only [e, h1, h2]
        rw [show ('=' :: tail isFloat rest) = "=".toList ++ tail isFloat rest from rfl, expect_append]
        simp only [bind, Option.bind, hv]
        simp
      simp only [bind, Option.bind, hkey]
  | cons e l ih =>
    intro n
    cases n with
    | zero => rfl
    | succ n =>
      obtain ⟨h1, h2, h3⟩ := h e (by simp)
      rw [List.cons_append, readArgs, if_neg (tail_ne _ _)]
      have hk' := readKey_ok h1 h2 h3 (tail_stop isFloat (l ++ (k, .other) :: rest))
      have hi := ih (fun e' he' => h e' (by simp [he'])) n
      obtain ⟨k', a⟩ := e
      rw [tail, expect_append]
      simp only at hk'
      simp only [bind, Option.bind, hk', hi]

theorem join_tail (isFloat : Text → Bool) (value : Text → Arg) (args : List Text) (first : Text) :
    join (first :: (args.zip (args.map fun arg => (value arg).text isFloat)).map fun kv => kv.1 ++ "=".toList ++ kv.2) ++ ")".toList =
      first ++ tail isFloat (args.map fun a => (a, value a)) := by
  induction args generalizing first with
  | nil => simp [join, tail]
  | cons a args ih =>
    have := ih (a ++ "=".toList ++ (value a).text isFloat)
    simp only [List.map_cons, List.zip_cons_cons, join, tail] at this ⊢
    rw [List.append_assoc, this]
    simp

theorem initArgs_ident (cls : Cls) : ∀ k ∈ cls.initArgs, k ≠ [] ∧ ∀ c ∈ k, isIdent c = true := by
  have : (cls.initArgs.all fun k => decide (k ≠ []) && k.all isIdent) = true := by cases cls <;> decide +kernel
  intro k hk
  have := List.all_eq_true.1 this k hk
  rw [Bool.and_eq_true, decide_eq_true_eq, List.all_eq_true] at this
  exact this

theorem name_ident (cls : Cls) : cls.name ≠ [] ∧ ∀ c ∈ cls.name, isIdent c = true := by
  have : (decide (cls.name ≠ []) && cls.name.all isIdent) = true := by cases cls <;> decide +kernel
  rw [Bool.and_eq_true, decide_eq_true_eq, List.all_eq_true] at this
  exact this

theorem tail_length (isFloat : Text → Bool) (l : List (Text × Arg)) : l.length < (tail isFloat l).length := by
  induction l with
  | nil => simp [tail]
  | cons e l ih =>
    obtain ⟨k, a⟩ := e
    simp only [tail, List.length_cons, List.length_append, toList_comma, List.length_nil]
    omega

theorem toPython_eq (isFloat : Text → Bool) (cls : Cls) (value : Text → Arg) :
    toPython isFloat cls value = cls.name ++ '(' :: ("sketch".toList ++ tail isFloat (cls.initArgs.map fun a => (a, value a))) := by
  unfold toPython
  rw [← join_tail]
  simp

theorem readCall_eq (isFloat : Text → Bool) (cls : Cls) (value : Text → Arg) :
    readCall (toPython isFloat cls value) =
      (readArgs ((toPython isFloat cls value).length + 1) (tail isFloat (cls.initArgs.map fun a => (a, value a)))).map
        fun l => (cls.name, l) := by
  obtain ⟨h1, h2⟩ := name_ident cls
  obtain ⟨t1, t2⟩ := takeWhile_stop cls.name '(' ("sketch".toList ++ tail isFloat (cls.initArgs.map fun a => (a, value a))) h2 (by decide)
  rw [← toPython_eq] at t1 t2
  unfold readCall
  simp only [t1, t2, if_neg h1]
  rw [show ('(' :: ("sketch".toList ++ tail isFloat (cls.initArgs.map fun a => (a, value a)))) =
    "(sketch".toList ++ tail isFloat (cls.initArgs.map fun a => (a, value a)) from rfl, expect_append]
  simp only [bind, Option.bind]
  cases readArgs _ (tail isFloat (cls.initArgs.map fun a => (a, value a))) <;> rfl

end Patro.ToPython
