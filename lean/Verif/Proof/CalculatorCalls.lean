import Verif.Spec.CalculatorCalls
import Verif.Proof.Calculator
import Mathlib.Tactic.Common
/-! # Lemmas on the rewriting of several function calls -/

namespace Patro.Calculator

open Patro
open Patro.Text

/-! ## Texts and separators -/

/-- A text of identifier characters around a separator lies on one side of it. -/
theorem split_at_sep {a b c x y : Text} {s : Char} (hc : ∀ d ∈ c, isIdent d = true) (hs : isIdent s = false)
    (h : a ++ s :: b = x ++ (c ++ y)) :
    (∃ y', a = x ++ (c ++ y') ∧ y = y' ++ s :: b) ∨ (∃ x', x = a ++ s :: x' ∧ b = x' ++ (c ++ y)) ∨
      (c = [] ∧ x = a ∧ y = s :: b) := by
  rw [List.append_eq_append_iff] at h
  rcases h with ⟨z, hx, hz⟩ | ⟨z, ha, hz⟩
  · -- `x = a ++ z`, `s :: b = z ++ (c ++ y)`
    cases z with
    | nil =>
      cases c with
      | nil => exact Or.inr (Or.inr ⟨rfl, by simpa using hx, by simpa using hz.symm⟩)
      | cons d c =>
        simp only [List.nil_append, List.cons_append, List.cons.injEq] at hz
        have := hc d List.mem_cons_self
        rw [← hz.1, hs] at this
        cases this
    | cons z0 z =>
      simp only [List.cons_append, List.cons.injEq] at hz
      exact Or.inr (Or.inl ⟨z, by rw [hx, hz.1], hz.2⟩)
  · -- `a = x ++ z`, `c ++ y = z ++ s :: b`
    rw [List.append_eq_append_iff] at hz
    rcases hz with ⟨u, hz1, hz2⟩ | ⟨u, hc1, hz2⟩
    · exact Or.inl ⟨u, by rw [ha, hz1], hz2⟩
    · cases u with
      | nil =>
        refine Or.inl ⟨[], ?_, ?_⟩
        · rw [ha, hc1]; simp
        · simpa using hz2.symm
      | cons u0 u =>
        simp only [List.cons_append, List.cons.injEq] at hz2
        have := hc u0 (by rw [hc1]; simp)
        rw [← hz2.1, hs] at this
        cases this

/-- A non empty text of identifier characters is inside of the text before the separator or of the text after. -/
theorem infix_sep {a b c : Text} {s : Char} (hne : c ≠ []) (hc : ∀ d ∈ c, isIdent d = true) (hs : isIdent s = false)
    (h : c <:+: a ++ s :: b) : c <:+: a ∨ c <:+: b := by
  obtain ⟨x, y, h⟩ := h
  rw [List.append_assoc] at h
  rcases split_at_sep hc hs h.symm with ⟨y', h1, _⟩ | ⟨x', _, h2⟩ | ⟨h0, _⟩
  · exact Or.inl ⟨x, y', by rw [h1, List.append_assoc]⟩
  · exact Or.inr ⟨x', y, by rw [h2, List.append_assoc]⟩
  · exact absurd h0 hne

theorem glue_cons (a : Text) (s : Char) (w : Text) (r : List (Char × Text)) :
    glue a ((s, w) :: r) = a ++ s :: glue w r := by
  simp [glue]

theorem glue_nil (a : Text) : glue a [] = a := by simp [glue]

/-- An identifier text inside of a glued text is inside of one of the items. -/
theorem infix_glue {c : Text} (hne : c ≠ []) (hc : ∀ d ∈ c, isIdent d = true) (r : List (Char × Text)) :
    ∀ a : Text, (∀ x ∈ r, isIdent x.1 = false) → c <:+: glue a r → ∃ w ∈ a :: r.map (·.2), c <:+: w := by
  induction r with
  | nil =>
    intro a _ h
    rw [glue_nil] at h
    exact ⟨a, List.mem_cons_self, h⟩
  | cons x r ih =>
    obtain ⟨s, w⟩ := x
    intro a hs h
    rw [glue_cons] at h
    rcases infix_sep hne hc (hs (s, w) List.mem_cons_self) h with h | h
    · exact ⟨a, List.mem_cons_self, h⟩
    · obtain ⟨v, hv, hcv⟩ := ih w (fun x hx => hs x (List.mem_cons_of_mem _ hx)) h
      exact ⟨v, List.mem_cons_of_mem _ hv, hcv⟩

/-- An identifier text that ends where an item must end is the end of one of the items. -/
theorem suffix_glue {c y : Text} (hne : c ≠ []) (hc : ∀ d ∈ c, isIdent d = true)
    (hy : ∀ d, y[0]? = some d → isIdent d = false) (r : List (Char × Text)) :
    ∀ a x : Text, (∀ x ∈ r, isIdent x.1 = false) → (∀ w ∈ a :: r.map (·.2), ∀ d ∈ w, isIdent d = true) →
      glue a r = x ++ (c ++ y) → ∃ w ∈ a :: r.map (·.2), c <:+ w := by
  induction r with
  | nil =>
    intro a x _ hw h
    rw [glue_nil] at h
    cases y with
    | nil => exact ⟨a, List.mem_cons_self, x, by rw [h, List.append_nil]⟩
    | cons d y =>
      have h1 := hy d rfl
      have h2 := hw a List.mem_cons_self d (by rw [h]; simp)
      rw [h1] at h2
      cases h2
  | cons p r ih =>
    obtain ⟨s, w⟩ := p
    intro a x hs hw h
    rw [glue_cons] at h
    rcases split_at_sep hc (hs (s, w) List.mem_cons_self) h with ⟨y', h1, h2⟩ | ⟨x', _, h2⟩ | ⟨h0, _⟩
    · cases y' with
      | nil => exact ⟨a, List.mem_cons_self, x, by rw [h1, List.append_nil]⟩
      | cons d y' =>
        have h3 := hy d (by rw [h2]; rfl)
        have h4 := hw a List.mem_cons_self d (by rw [h1]; simp)
        rw [h3] at h4
        cases h4
    · obtain ⟨v, hv, hcv⟩ := ih w x' (fun x hx => hs x (List.mem_cons_of_mem _ hx))
        (fun v hv => hw v (List.mem_cons_of_mem _ hv)) h2
      exact ⟨v, List.mem_cons_of_mem _ hv, hcv⟩
    · exact absurd h0 hne

/-- Where an item lies in a glued text. -/
theorem mem_glue (r : List (Char × Text)) :
    ∀ a : Text, (∀ x ∈ r, isIdent x.1 = false) → ∀ w ∈ a :: r.map (·.2),
      ∃ x y, glue a r = x ++ (w ++ y) ∧ (∀ d, x.getLast? = some d → isIdent d = false) ∧
        (∀ d, y[0]? = some d → isIdent d = false) := by
  induction r with
  | nil =>
    intro a _ w hw
    simp only [List.map_nil, List.mem_cons, List.not_mem_nil, or_false] at hw
    subst hw
    exact ⟨[], [], by simp [glue], by simp, by simp⟩
  | cons p r ih =>
    obtain ⟨s, v⟩ := p
    intro a hs w hw
    have hs0 := hs (s, v) List.mem_cons_self
    rcases List.mem_cons.1 hw with rfl | hw
    · refine ⟨[], s :: glue v r, by rw [glue_cons]; rfl, by simp, ?_⟩
      intro d hd
      simp only [List.getElem?_cons_zero, Option.some.injEq] at hd
      rw [← hd]; exact hs0
    · obtain ⟨x, y, h1, h2, h3⟩ := ih v (fun x hx => hs x (List.mem_cons_of_mem _ hx)) w hw
      refine ⟨a ++ s :: x, y, by rw [glue_cons, h1]; simp, ?_, h3⟩
      intro d hd
      cases x with
      | nil =>
        simp at hd
        rw [← hd]; exact hs0
      | cons x0 x =>
        apply h2
        rw [List.getLast?_append, List.getLast?_cons_cons] at hd
        rw [← hd]
        cases hx : (x0 :: x).getLast? with
        | none => simp at hx
        | some z => rfl

/-! ## Replacement and separators -/

theorem isPrefixOf_sep {a b c : Text} {s : Char} (hc : ∀ d ∈ c, isIdent d = true) (hs : isIdent s = false) :
    c.isPrefixOf (a ++ s :: b) = c.isPrefixOf a := by
  induction a generalizing c with
  | nil =>
    cases c with
    | nil => rfl
    | cons d c =>
      have := hc d List.mem_cons_self
      have hne : (d == s) = false := by
        rw [beq_eq_false_iff_ne]
        rintro rfl
        rw [hs] at this
        cases this
      simp [List.isPrefixOf, hne]
  | cons x a ih =>
    cases c with
    | nil => rfl
    | cons d c =>
      rw [List.cons_append, List.isPrefixOf, List.isPrefixOf, ih (fun d hd => hc d (List.mem_cons_of_mem _ hd))]

/-- Replacing an identifier text is done on each side of a separator. -/
theorem replaceGo_sep {b c r : Text} {s : Char} (hne : c ≠ []) (hc : ∀ d ∈ c, isIdent d = true)
    (hs : isIdent s = false) (a : Text) : ∀ k, k ≤ a.length →
      replaceGo c r k (a ++ s :: b) = replaceGo c r k a ++ s :: replaceGo c r 0 b := by
  induction a with
  | nil =>
    intro k hk
    have : k = 0 := Nat.le_zero.1 hk
    subst this
    have hp : c.isPrefixOf (s :: b) = false := by
      have := isPrefixOf_sep (a := []) (b := b) hc hs
      rw [List.nil_append] at this
      rw [this]
      cases c with
      | nil => exact absurd rfl hne
      | cons d c => rfl
    simp [replaceGo, hp]
  | cons x a ih =>
    intro k hk
    cases k with
    | succ k =>
      rw [List.cons_append, replaceGo, replaceGo]
      exact ih k (by simpa using hk)
    | zero =>
      rw [List.cons_append, replaceGo, replaceGo, ← List.cons_append, isPrefixOf_sep hc hs]
      by_cases hp : c.isPrefixOf (x :: a) = true
      · rw [if_pos hp, if_pos hp, ih, List.append_assoc]
        have := (List.isPrefixOf_iff_prefix.1 hp).length_le
        rw [List.length_cons] at this
        omega
      · rw [if_neg hp, if_neg hp, ih 0 (Nat.zero_le _)]
        rfl

theorem replace_glue {c r : Text} (hne : c ≠ []) (hc : ∀ d ∈ c, isIdent d = true) (l : List (Char × Text)) :
    ∀ a : Text, (∀ x ∈ l, isIdent x.1 = false) →
      replace c r (glue a l) = glue (replace c r a) (l.map fun x => (x.1, replace c r x.2)) := by
  induction l with
  | nil => intro a _; simp [glue_nil]
  | cons x l ih =>
    obtain ⟨s, w⟩ := x
    intro a hs
    rw [glue_cons, List.map_cons, glue_cons, ← ih w (fun x hx => hs x (List.mem_cons_of_mem _ hx))]
    exact replaceGo_sep hne hc (hs (s, w) List.mem_cons_self) a 0 (Nat.zero_le _)

theorem replace_whole (t new : Text) (h : t ≠ []) : replace t new t = new := by
  cases t with
  | nil => exact absurd rfl h
  | cons c t =>
    unfold replace
    rw [replaceGo, if_pos (by rw [List.isPrefixOf_iff_prefix]; exact List.prefix_rfl)]
    have := replaceGo_skip (c :: t) new t []
    rw [List.append_nil] at this
    rw [List.length_cons, Nat.add_sub_cancel, this]
    simp [replaceGo]

theorem replace_free (old new t : Text) (h : ¬ old <:+: t) : replace old new t = t := by
  unfold replace
  induction t with
  | nil => rfl
  | cons c t ih =>
    have h0 : ¬ old.isPrefixOf (c :: t) = true := by
      rw [List.isPrefixOf_iff_prefix]
      exact fun hp => h hp.isInfix
    rw [replaceGo, if_neg h0, ih]
    intro hi
    exact h (hi.trans (List.suffix_cons c t).isInfix)

/-! ## Words -/

theorem keywords_perm (k : Text) : k ∈ functionPrefixes ↔ k ∈ keywords := by
  constructor
  · exact (by decide +kernel : ∀ k ∈ functionPrefixes, k ∈ keywords) k
  · exact (by decide +kernel : ∀ k ∈ keywords, k ∈ functionPrefixes) k

theorem prefixes_ident : ∀ p ∈ functionPrefixes, ∀ c ∈ p, isIdent c = true := by decide +kernel

theorem prefixes_ne : ∀ p ∈ functionPrefixes, p ≠ [] := by decide +kernel

theorem prefixes_underscore : ∀ p ∈ functionPrefixes, '_' ∉ p.dropLast := by decide +kernel

theorem prefixes_antichain : ∀ p ∈ functionPrefixes, ∀ q ∈ functionPrefixes, p <+: q → p = q := by decide +kernel

theorem names_ident : ∀ f ∈ callNames, ∀ c ∈ f, isIdent c = true ∧ c ≠ '_' := by decide +kernel

theorem prefixes_nodup : functionPrefixes.Nodup := by decide +kernel

/-- Two function prefixes of the same text are equal. -/
theorem prefix_unique {p q c : Text} (hp : p ∈ functionPrefixes) (hq : q ∈ functionPrefixes) (h1 : p <+: c)
    (h2 : q <+: c) : p = q := by
  rcases List.prefix_or_prefix_of_prefix h1 h2 with h | h
  · exact prefixes_antichain p hp q hq h
  · exact (prefixes_antichain q hq p hp h).symm

theorem underscored_ident (args : List Text) (h : ∀ a ∈ args, ∀ c ∈ a, isIdent c = true ∧ c ≠ '_') :
    ∀ c ∈ underscored args, isIdent c = true := by
  induction args with
  | nil => simp [underscored]
  | cons a as ih =>
    cases as with
    | nil => intro c hc; exact (h a List.mem_cons_self c hc).1
    | cons b as =>
      intro c hc
      rw [underscored] at hc
      · rcases List.mem_append.1 hc with hc | hc
        · exact (h a List.mem_cons_self c hc).1
        · rcases List.mem_cons.1 hc with rfl | hc
          · decide
          · exact ih (fun a ha => h a (List.mem_cons_of_mem _ ha)) c hc
      · simp

theorem mem_infix_underscored (args : List Text) (a : Text) (h : a ∈ args) : a <:+: underscored args := by
  induction args with
  | nil => cases h
  | cons b as ih =>
    cases as with
    | nil =>
      simp only [List.mem_cons, List.not_mem_nil, or_false] at h
      subst h
      exact List.infix_rfl
    | cons c as =>
      rw [underscored]
      · rcases List.mem_cons.1 h with rfl | h
        · exact (List.prefix_append _ _).isInfix
        · exact (ih h).trans ((List.suffix_cons '_' _).trans (List.suffix_append _ _)).isInfix
      · simp

theorem Word.source_ident (w : Word) (h : w.Ok) : ∀ c ∈ w.source, isIdent c = true := by
  cases w with
  | plain w => exact h.1
  | call f args =>
    obtain ⟨h1, _, h3, _⟩ := h
    intro c hc
    rcases List.mem_append.1 hc with hc | hc
    · exact (names_ident f h1 c hc).1
    · rcases List.mem_cons.1 hc with rfl | hc
      · decide
      · exact underscored_ident args h3 c hc
  | currentLength => exact (by decide +kernel : ∀ c ∈ "CurrentLength".toList, isIdent c = true)

/-- A function prefix inside of a call lies in the name of the function. -/
theorem prefix_in_call {p f : Text} {args : List Text} {x y : Text} (hp : p ∈ functionPrefixes)
    (hfree : Free (underscored args)) (h : f ++ '_' :: underscored args = x ++ (p ++ y)) :
    x ++ p <+: f ++ ['_'] := by
  rw [List.append_eq_append_iff] at h
  rcases h with ⟨z, hx, hz⟩ | ⟨z, hf, hz⟩
  · cases z with
    | nil =>
      -- `p` starts with the underscore
      simp only [List.nil_append] at hz
      cases p with
      | nil => exact absurd rfl (prefixes_ne _ hp)
      | cons p0 p =>
        simp only [List.cons_append, List.cons.injEq] at hz
        exfalso
        have : ∀ q ∈ functionPrefixes, q.head? ≠ some '_' := by decide +kernel
        exact this _ hp (by rw [← hz.1]; rfl)
    | cons z0 z =>
      simp only [List.cons_append, List.cons.injEq] at hz
      exfalso
      exact hfree p ((keywords_perm p).1 hp) ⟨z, y, by rw [hz.2, List.append_assoc]⟩
  · rw [List.append_eq_append_iff] at hz
    rcases hz with ⟨u, hz1, hz2⟩ | ⟨u, hp1, hz2⟩
    · refine ⟨u ++ ['_'], ?_⟩
      rw [hf, hz1]; simp
    · cases u with
      | nil => exact ⟨['_'], by rw [hf, hp1]; simp⟩
      | cons u0 u =>
        simp only [List.cons_append, List.cons.injEq] at hz2
        cases u with
        | nil => exact ⟨[], by rw [hf, hp1, ← hz2.1]; simp⟩
        | cons u1 u =>
          exfalso
          apply prefixes_underscore p hp
          rw [hp1, ← hz2.1, List.dropLast_append_of_ne_nil (by simp)]
          simp

theorem infix_quoted {p : Text} (hp : p ∈ functionPrefixes) (args : List Text)
    (hfree : Free (underscored args)) : ¬ p <:+: quoted args := by
  have hne := prefixes_ne p hp
  have hid := prefixes_ident p hp
  have key : ∀ as : List Text, (∀ a ∈ as, ¬ p <:+: a) → ¬ p <:+: quoted as := by
    intro as
    induction as with
    | nil => intro _ h; exact hne (List.infix_nil.1 h)
    | cons a as ih =>
      intro hall h
      have ha := hall a List.mem_cons_self
      have step : ∀ t : Text, ¬ p <:+: t → ¬ p <:+: '\'' :: a ++ '\'' :: t := by
        intro t ht h
        rcases infix_sep (a := '\'' :: a) hne hid (by decide +kernel) h with h | h
        · rcases infix_sep (a := []) hne hid (by decide +kernel) h with h | h
          · exact hne (List.infix_nil.1 h)
          · exact ha h
        · exact ht h
      cases as with
      | nil => exact step [] (fun h => hne (List.infix_nil.1 h)) h
      | cons b as =>
        rw [quoted] at h
        · refine step (',' :: ' ' :: quoted (b :: as)) ?_ h
          intro h
          rcases infix_sep (a := []) hne hid (by decide +kernel) h with h | h
          · exact hne (List.infix_nil.1 h)
          · rcases infix_sep (a := []) hne hid (by decide +kernel) h with h | h
            · exact hne (List.infix_nil.1 h)
            · exact ih (fun a ha => hall a (List.mem_cons_of_mem _ ha)) h
        · simp
  refine key args ?_
  intro a ha h
  exact hfree p ((keywords_perm p).1 hp) (h.trans (mem_infix_underscored args a ha))

/-- The Python text of a call holds no function prefix. -/
theorem infix_python_call {p f : Text} {args : List Text} (hp : p ∈ functionPrefixes) (hf : f ∈ callNames)
    (hfree : Free (underscored args)) : ¬ p <:+: (Word.call f args).python := by
  have hne := prefixes_ne p hp
  have hid := prefixes_ident p hp
  intro h
  have e : (Word.call f args).python =
      "__calculator__".toList ++ '.' :: ("_function_".toList ++ f ++ '(' :: (quoted args ++ ')' :: [])) := by
    unfold Word.python
    have : "__calculator__._function_".toList = "__calculator__".toList ++ '.' :: "_function_".toList := by decide +kernel
    rw [this]
    simp only [List.append_assoc, List.cons_append]
  rw [e] at h
  rcases infix_sep hne hid (by decide +kernel) h with h | h
  · exact (by decide +kernel : ∀ p ∈ functionPrefixes, ¬ p <:+: "__calculator__".toList) p hp h
  rcases infix_sep hne hid (by decide +kernel) h with h | h
  · exact (by decide +kernel : ∀ p ∈ functionPrefixes, ∀ f ∈ callNames, ¬ p <:+: "_function_".toList ++ f) p hp f hf h
  rcases infix_sep hne hid (by decide +kernel) h with h | h
  · exact infix_quoted hp args hfree h
  · exact hne (List.infix_nil.1 h)

theorem infix_python_current {p : Text} (hp : p ∈ functionPrefixes)
    (h : p <:+: Word.currentLength.python) : p = "CurrentLength".toList :=
  (by decide +kernel : ∀ p ∈ functionPrefixes, p <:+: "__calculator__._function_CurrentLength()".toList →
    p = "CurrentLength".toList) p hp h

theorem infix_source_current {p : Text} (hp : p ∈ functionPrefixes)
    (h : p <:+: Word.currentLength.source) : p = "CurrentLength".toList :=
  (by decide +kernel : ∀ p ∈ functionPrefixes, p <:+: "CurrentLength".toList → p = "CurrentLength".toList) p hp h

theorem split_underscored (args : List Text) (hne : args ≠ []) (h : ∀ a ∈ args, ∀ c ∈ a, c ≠ '_') :
    Xml.split '_' (underscored args) = args := by
  have nosep : ∀ a : Text, (∀ c ∈ a, c ≠ '_') → Xml.split '_' a = [a] := by
    intro a
    induction a with
    | nil => intro _; rfl
    | cons c a ih =>
      intro h
      rw [Xml.split, if_neg (h c List.mem_cons_self), ih (fun c hc => h c (List.mem_cons_of_mem _ hc))]
  have sep : ∀ (a t : Text), (∀ c ∈ a, c ≠ '_') → Xml.split '_' (a ++ '_' :: t) = a :: Xml.split '_' t := by
    intro a
    induction a with
    | nil => intro t _; rw [List.nil_append, Xml.split, if_pos rfl]
    | cons c a ih =>
      intro t h
      rw [List.cons_append, Xml.split, if_neg (h c List.mem_cons_self),
        ih t (fun c hc => h c (List.mem_cons_of_mem _ hc))]
  induction args with
  | nil => exact absurd rfl hne
  | cons a as ih =>
    cases as with
    | nil => exact nosep a (h a List.mem_cons_self)
    | cons b as =>
      rw [underscored]
      · rw [sep a _ (h a List.mem_cons_self), ih (by simp) (fun a ha => h a (List.mem_cons_of_mem _ ha))]
      · simp

theorem joinComma_quoted (args : List Text) :
    joinComma (args.map fun x => "'".toList ++ x ++ "'".toList) = quoted args := by
  have e1 : "'".toList = ['\''] := by decide +kernel
  have e2 : ", ".toList = [',', ' '] := by decide +kernel
  induction args with
  | nil => rfl
  | cons a as ih =>
    cases as with
    | nil => simp [joinComma, quoted, e1]
    | cons b as =>
      simp only [List.map_cons] at ih ⊢
      rw [joinComma, ih]
      · change _ = '\'' :: a ++ '\'' :: ',' :: ' ' :: quoted (b :: as)
        generalize quoted (b :: as) = q
        simp [e1, e2]
      · simp

/-- The parts of a call. -/
theorem split_call {f : Text} {args : List Text} (hf : f ∈ callNames) (hne : args ≠ [])
    (h : ∀ a ∈ args, ∀ c ∈ a, isIdent c = true ∧ c ≠ '_') :
    Xml.split '_' (Word.call f args).source = f :: args := by
  have h' : ∀ a ∈ f :: args, ∀ c ∈ a, c ≠ '_' := by
    intro a ha c hc
    rcases List.mem_cons.1 ha with ha | ha
    · rw [ha] at hc
      exact (names_ident f hf c hc).2
    · exact (h a ha c hc).2
  have := split_underscored (f :: args) (List.cons_ne_nil _ _) h'
  cases args with
  | nil => exact absurd rfl hne
  | cons b as =>
    rw [underscored] at this
    · exact this
    · simp

theorem pythonised_split {call f : Text} {args : List Text} (h : Xml.split '_' call = f :: args) :
    pythonisedFunction call = "__calculator__._function_".toList ++ f ++ "(".toList ++
      joinComma (args.map fun x => "'".toList ++ x ++ "'".toList) ++ ")".toList := by
  unfold pythonisedFunction
  rw [h]
theorem python_call (f : Text) (args : List Text) : (Word.call f args).python =
   "__calculator__._function_".toList ++ f ++ '(' :: quoted args ++ [')'] := rfl
theorem brackets (z f q : Text) : z ++ f ++ ['('] ++ q ++ [')'] = z ++ f ++ '(' :: q ++ [')'] := by
  simp
/-- The Python text written for a call is the wanted one. -/
theorem pythonised_call {f : Text} {args : List Text} (hf : f ∈ callNames) (hne : args ≠ [])
    (h : ∀ a ∈ args, ∀ c ∈ a, isIdent c = true ∧ c ≠ '_') :
    pythonisedFunction (Word.call f args).source = (Word.call f args).python := by
  have e1 : "(".toList = ['('] := by decide +kernel
  have e2 : ")".toList = [')'] := by decide +kernel
  rw [pythonised_split (split_call hf hne h), python_call, joinComma_quoted, e1, e2]
  exact brackets _ _ _

theorem pythonised_current : pythonisedFunction Word.currentLength.source = Word.currentLength.python := by
  decide +kernel

/-! ## The calls found -/

theorem getElem?_drop_zero (t : Text) (k : Nat) : (t.drop k)[0]? = t[k]? := by simp

/-- Two maximal identifiers at the same place are equal. -/
theorem maximal_unique {a b t : Text} {s : Nat} (ha : MaximalAt a t s) (hb : MaximalAt b t s) : a = b := by
  obtain ⟨a1, a2, a3, a4⟩ := ha
  obtain ⟨b1, b2, b3, b4⟩ := hb
  have aux : ∀ a b : Text, a <+: t.drop s → b <+: t.drop s → a ≠ [] → (∀ c ∈ b.tail, isIdent c = true) →
      (∀ c, t[s + a.length]? = some c → isIdent c = false) → a <+: b → a = b := by
    intro a b h1 h2 hne hb ha h
    obtain ⟨z, rfl⟩ := h
    cases z with
    | nil => simp
    | cons d z =>
      exfalso
      obtain ⟨y, hy⟩ := h2
      have : t[s + a.length]? = some d := by
        rw [← List.getElem?_drop, ← hy]
        simp
      have h3 := ha d this
      have h4 := hb d (by
        cases a with
        | nil => exact absurd rfl hne
        | cons x a => simp)
      rw [h3] at h4
      cases h4
  rcases List.prefix_or_prefix_of_prefix a1 b1 with h | h
  · exact aux a b a1 b1 a2 b3 a4 h
  · exact (aux b a b1 a1 b2 a3 b4 h).symm

/-- The identifier found at an occurrence of a function prefix begins with it. -/
theorem prefix_of_maximal {p c t : Text} {s : Nat} (hp : ∀ d ∈ p, isIdent d = true) (h1 : OccursAt p t s)
    (h2 : MaximalAt c t s) : p <+: c := by
  obtain ⟨c1, c2, c3, c4⟩ := h2
  rcases List.prefix_or_prefix_of_prefix h1 c1 with h | h
  · exact h
  · obtain ⟨z, rfl⟩ := h
    cases z with
    | nil => simp
    | cons d z =>
      exfalso
      obtain ⟨y, hy⟩ := h1
      have : t[s + c.length]? = some d := by
        rw [← List.getElem?_drop, ← hy]
        simp
      have h3 := c4 d this
      rw [hp d (by simp)] at h3
      cases h3

theorem maximal_ident {p c t : Text} {s : Nat} (hne : p ≠ []) (hp : ∀ d ∈ p, isIdent d = true)
    (h1 : OccursAt p t s) (h2 : MaximalAt c t s) : ∀ d ∈ c, isIdent d = true := by
  have h := prefix_of_maximal hp h1 h2
  obtain ⟨_, c2, c3, _⟩ := h2
  intro d hd
  cases c with
  | nil => exact absurd rfl c2
  | cons c0 c =>
    rcases List.mem_cons.1 hd with rfl | hd
    · cases p with
      | nil => exact absurd rfl hne
      | cons p0 p =>
        rw [List.cons_prefix_cons] at h
        rw [← h.1]
        exact hp p0 List.mem_cons_self
    · exact c3 d hd

theorem Words.sep (e : Words) (he : e.Ok) : ∀ x ∈ e.rest.map (fun x => (x.1, x.2.source)), isIdent x.1 = false := by
  intro x hx
  obtain ⟨y, hy, rfl⟩ := List.mem_map.1 hx
  exact he.2 y hy

theorem Words.mem_sources (e : Words) (w : Text) :
    w ∈ e.first.source :: (e.rest.map fun x => (x.1, x.2.source)).map (·.2) ↔ ∃ v ∈ e.words, w = v.source := by
  simp only [Words.words, List.map_map, List.mem_cons, List.mem_map, Function.comp]
  constructor
  · rintro (rfl | ⟨x, hx, rfl⟩)
    · exact ⟨_, Or.inl rfl, rfl⟩
    · exact ⟨_, Or.inr ⟨x, hx, rfl⟩, rfl⟩
  · rintro ⟨v, rfl | ⟨x, hx, rfl⟩, rfl⟩
    · exact Or.inl rfl
    · exact Or.inr ⟨x, hx, rfl⟩

/-- A call found begins with its prefix and ends a word. -/
theorem found_spec (e : Words) (he : e.Ok) {c p : Text} (hp : p ∈ functionPrefixes)
    (h : c ∈ identifiers e.source p) :
    p <+: c ∧ (∀ d ∈ c, isIdent d = true) ∧ ∃ v ∈ e.words, c <:+ v.source := by
  have hne := prefixes_ne p hp
  have hid := prefixes_ident p hp
  obtain ⟨s, h1, h2, _⟩ := (identifiers_spec e.source p hne).2.1 c h
  have hc := maximal_ident hne hid h1 h2
  refine ⟨prefix_of_maximal hid h1 h2, hc, ?_⟩
  obtain ⟨c1, c2, _, c4⟩ := h2
  obtain ⟨y, hy⟩ := c1
  have hsrc : e.source = e.source.take s ++ (c ++ y) := by rw [hy, List.take_append_drop]
  obtain ⟨w, hw, hcw⟩ := suffix_glue (y := y) c2 hc (by
      intro d hd
      refine c4 d ?_
      rw [← List.getElem?_drop, ← hy, List.getElem?_append_right (Nat.le_refl _), Nat.sub_self]
      exact hd) _ e.first.source (e.source.take s) (e.sep he) (by
      intro w hw
      obtain ⟨v, hv, rfl⟩ := (e.mem_sources w).1 hw
      exact v.source_ident (he.1 v hv)) hsrc
  obtain ⟨v, hv, rfl⟩ := (e.mem_sources w).1 hw
  exact ⟨v, hv, hcw⟩

/-- A word that begins with a function prefix is found. -/
theorem word_found (e : Words) (he : e.Ok) {w : Word} {p : Text} (hp : p ∈ functionPrefixes) (hw : w ∈ e.words)
    (h : p <+: w.source) : w.source ∈ identifiers e.source p := by
  have hne := prefixes_ne p hp
  have hid := prefixes_ident p hp
  obtain ⟨x, y, h1, h2, h3⟩ := mem_glue _ e.first.source (e.sep he) w.source ((e.mem_sources _).2 ⟨w, hw, rfl⟩)
  change e.source = _ at h1
  have hdrop : e.source.drop x.length = w.source ++ y := by rw [h1]; simp
  have hocc : OccursAt p e.source x.length := by
    unfold OccursAt
    rw [hdrop]
    exact h.trans (List.prefix_append _ _)
  have hwid := w.source_ident (he.1 w hw)
  have hmax : MaximalAt w.source e.source x.length := by
    refine ⟨?_, ?_, fun c hc => hwid c (List.mem_of_mem_tail hc), ?_⟩
    · unfold OccursAt
      rw [hdrop]
      exact List.prefix_append _ _
    · intro h0
      rw [h0] at h
      exact hne (List.prefix_nil.1 h)
    · intro c hc
      apply h3 c
      rw [← List.getElem?_drop, hdrop, List.getElem?_append_right (Nat.le_refl _), Nat.sub_self] at hc
      exact hc
  obtain ⟨s, name, k1, k2, k3, k4, k5⟩ := (identifiers_spec e.source p hne).2.2 x.length hocc
  have hnid := maximal_ident hne hid k3 k2
  have hs : s = x.length := by
    by_contra hlt
    have hlt : s < x.length := by omega
    have hxne : x ≠ [] := by rintro rfl; simp at hlt
    have hlast : e.source[x.length - 1]? = some (x.getLast hxne) := by
      rw [h1, List.getElem?_append_left (by omega), ← List.getLast?_eq_getElem?, List.getLast?_eq_some_getLast hxne]
    have hnon := h2 _ (List.getLast?_eq_some_getLast hxne)
    obtain ⟨z, hz⟩ := k2.1
    have hin : name[x.length - 1 - s]? = some (x.getLast hxne) := by
      have e1 : e.source[s + (x.length - 1 - s)]? = some (x.getLast hxne) := by
        rw [← hlast]; congr 1; omega
      rw [← List.getElem?_drop, ← hz, List.getElem?_append_left (by omega)] at e1
      exact e1
    have := hnid _ (List.mem_of_getElem? hin)
    rw [hnon] at this
    cases this
  subst hs
  rw [maximal_unique hmax k2]
  exact k1

/-! ## `CurrentLength` -/

theorem append_self_length {c x y : Text} (h : c = x ++ (c ++ y)) : x.length = 0 := by
  have := congrArg List.length h
  simp only [List.length_append] at this
  omega

/-- A text that is at most one item of a glued text, and lies inside of no other item, occurs at one place. -/
theorem unique_occurrence {c : Text} (hne : c ≠ []) (hc : ∀ d ∈ c, isIdent d = true) (r : List (Char × Text)) :
    ∀ a x y x' y' : Text, (∀ x ∈ r, isIdent x.1 = false) → (∀ w ∈ a :: r.map (·.2), c <:+: w → w = c) →
      (∀ A B C : List Text, a :: r.map (·.2) ≠ A ++ c :: B ++ c :: C) →
      glue a r = x ++ (c ++ y) → glue a r = x' ++ (c ++ y') → x.length = x'.length := by
  induction r with
  | nil =>
    intro a x y x' y' _ hw _ h h'
    rw [glue_nil] at h h'
    have ha : a = c := hw a List.mem_cons_self ⟨x, y, by rw [h, List.append_assoc]⟩
    subst ha
    rw [append_self_length h, append_self_length h']
  | cons p r ih =>
    obtain ⟨s, v⟩ := p
    intro a x y x' y' hs hw hone h h'
    have hs0 := hs (s, v) List.mem_cons_self
    have hs1 : ∀ x ∈ r, isIdent x.1 = false := fun x hx => hs x (List.mem_cons_of_mem _ hx)
    rw [glue_cons] at h h'
    have both : ∀ x y x' y' : Text, a = x ++ (c ++ y) → glue v r = x' ++ (c ++ y') → False := by
      intro x y x' y' h h'
      have ha : a = c := hw a List.mem_cons_self ⟨x, y, by rw [h, List.append_assoc]⟩
      obtain ⟨w, hwm, hcw⟩ := infix_glue hne hc r v hs1 ⟨x', y', by rw [h', List.append_assoc]⟩
      have hwc : w = c := hw w (List.mem_cons_of_mem _ hwm) hcw
      subst hwc
      obtain ⟨B, C, hBC⟩ := List.append_of_mem hwm
      refine hone [] B C ?_
      rw [List.map_cons, hBC, ha]
      simp
    rcases split_at_sep hc hs0 h with ⟨z, h1, _⟩ | ⟨z, h1, h2⟩ | ⟨h0, _⟩
    · rcases split_at_sep hc hs0 h' with ⟨z', h1', _⟩ | ⟨z', h1', h2'⟩ | ⟨h0, _⟩
      · have ha : a = c := hw a List.mem_cons_self ⟨x, z, by rw [h1, List.append_assoc]⟩
        subst ha
        rw [append_self_length h1, append_self_length h1']
      · exact (both _ _ _ _ h1 h2').elim
      · exact absurd h0 hne
    · rcases split_at_sep hc hs0 h' with ⟨z', h1', _⟩ | ⟨z', h1', h2'⟩ | ⟨h0, _⟩
      · exact (both _ _ _ _ h1' h2).elim
      · have := ih v z y z' y' hs1 (fun w hwm => hw w (List.mem_cons_of_mem _ hwm)) (by
          intro A B C hABC
          apply hone (a :: A) B C
          rw [List.map_cons, hABC]
          rfl) h2 h2'
        rw [h1, h1', List.length_append, List.length_append, List.length_cons, List.length_cons, this]
      · exact absurd h0 hne
    · exact absurd h0 hne

/-- A prefix that occurs at one place only gives at most one identifier. -/
theorem identifiers_length_le (e p : Text) (hne : p ≠ []) (h : ∀ k k', OccursAt p e k → OccursAt p e k' → k = k') :
    (identifiers e p).length ≤ 1 := by
  have hscan := (identifiers_spec e p hne).1
  rw [show e.length + 2 = (e.length + 1) + 1 from rfl, scan] at hscan
  cases hf : findIdentifier e p 0 with
  | none =>
    rw [hf] at hscan
    simp only [Option.some.injEq] at hscan
    rw [← hscan]
    simp
  | some q =>
    obtain ⟨name, next⟩ := q
    rw [hf] at hscan
    obtain ⟨s, _, _, h3, _, h5, _⟩ := findIdentifier_some hne hf
    have hnone : findIdentifier e p next = none := by
      cases hf' : findIdentifier e p next with
      | none => rfl
      | some q' =>
        obtain ⟨name', next'⟩ := q'
        obtain ⟨s', k1, _, k3, _⟩ := findIdentifier_some hne hf'
        have := h s s' h3 k3
        omega
    simp only [scan, hnone, Option.map_some, Option.some.injEq] at hscan
    rw [← hscan]
    simp

theorem current_mem : "CurrentLength".toList ∈ functionPrefixes := by decide +kernel

/-- A word of the expression that holds `CurrentLength` is `CurrentLength`. -/
theorem current_in_word (w : Word) (h : w.Ok) (hi : "CurrentLength".toList <:+: w.source) : w = .currentLength := by
  cases w with
  | plain w => exact absurd hi (h.2 _ ((keywords_perm _).1 current_mem))
  | call f args =>
    obtain ⟨h1, _, _, h4⟩ := h
    obtain ⟨x, y, hxy⟩ := hi
    rw [List.append_assoc] at hxy
    have := prefix_in_call current_mem h4 hxy.symm
    exact absurd ((List.suffix_append x _).isInfix.trans this.isInfix)
      ((by decide +kernel : ∀ f ∈ callNames, ¬ "CurrentLength".toList <:+: f ++ ['_']) f h1)
  | currentLength => rfl

theorem currents_length (e : Words) (he : e.Ok) (hone : e.OneCurrent) :
    (identifiers e.source "CurrentLength".toList).length ≤ 1 := by
  have hne := prefixes_ne _ current_mem
  have hid := prefixes_ident _ current_mem
  apply identifiers_length_le _ _ hne
  intro k k' h h'
  have hlt : ∀ k, OccursAt "CurrentLength".toList e.source k → k ≤ e.source.length := by
    intro k h
    by_contra hk
    unfold OccursAt at h
    rw [List.drop_eq_nil_of_le (by omega), List.prefix_nil] at h
    exact hne h
  have hk := hlt k h
  have hk' := hlt k' h'
  obtain ⟨y, hy⟩ := h
  obtain ⟨y', hy'⟩ := h'
  have := unique_occurrence hne hid _ e.first.source (e.source.take k) y (e.source.take k') y' (e.sep he) (by
      intro w hw hi
      obtain ⟨v, hv, rfl⟩ := (e.mem_sources w).1 hw
      rw [current_in_word v (he.1 v hv) hi]
      rfl) (by
      intro A B C hABC
      have hmap : e.words.map Word.source = A ++ "CurrentLength".toList :: B ++ "CurrentLength".toList :: C := by
        rw [← hABC]
        simp [Words.words, Function.comp_def]
      obtain ⟨l1, l2, hl, hm1, hm2⟩ := List.map_eq_append_iff.1 hmap
      obtain ⟨l3, l4, hl', hm3, hm4⟩ := List.map_eq_append_iff.1 hm1
      obtain ⟨w, l5, hw, hsw, _⟩ := List.map_eq_cons_iff.1 hm4
      obtain ⟨w', l6, hw', hsw', _⟩ := List.map_eq_cons_iff.1 hm2
      have hwm : w ∈ e.words := by rw [hl, hl', hw]; simp
      have hwm' : w' ∈ e.words := by rw [hl, hw']; simp
      have e1 := current_in_word w (he.1 w hwm) (by rw [hsw]; exact List.infix_rfl)
      have e2 := current_in_word w' (he.1 w' hwm') (by rw [hsw']; exact List.infix_rfl)
      apply hone l3 l5 l6
      rw [hl, hl', hw, hw', e1, e2]) (by rw [hy, List.take_append_drop]; rfl) (by rw [hy', List.take_append_drop]; rfl)
  rw [List.length_take_of_le hk, List.length_take_of_le hk'] at this
  exact this

/-! ## The order of the calls -/

/-- A call of the list is at its place among the calls with the same prefix. -/
theorem call_order (e : Words) (he : e.Ok) {A B D T : List Text} {p c : Text}
    (hpre : functionPrefixes = A ++ p :: B) (hpc : p <+: c) (hL : functionCalls e.source = D ++ c :: T) :
    ∃ I1 I2, identifiers e.source p = I1 ++ c :: I2 ∧ D = A.flatMap (identifiers e.source) ++ I1 := by
  have hnd := prefixes_nodup
  rw [hpre] at hnd
  have hnd' := List.nodup_append.1 hnd
  have hpm : p ∈ functionPrefixes := by rw [hpre]; simp
  have notin : ∀ C : List Text, (∀ q ∈ C, q ∈ functionPrefixes) → p ∉ C → c ∉ C.flatMap (identifiers e.source) := by
    intro C hC hpC hc
    obtain ⟨q, hq, hcq⟩ := List.mem_flatMap.1 hc
    have := (found_spec e he (hC q hq) hcq).1
    exact hpC (prefix_unique hpm (hC q hq) hpc this ▸ hq)
  have hA : c ∉ A.flatMap (identifiers e.source) := by
    apply notin A (fun q hq => by rw [hpre]; simp [hq])
    intro hp
    exact hnd'.2.2 p hp p List.mem_cons_self rfl
  have hB : c ∉ B.flatMap (identifiers e.source) := by
    apply notin B (fun q hq => by rw [hpre]; simp [hq])
    exact (List.nodup_cons.1 hnd'.2.1).1
  unfold functionCalls at hL
  rw [hpre, List.flatMap_append, List.flatMap_cons] at hL
  generalize A.flatMap (identifiers e.source) = AA at *
  generalize B.flatMap (identifiers e.source) = BB at *
  generalize identifiers e.source p = II at *
  have tail : ∀ u : List Text, II ++ BB = u ++ c :: T → ∃ I2, II = u ++ c :: I2 := by
    intro u hu
    rw [List.append_eq_append_iff] at hu
    rcases hu with ⟨v, _, hv⟩ | ⟨v, hv, hv'⟩
    · exfalso
      apply hB
      rw [hv]; simp
    · cases v with
      | nil =>
        exfalso
        apply hB
        rw [List.nil_append] at hv'
        rw [← hv']; simp
      | cons v0 v =>
        simp only [List.cons_append, List.cons.injEq] at hv'
        exact ⟨v, by rw [hv, hv'.1]⟩
  rw [List.append_eq_append_iff] at hL
  rcases hL with ⟨u, hD, hu⟩ | ⟨u, hAA, hu⟩
  · obtain ⟨I2, hI⟩ := tail u hu
    exact ⟨u, I2, hI, hD⟩
  · cases u with
    | nil =>
      obtain ⟨I2, hI⟩ := tail [] hu.symm
      exact ⟨[], I2, hI, by rw [hAA]; simp⟩
    | cons u0 u =>
      exfalso
      simp only [List.cons_append, List.cons.injEq] at hu
      apply hA
      rw [hAA, hu.1]; simp

/-! ## One replacement -/

/-- The text of a word once the calls of `D` have been replaced. -/
def wordText (D : List Text) (w : Word) : Text := if w.source ∈ D then w.python else w.source

/-- The text of the expression once the calls of `D` have been replaced. -/
def textAfter (D : List Text) (e : Words) : Text :=
  glue (wordText D e.first) (e.rest.map fun x => (x.1, wordText D x.2))

theorem mem_calls {e c : Text} (h : c ∈ functionCalls e) : ∃ p ∈ functionPrefixes, c ∈ identifiers e p :=
  List.mem_flatMap.1 h

/-- The prefixes inside of the prefix of a call come later. -/
theorem inner_later : ∀ f ∈ callNames, ∀ p ∈ functionPrefixes, p <:+: f ++ ['_'] →
    p = f ++ ['_'] ∨ f ++ ['_'] ∈ functionPrefixes.takeWhile (· ≠ p) := by decide +kernel

theorem takeWhile_split (l : List Text) (p : Text) (h : p ∈ l) : ∃ B, l = l.takeWhile (· ≠ p) ++ p :: B := by
  induction l with
  | nil => cases h
  | cons a l ih =>
    by_cases ha : a = p
    · subst ha
      exact ⟨l, by simp⟩
    · have hm : p ∈ l := by
        rcases List.mem_cons.1 h with h | h
        · exact absurd h.symm ha
        · exact h
      obtain ⟨B, hB⟩ := ih hm
      refine ⟨B, ?_⟩
      rw [List.takeWhile_cons_of_pos (by simpa using ha), List.cons_append, ← hB]

theorem call_source_prefix (f : Text) (args : List Text) : f ++ ['_'] <+: (Word.call f args).source := by
  refine ⟨underscored args, ?_⟩
  change f ++ ['_'] ++ underscored args = f ++ '_' :: underscored args
  simp

theorem mem_takeWhile_ne {l : List Text} {p q : Text} (h : q ∈ l.takeWhile (· ≠ p)) : q ∈ l ∧ q ≠ p := by
  induction l with
  | nil => simp at h
  | cons a l ih =>
    by_cases ha : a = p
    · subst ha
      simp at h
    · rw [List.takeWhile_cons_of_pos (by simpa using ha)] at h
      rcases List.mem_cons.1 h with rfl | h
      · exact ⟨List.mem_cons_self, ha⟩
      · exact ⟨List.mem_cons_of_mem _ (ih h).1, (ih h).2⟩

theorem call_prefix_mem : ∀ f ∈ callNames, f ++ ['_'] ∈ functionPrefixes := by decide +kernel

theorem replace_word (e : Words) (he : e.Ok) (hclash : e.NoClash) (hone : e.OneCurrent) {D T : List Text} {c : Text}
    (hL : functionCalls e.source = D ++ c :: T) (w : Word) (hw : w ∈ e.words) :
    replace c (pythonisedFunction c) (wordText D w) = wordText (D ++ [c]) w := by
  have hcL : c ∈ functionCalls e.source := by rw [hL]; simp
  obtain ⟨p, hp, hcp⟩ := mem_calls hcL
  obtain ⟨hpc, hcid, v, hv, hcv⟩ := found_spec e he hp hcp
  obtain ⟨B, hB⟩ := takeWhile_split functionPrefixes p hp
  obtain ⟨I1, I2, hI, hD⟩ := call_order e he hB hpc hL
  have hok := he.1 w hw
  have hcne : c ≠ [] := by
    rintro rfl
    exact prefixes_ne p hp (List.prefix_nil.1 hpc)
  have hpi : ∀ t : Text, c <:+: t → p <:+: t := fun t h => hpc.isInfix.trans h
  cases w with
  | plain t =>
    have e1 : ∀ D, wordText D (.plain t) = t := by
      intro D
      unfold wordText
      split <;> rfl
    rw [e1, e1]
    exact replace_free _ _ _ (fun h => hok.2 p ((keywords_perm p).1 hp) (hpi _ h))
  | currentLength =>
    by_cases hD' : Word.currentLength.source ∈ D
    · have e1 : wordText D .currentLength = Word.currentLength.python := if_pos hD'
      have e2 : wordText (D ++ [c]) .currentLength = Word.currentLength.python :=
        if_pos (List.mem_append_left _ hD')
      rw [e1, e2]
      apply replace_free
      intro hi
      have hpcur := infix_python_current hp (hpi _ hi)
      subst hpcur
      have hlen := currents_length e he hone
      rw [hI] at hlen
      have hI1 : I1 = [] := by
        cases I1 with
        | nil => rfl
        | cons i I1 => simp at hlen
      rw [hD, hI1, List.append_nil] at hD'
      obtain ⟨q, hq, hcq⟩ := List.mem_flatMap.1 hD'
      have hqm : q ∈ functionPrefixes := (mem_takeWhile_ne hq).1
      have := (found_spec e he hqm hcq).1
      have hqe : q = "CurrentLength".toList := prefixes_antichain q hqm _ current_mem this
      exact (mem_takeWhile_ne hq).2 hqe
    · by_cases hcw : c = Word.currentLength.source
      · have e1 : wordText D .currentLength = Word.currentLength.source := if_neg hD'
        have e2 : wordText (D ++ [c]) .currentLength = Word.currentLength.python :=
          if_pos (List.mem_append_right _ (by rw [hcw]; exact List.mem_singleton.2 rfl))
        rw [e1, e2, hcw, replace_whole _ _ (by rw [← hcw]; exact hcne), pythonised_current]
      · have e1 : ∀ D', D' = D ∨ D' = D ++ [c] → wordText D' .currentLength = Word.currentLength.source := by
          intro D' hD''
          refine if_neg ?_
          rcases hD'' with rfl | rfl
          · exact hD'
          · rw [List.mem_append, List.mem_singleton]
            rintro (h | h)
            · exact hD' h
            · exact hcw h.symm
        rw [e1 D (Or.inl rfl), e1 _ (Or.inr rfl)]
        apply replace_free
        intro hi
        have hpcur := infix_source_current hp (hpi _ hi)
        rw [hpcur] at hpc
        apply hcw
        have h1 : c.length ≤ Word.currentLength.source.length := hi.length_le
        exact (hpc.eq_of_length (Nat.le_antisymm hpc.length_le h1)).symm
  | call f args =>
    obtain ⟨h1, h2, h3, h4⟩ := hok
    by_cases hD' : (Word.call f args).source ∈ D
    · have e1 : wordText D (.call f args) = (Word.call f args).python := if_pos hD'
      have e2 : wordText (D ++ [c]) (.call f args) = (Word.call f args).python :=
        if_pos (List.mem_append_left _ hD')
      rw [e1, e2]
      exact replace_free _ _ _ (fun h => infix_python_call hp h1 h4 (hpi _ h))
    · by_cases hcw : c = (Word.call f args).source
      · have e1 : wordText D (.call f args) = (Word.call f args).source := if_neg hD'
        have e2 : wordText (D ++ [c]) (.call f args) = (Word.call f args).python :=
          if_pos (List.mem_append_right _ (by rw [hcw]; exact List.mem_singleton.2 rfl))
        rw [e1, e2, hcw, replace_whole _ _ (by rw [← hcw]; exact hcne), pythonised_call h1 h2 h3]
      · have e1 : ∀ D', D' = D ∨ D' = D ++ [c] → wordText D' (.call f args) = (Word.call f args).source := by
          intro D' hD''
          refine if_neg ?_
          rcases hD'' with rfl | rfl
          · exact hD'
          · rw [List.mem_append, List.mem_singleton]
            rintro (h | h)
            · exact hD' h
            · exact hcw h.symm
        rw [e1 D (Or.inl rfl), e1 _ (Or.inr rfl)]
        apply replace_free
        rintro ⟨x, y, hxy⟩
        obtain ⟨c', hc'⟩ := hpc
        have hsrc : f ++ '_' :: underscored args = x ++ (p ++ (c' ++ y)) := by
          rw [← List.append_assoc p, hc', ← List.append_assoc, hxy]
          rfl
        have hin := prefix_in_call hp h4 hsrc
        have hfsrc : f ++ ['_'] <+: (Word.call f args).source := call_source_prefix f args
        rcases inner_later f h1 p hp ((List.suffix_append x p).isInfix.trans hin.isInfix) with hpf | hlater
        · -- the call begins the word
          have hx : x = [] := by
            have := hin.length_le
            rw [hpf, List.length_append] at this
            exact List.length_eq_zero_iff.1 (by omega)
          subst hx
          apply hcw
          apply hclash v hv _ hw c hcv ⟨p, (keywords_perm p).1 hp, ⟨c', hc'⟩⟩ ?_ trivial
          exact ⟨y, by simpa using hxy⟩
        · -- the word has been replaced before
          apply hD'
          rw [hD]
          apply List.mem_append_left
          exact List.mem_flatMap.2 ⟨_, hlater, word_found e he (call_prefix_mem f h1) hw hfsrc⟩

theorem wordText_sep (e : Words) (he : e.Ok) (D : List Text) :
    ∀ x ∈ e.rest.map (fun x => (x.1, wordText D x.2)), isIdent x.1 = false := by
  intro x hx
  obtain ⟨y, hy, rfl⟩ := List.mem_map.1 hx
  exact he.2 y hy

theorem replace_text (e : Words) (he : e.Ok) (hclash : e.NoClash) (hone : e.OneCurrent) {D T : List Text} {c : Text}
    (hL : functionCalls e.source = D ++ c :: T) :
    replace c (pythonisedFunction c) (textAfter D e) = textAfter (D ++ [c]) e := by
  have hcL : c ∈ functionCalls e.source := by rw [hL]; simp
  obtain ⟨p, hp, hcp⟩ := mem_calls hcL
  obtain ⟨hpc, hcid, _⟩ := found_spec e he hp hcp
  have hcne : c ≠ [] := by
    rintro rfl
    exact prefixes_ne p hp (List.prefix_nil.1 hpc)
  unfold textAfter
  rw [replace_glue hcne hcid _ _ (wordText_sep e he D),
    replace_word e he hclash hone hL e.first List.mem_cons_self, List.map_map]
  congr 1
  apply List.map_congr_left
  intro x hx
  simp only [Function.comp]
  rw [replace_word e he hclash hone hL x.2 (List.mem_cons_of_mem _ (List.mem_map_of_mem hx))]

theorem replace_all (e : Words) (he : e.Ok) (hclash : e.NoClash) (hone : e.OneCurrent) (T : List Text) :
    ∀ D, functionCalls e.source = D ++ T →
      T.foldl (fun t call => replace call (pythonisedFunction call) t) (textAfter D e) = textAfter (D ++ T) e := by
  induction T with
  | nil => intro D _; simp
  | cons c T ih =>
    intro D hL
    rw [List.foldl_cons, replace_text e he hclash hone hL, ih (D ++ [c]) (by rw [hL]; simp)]
    simp

theorem textAfter_nil (e : Words) : textAfter [] e = e.source := by
  simp [textAfter, wordText, Words.source]

theorem textAfter_all (e : Words) (he : e.Ok) : textAfter (functionCalls e.source) e = e.python := by
  have key : ∀ w ∈ e.words, wordText (functionCalls e.source) w = w.python := by
    intro w hw
    cases hw' : w with
    | plain t => unfold wordText; split <;> rfl
    | call f args =>
      rw [← hw']
      refine if_pos ?_
      have hok := he.1 w hw
      rw [hw'] at hok
      exact List.mem_flatMap.2 ⟨_, call_prefix_mem f hok.1, word_found e he (call_prefix_mem f hok.1) hw
        (by rw [hw']; exact call_source_prefix f args)⟩
    | currentLength =>
      rw [← hw']
      refine if_pos ?_
      exact List.mem_flatMap.2 ⟨_, current_mem, word_found e he current_mem hw (by rw [hw']; exact List.prefix_rfl)⟩
  unfold textAfter Words.python
  rw [key e.first List.mem_cons_self]
  congr 1
  apply List.map_congr_left
  intro x hx
  rw [key x.2 (List.mem_cons_of_mem _ (List.mem_map_of_mem hx))]

end Patro.Calculator
