import Verif.Props.Calculator
import Verif.Model.Formula
import Verif.Spec.Formula
import Verif.Props.CalculatorCalls
import Verif.Props.CalcFunctions
/-! # Proofs about formulas: tokens, parsing -/

namespace Patro.Calculator

open Patro.Text

/-- The calls found in `e` are replaced in another text `g`, whose calls are those of `e`. -/
theorem replace_other (e g : Words) (he : e.Ok) (hclash : e.NoClash) (hone : e.OneCurrent) (hg : g.Ok)
    (hw : ∀ w ∈ g.words, w.isFunction → w ∈ e.words) (T : List Text) :
    ∀ D, functionCalls e.source = D ++ T →
      T.foldl (fun t call => replace call (pythonisedFunction call) t) (textAfter D g) = textAfter (D ++ T) g := by
  induction T with
  | nil => intro D _; simp
  | cons c T ih =>
    intro D hL
    have hcL : c ∈ functionCalls e.source := by rw [hL]; simp
    obtain ⟨p, hp, hcp⟩ := mem_calls hcL
    obtain ⟨hpc, hcid, _⟩ := found_spec e he hp hcp
    have hcne : c ≠ [] := by
      rintro rfl
      exact prefixes_ne p hp (List.prefix_nil.1 hpc)
    have word : ∀ w ∈ g.words, replace c (pythonisedFunction c) (wordText D w) = wordText (D ++ [c]) w := by
      intro w hm
      cases hw' : w with
      | plain t =>
        have e1 : ∀ D, wordText D (.plain t) = t := fun D => by unfold wordText; split <;> rfl
        rw [e1, e1]
        refine replace_free _ _ _ fun h => ?_
        have hok := hg.1 w hm
        rw [hw'] at hok
        exact hok.2 p ((keywords_perm p).1 hp) (hpc.isInfix.trans h)
      | call f args =>
        rw [← hw']
        exact replace_word e he hclash hone hL w (hw w hm (by rw [hw']; trivial))
      | currentLength =>
        rw [← hw']
        exact replace_word e he hclash hone hL w (hw w hm (by rw [hw']; trivial))
    have text : replace c (pythonisedFunction c) (textAfter D g) = textAfter (D ++ [c]) g := by
      unfold textAfter
      rw [replace_glue hcne hcid _ _ (wordText_sep g hg D), word g.first List.mem_cons_self, List.map_map]
      congr 1
      apply List.map_congr_left
      intro x hx
      simp only [Function.comp]
      rw [word x.2 (List.mem_cons_of_mem _ (List.mem_map_of_mem hx))]
    rw [List.foldl_cons, text, ih (D ++ [c]) (by rw [hL]; simp)]
    simp

/-- The calls found in `e` are replaced in another text `g`, whose calls are those of `e`. -/
theorem rewriteCalls_other (e g : Words) (he : e.Ok) (hclash : e.NoClash) (hone : e.OneCurrent) (hg : g.Ok)
    (hw : ∀ w ∈ g.words, w.isFunction → w ∈ e.words) : rewriteCalls e.source g.source = g.python := by
  unfold rewriteCalls
  have h := replace_other e g he hclash hone hg hw (functionCalls e.source) [] (List.nil_append _).symm
  rw [textAfter_nil, List.nil_append] at h
  rw [h]
  have key : ∀ w ∈ g.words, wordText (functionCalls e.source) w = w.python := by
    intro w hm
    cases hw' : w with
    | plain t => unfold wordText; split <;> rfl
    | call f args =>
      rw [← hw']
      refine if_pos ?_
      have hok := hg.1 w hm
      rw [hw'] at hok
      exact List.mem_flatMap.2 ⟨_, call_prefix_mem f hok.1, word_found e he (call_prefix_mem f hok.1) (hw w hm (by rw [hw']; trivial))
        (by rw [hw']; exact call_source_prefix f args)⟩
    | currentLength =>
      rw [← hw']
      refine if_pos ?_
      exact List.mem_flatMap.2 ⟨_, current_mem, word_found e he current_mem (hw w hm (by rw [hw']; trivial)) (by rw [hw']; exact List.prefix_rfl)⟩
  unfold textAfter Words.python
  rw [key g.first List.mem_cons_self]
  congr 1
  apply List.map_congr_left
  intro x hx
  rw [key x.2 (List.mem_cons_of_mem _ (List.mem_map_of_mem hx))]

end Patro.Calculator

namespace Patro.Formulas

open Patro.Text (Text)
open Patro.Calculator (isIdent Word Words Free keywords glue)

namespace Formula

/-! ## Words -/

/-- The formula as words and separators. -/
def asWords : Formula → Words
  | number w none => ⟨.plain w, []⟩
  | number w (some f) => ⟨.plain w, [('.', .plain f)]⟩
  | measurement n => ⟨.plain n, []⟩
  | custom n => ⟨.plain [], [('@', .plain n)]⟩
  | line a b => ⟨.call "Line".toList [a, b], []⟩
  | angleLine a b => ⟨.call "AngleLine".toList [a, b], []⟩
  | currentLength => ⟨.currentLength, []⟩
  | paren f => ⟨.plain [], ('(', f.asWords.first) :: f.asWords.rest ++ [(')', .plain [])]⟩
  | pos f => ⟨.plain [], ('+', f.asWords.first) :: f.asWords.rest⟩
  | neg f => ⟨.plain [], ('-', f.asWords.first) :: f.asWords.rest⟩
  | add f g => ⟨f.asWords.first, f.asWords.rest ++ ('+', g.asWords.first) :: g.asWords.rest⟩
  | sub f g => ⟨f.asWords.first, f.asWords.rest ++ ('-', g.asWords.first) :: g.asWords.rest⟩
  | mul f g => ⟨f.asWords.first, f.asWords.rest ++ ('*', g.asWords.first) :: g.asWords.rest⟩
  | div f g => ⟨f.asWords.first, f.asWords.rest ++ ('/', g.asWords.first) :: g.asWords.rest⟩
  | before f => ⟨.plain [], (' ', f.asWords.first) :: f.asWords.rest⟩
  | after f => ⟨f.asWords.first, f.asWords.rest ++ [(' ', .plain [])]⟩

/-- `__calculator__._function_Line('A', 'B')`. -/
def lineCall (a b : Text) : Text := "__calculator__._function_Line('".toList ++ a ++ "', '".toList ++ b ++ "')".toList

/-- `__calculator__._function_AngleLine('A', 'B')`. -/
def angleLineCall (a b : Text) : Text := "__calculator__._function_AngleLine('".toList ++ a ++ "', '".toList ++ b ++ "')".toList

/-- `__calculator__._function_CurrentLength()`. -/
def currentCall : Text := "__calculator__._function_CurrentLength()".toList

/-- The text given to Python. -/
def python : Formula → Text
  | number w none => w
  | number w (some f) => w ++ '.' :: f
  | measurement n => n
  | custom n => '@' :: n
  | line a b => lineCall a b
  | angleLine a b => angleLineCall a b
  | currentLength => currentCall
  | paren f => '(' :: f.python ++ [')']
  | pos f => '+' :: f.python
  | neg f => '-' :: f.python
  | add f g => f.python ++ '+' :: g.python
  | sub f g => f.python ++ '-' :: g.python
  | mul f g => f.python ++ '*' :: g.python
  | div f g => f.python ++ '/' :: g.python
  | before f => ' ' :: f.python
  | after f => f.python ++ [' ']

theorem glue_append (a : Text) (l r : List (Char × Text)) (c : Char) (b : Text) :
    glue a (l ++ (c, b) :: r) = glue a l ++ c :: glue b r := by simp [glue]

theorem plain_source (w : Text) : (Word.plain w).source = w := rfl

theorem plain_python (w : Text) : (Word.plain w).python = w := rfl

theorem asWords_source (f : Formula) : f.asWords.source = f.source := by
  induction f with
  | number w f =>
    cases f with
    | none => exact List.append_nil w
    | some f => exact congrArg (fun x => w ++ '.' :: x) (List.append_nil f)
  | measurement n => exact List.append_nil n
  | custom n => exact congrArg ('@' :: ·) (List.append_nil n)
  | line a b =>
    change "Line".toList ++ '_' :: (a ++ '_' :: b) ++ [] = "Line_".toList ++ a ++ '_' :: b
    rw [show "Line_".toList = "Line".toList ++ ['_'] from by decide +kernel]
    simp only [List.append_nil, List.append_assoc, List.cons_append, List.nil_append]
  | angleLine a b =>
    change "AngleLine".toList ++ '_' :: (a ++ '_' :: b) ++ [] = "AngleLine_".toList ++ a ++ '_' :: b
    rw [show "AngleLine_".toList = "AngleLine".toList ++ ['_'] from by decide +kernel]
    simp only [List.append_nil, List.append_assoc, List.cons_append, List.nil_append]
  | currentLength => exact List.append_nil _
  | paren f ih | pos f ih | neg f ih | before f ih | after f ih =>
    simp only [Words.source] at ih
    simp only [asWords, Words.source, source, ← ih]
    simp [glue, plain_source]
  | add f g ih1 ih2 | sub f g ih1 ih2 | mul f g ih1 ih2 | div f g ih1 ih2 =>
    simp only [Words.source] at ih1 ih2
    simp only [asWords, Words.source, source, ← ih1, ← ih2, List.map_append, List.map_cons, glue_append]

theorem asWords_python (f : Formula) : f.asWords.python = f.python := by
  induction f with
  | number w f =>
    cases f with
    | none => exact List.append_nil w
    | some f => exact congrArg (fun x => w ++ '.' :: x) (List.append_nil f)
  | measurement n => exact List.append_nil n
  | custom n => exact congrArg ('@' :: ·) (List.append_nil n)
  | line a b =>
    change "__calculator__._function_".toList ++ "Line".toList ++ '(' :: ('\'' :: a ++ '\'' :: ',' :: ' ' :: ('\'' :: b ++ ['\''])) ++ [')'] ++ [] =
      "__calculator__._function_Line('".toList ++ a ++ "', '".toList ++ b ++ "')".toList
    rw [show "__calculator__._function_Line('".toList = "__calculator__._function_".toList ++ "Line".toList ++ ['(', '\''] from by decide +kernel,
      show "', '".toList = ['\'', ',', ' ', '\''] from by decide +kernel, show "')".toList = ['\'', ')'] from by decide +kernel]
    simp only [List.append_nil, List.append_assoc, List.cons_append, List.nil_append]
  | angleLine a b =>
    change "__calculator__._function_".toList ++ "AngleLine".toList ++ '(' :: ('\'' :: a ++ '\'' :: ',' :: ' ' :: ('\'' :: b ++ ['\''])) ++ [')'] ++ [] =
      "__calculator__._function_AngleLine('".toList ++ a ++ "', '".toList ++ b ++ "')".toList
    rw [show "__calculator__._function_AngleLine('".toList = "__calculator__._function_".toList ++ "AngleLine".toList ++ ['(', '\''] from by decide +kernel,
      show "', '".toList = ['\'', ',', ' ', '\''] from by decide +kernel, show "')".toList = ['\'', ')'] from by decide +kernel]
    simp only [List.append_nil, List.append_assoc, List.cons_append, List.nil_append]
  | currentLength => exact List.append_nil _
  | paren f ih | pos f ih | neg f ih | before f ih | after f ih =>
    simp only [Words.python] at ih
    simp only [asWords, Words.python, python, ← ih]
    simp [glue, plain_python]
  | add f g ih1 ih2 | sub f g ih1 ih2 | mul f g ih1 ih2 | div f g ih1 ih2 =>
    simp only [Words.python] at ih1 ih2
    simp only [asWords, Words.python, python, ← ih1, ← ih2, List.map_append, List.map_cons, glue_append]

/-- The words which are not empty. -/
def full (l : List Word) : List Word := l.filter fun w => match w with | .plain [] => false | _ => true

theorem full_append (a b : List Word) : full (a ++ b) = full a ++ full b := List.filter_append ..

theorem asWords_words (f : Formula) : full f.asWords.words = full f.words := by
  induction f with
  | number w f => cases f <;> simp [asWords, Words.words, words]
  | measurement n => simp [asWords, Words.words, words]
  | custom n => rfl
  | line a b => simp [asWords, Words.words, words]
  | angleLine a b => simp [asWords, Words.words, words]
  | currentLength => simp [asWords, Words.words, words]
  | paren f ih | pos f ih | neg f ih | before f ih | after f ih =>
    simp only [words, ← ih]
    simp [full, asWords, Words.words, List.filter_cons, List.filter_append]
  | add f g ih1 ih2 | sub f g ih1 ih2 | mul f g ih1 ih2 | div f g ih1 ih2 =>
    simp only [words, full_append, ← ih1, ← ih2]
    simp only [asWords, Words.words, List.map_append, List.map_cons]
    rw [← List.cons_append, full_append]

theorem mem_words {f : Formula} {w : Word} (h : w ∈ f.asWords.words) : w = .plain [] ∨ w ∈ f.words := by
  by_cases hw : w = .plain []
  · exact .inl hw
  · right
    have : w ∈ full f.asWords.words := by
      refine List.mem_filter.2 ⟨h, ?_⟩
      cases w with
      | plain t => cases t with
        | nil => exact absurd rfl hw
        | cons c t => rfl
      | _ => rfl
    rw [asWords_words] at this
    exact (List.mem_filter.1 this).1

theorem keywords_ne {k : Text} (h : k ∈ keywords) : k ≠ [] := by
  have : ∀ k ∈ keywords, k ≠ [] := by decide +kernel
  exact this k h

theorem free_nil : Free [] := by
  intro k hk h
  exact keywords_ne hk (List.eq_nil_of_infix_nil h)

theorem digit_ident {c : Char} (h : c ∈ "0123456789".toList) : isIdent c = true := by
  have : ∀ c ∈ "0123456789".toList, isIdent c = true := by decide +kernel
  exact this c h

theorem free_digits {t : Text} (h : AreDigits t) : Free t := by
  intro k hk hi
  have : ∀ k ∈ keywords, ∃ c ∈ k, c ∉ "0123456789".toList := by decide +kernel
  obtain ⟨c, hc, hn⟩ := this k hk
  exact hn (h c (hi.subset hc))

theorem plain_nil_ok : (Word.plain []).Ok := ⟨fun _ h => absurd h List.not_mem_nil, free_nil⟩

/-- A name of a custom measurement. -/
def IsCustom (n : Text) : Prop := (∀ c ∈ n, isIdent c = true) ∧ Free n

/-- A well written formula without custom measurements. -/
def Good (f : Formula) : Prop := f.WellFormedWith fun _ => False

theorem Good.wellFormed {f : Formula} (h : f.Good) : f.WellFormed := by
  unfold Good at h
  unfold WellFormed
  induction f with
  | number w f => cases f <;> exact h
  | measurement n => exact h
  | custom n => exact h.elim
  | line a b => exact h
  | angleLine a b => exact h
  | currentLength => exact h
  | paren f ih | before f ih | after f ih => exact ih h
  | pos f ih | neg f ih => exact ⟨ih h.1, h.2⟩
  | add f g ih1 ih2 | sub f g ih1 ih2 => exact ⟨ih1 h.1, ih2 h.2.1, h.2.2⟩
  | mul f g ih1 ih2 | div f g ih1 ih2 => exact ⟨ih1 h.1, ih2 h.2.1, h.2.2⟩

theorem words_ok (f : Formula) (h : f.WellFormed) : ∀ w ∈ f.words, w.Ok := by
  unfold WellFormed at h
  induction f with
  | number w f =>
    cases f with
    | none =>
      intro x hx
      simp only [words, List.mem_singleton] at hx
      subst hx
      exact ⟨fun c hc => digit_ident (h.2.1 c hc), free_digits h.2.1⟩
    | some f =>
      intro x hx
      simp only [words, List.mem_cons, List.not_mem_nil, or_false] at hx
      rcases hx with rfl | rfl
      · exact ⟨fun c hc => digit_ident (h.2.1 c hc), free_digits h.2.1⟩
      · exact ⟨fun c hc => digit_ident (h.2.2 c hc), free_digits h.2.2⟩
  | measurement n =>
    intro x hx
    simp only [words, List.mem_singleton] at hx
    subst hx
    exact ⟨h.2.1, h.2.2.2.2.2⟩
  | custom n =>
    intro x hx
    simp only [words, List.mem_singleton] at hx
    subst hx
    exact h
  | line a b | angleLine a b =>
    intro x hx
    simp only [words, List.mem_singleton] at hx
    subst hx
    refine ⟨by decide +kernel, List.cons_ne_nil _ _, ?_, h.2⟩
    intro t ht c hc
    simp only [List.mem_cons, List.not_mem_nil, or_false] at ht
    rcases ht with rfl | rfl
    · exact h.1 c (List.mem_append_left _ hc)
    · exact h.1 c (List.mem_append_right _ hc)
  | currentLength =>
    intro x hx
    simp only [words, List.mem_singleton] at hx
    subst hx
    trivial
  | paren f ih | before f ih | after f ih => exact ih h
  | pos f ih | neg f ih => exact ih h.1
  | add f g ih1 ih2 | sub f g ih1 ih2 | mul f g ih1 ih2 | div f g ih1 ih2 =>
    intro x hx
    rcases List.mem_append.1 hx with hx | hx
    · exact ih1 h.1 x hx
    · exact ih2 h.2.1 x hx

theorem separators (f : Formula) : ∀ x ∈ f.asWords.rest, x.1 ∈ "@.()+-*/ ".toList := by
  induction f with
  | number w f => cases f <;> simp [asWords]
  | measurement n => simp [asWords]
  | custom n => simp [asWords]
  | line a b => simp [asWords]
  | angleLine a b => simp [asWords]
  | currentLength => simp [asWords]
  | paren f ih | pos f ih | neg f ih | before f ih | after f ih =>
    intro x hx
    simp only [asWords, List.mem_append, List.mem_cons, List.not_mem_nil, or_false] at hx
    rcases hx with hx | hx
    all_goals first
    | exact ih x hx
    | (rw [hx]; simp)
    | (rcases hx with hx | hx
       · rw [hx]; simp
       · exact ih x hx)
  | add f g ih1 ih2 | sub f g ih1 ih2 | mul f g ih1 ih2 | div f g ih1 ih2 =>
    intro x hx
    simp only [asWords, List.mem_append, List.mem_cons] at hx
    rcases hx with hx | hx | hx
    · exact ih1 x hx
    · rw [hx]; simp
    · exact ih2 x hx

theorem asWords_ok (f : Formula) (h : f.WellFormed) : f.asWords.Ok := by
  refine ⟨fun w hw => ?_, fun x hx => ?_⟩
  · rcases mem_words hw with rfl | hw
    · exact plain_nil_ok
    · exact words_ok f h w hw
  · have : ∀ c ∈ "@.()+-*/ ".toList, isIdent c = false := by decide +kernel
    exact this _ (separators f x hx)

theorem asWords_noClash (f : Formula) (h : f.NoClash) : f.asWords.NoClash := by
  intro v hv w hw c h1 h2 h3 h4
  rcases mem_words hw with rfl | hw
  · exact absurd h4 id
  rcases mem_words hv with rfl | hv
  · obtain ⟨k, hk, hk2⟩ := h2
    have : c = [] := List.eq_nil_of_suffix_nil h1
    subst this
    exact absurd (List.eq_nil_of_prefix_nil hk2) (keywords_ne hk)
  · exact h v hv w hw c h1 h2 h3 h4

theorem asWords_oneCurrent (f : Formula) (h : f.OneCurrent) : f.asWords.OneCurrent := by
  intro a b c he
  have h1 := congrArg full he
  rw [asWords_words, full_append, full_append] at h1
  have h2 : full f.words = full a ++ Word.currentLength :: full b ++ Word.currentLength :: full c := by
    rw [h1]
    simp [full]
  have key : ∀ (l a c : List Word), full l = a ++ Word.currentLength :: c →
      ∃ a' c', l = a' ++ Word.currentLength :: c' ∧ full a' = a ∧ full c' = c := by
    intro l a c h
    obtain ⟨x, y, h3, h4, h5⟩ := List.filter_eq_append_iff.1 h
    obtain ⟨y1, y2, h6, h7, h8, h9⟩ := List.filter_eq_cons_iff.1 h5
    refine ⟨x ++ y1, y2, by rw [h3, h6]; simp, ?_, h9⟩
    rw [full_append, full, h4, full, List.filter_eq_nil_iff.2 h7, List.append_nil]
  obtain ⟨a', c', k1, k2, -⟩ := key _ _ _ h2
  obtain ⟨a'', b', k3, -, -⟩ := key _ _ _ k2
  refine h a'' b' c' ?_
  rw [k1, k3]

theorem word_noAt {w : Word} (h : w.Ok) : '@' ∉ w.source := by
  have hat : isIdent '@' = false := by decide +kernel
  cases w with
  | plain t => exact fun hm => by simpa [hat] using h.1 _ hm
  | currentLength => exact (by decide +kernel : '@' ∉ "CurrentLength".toList)
  | call f args =>
    change '@' ∉ f ++ '_' :: Calculator.underscored args
    simp only [List.mem_append, List.mem_cons, not_or]
    refine ⟨?_, by decide, ?_⟩
    · have : ∀ f ∈ Calculator.callNames, '@' ∉ f := by decide +kernel
      exact this f h.1
    · have key : ∀ args : List Text, (∀ a ∈ args, ∀ c ∈ a, isIdent c = true ∧ c ≠ '_') → '@' ∉ Calculator.underscored args := by
        intro args
        induction args with
        | nil => simp [Calculator.underscored]
        | cons a l ih =>
          intro ha
          have h1 : '@' ∉ a := fun hm => by simpa [hat] using (ha a List.mem_cons_self _ hm).1
          cases l with
          | nil => simpa [Calculator.underscored] using h1
          | cons b l =>
            simp only [Calculator.underscored, List.mem_append, List.mem_cons, not_or]
            exact ⟨h1, by decide, ih fun x hx => ha x (List.mem_cons_of_mem _ hx)⟩
      exact key args h.2.2.1

theorem mem_asWords {f : Formula} {w : Word} (h : w ∈ f.words) (hf : w.isFunction) : w ∈ f.asWords.words := by
  have : w ∈ full f.words := by
    refine List.mem_filter.2 ⟨h, ?_⟩
    cases w with
    | plain t => exact hf.elim
    | _ => rfl
  rw [← asWords_words] at this
  exact (List.mem_filter.1 this).1

/-! ## Custom measurements -/

/-- The formula where the custom measurements have their names for Python. -/
def resolve (F : Text → Text) : Formula → Formula
  | custom n => measurement (F ('@' :: n))
  | paren f => paren (f.resolve F)
  | pos f => pos (f.resolve F)
  | neg f => neg (f.resolve F)
  | add f g => add (f.resolve F) (g.resolve F)
  | sub f g => sub (f.resolve F) (g.resolve F)
  | mul f g => mul (f.resolve F) (g.resolve F)
  | div f g => div (f.resolve F) (g.resolve F)
  | before f => before (f.resolve F)
  | after f => after (f.resolve F)
  | f => f

theorem resolve_level (F : Text → Text) (f : Formula) : (f.resolve F).level = f.level := by
  induction f with
  | before f ih => exact ih
  | after f ih => exact ih
  | _ => rfl

theorem resolve_words (F : Text → Text) (f : Formula) (w : Word) (h : w ∈ (f.resolve F).words) (hf : w.isFunction) : w ∈ f.words := by
  induction f with
  | custom n =>
    simp only [resolve, words, List.mem_singleton] at h
    subst h
    exact hf.elim
  | number w f => exact h
  | measurement n => exact h
  | line a b => exact h
  | angleLine a b => exact h
  | currentLength => exact h
  | paren f ih | before f ih | after f ih | pos f ih | neg f ih => exact ih h
  | add f g ih1 ih2 | sub f g ih1 ih2 | mul f g ih1 ih2 | div f g ih1 ih2 =>
    rcases List.mem_append.1 h with h | h
    · exact List.mem_append_left _ (ih1 h)
    · exact List.mem_append_right _ (ih2 h)

theorem resolve_good (F : Text → Text) (f : Formula) (h : f.WellFormed) (hF : ∀ n, custom n ∈ f.parts → IsName (F ('@' :: n))) :
    (f.resolve F).Good := by
  unfold WellFormed at h
  unfold Good
  induction f with
  | custom n => exact hF n List.mem_cons_self
  | number w f => cases f <;> exact h
  | measurement n => exact h
  | line a b => exact h
  | angleLine a b => exact h
  | currentLength => exact h
  | paren f ih | before f ih | after f ih => exact ih h fun n hn => hF n (List.mem_cons_of_mem _ hn)
  | pos f ih | neg f ih =>
    refine ⟨ih h.1 fun n hn => hF n (List.mem_cons_of_mem _ hn), ?_⟩
    rw [resolve_level]
    exact h.2
  | add f g ih1 ih2 | sub f g ih1 ih2 | mul f g ih1 ih2 | div f g ih1 ih2 =>
    refine ⟨ih1 h.1 fun n hn => hF n (List.mem_cons_of_mem _ (List.mem_append_left _ hn)),
      ih2 h.2.1 fun n hn => hF n (List.mem_cons_of_mem _ (List.mem_append_right _ hn)), ?_⟩
    simp only [resolve_level]
    exact h.2.2

theorem atom_noAt (f : Formula) (h : f.WellFormed) (hr : f.asWords.rest = []) : '@' ∉ f.source := by
  rw [← asWords_source]
  simp only [Words.source, hr, List.map_nil, glue, List.flatMap_nil, List.append_nil]
  exact word_noAt ((asWords_ok f h).1 _ List.mem_cons_self)

theorem substCustom_noAt (F : Text → Text) (t r : Text) (h : '@' ∉ t) :
    Calculator.substCustom F false (t ++ r) = t ++ Calculator.substCustom F false r := by
  induction t with
  | nil => rfl
  | cons c t ih =>
    simp only [List.mem_cons, not_or] at h
    rw [List.cons_append, Calculator.substCustom, if_neg (fun e => h.1 e.symm)]
    simp only [Bool.false_and, Bool.false_eq_true, if_false]
    rw [ih h.2]
    rfl

theorem customTokens_noAt (t r : Text) (h : '@' ∉ t) : Calculator.customTokens (t ++ r) = Calculator.customTokens r := by
  induction t with
  | nil => rfl
  | cons c t ih =>
    simp only [List.mem_cons, not_or] at h
    rw [List.cons_append, Calculator.customTokens, if_neg (fun e => h.1 e.symm), ih h.2]

/-- An identifier is ended. -/
def Ended (r : Text) : Prop := ∀ c, r[0]? = some c → isIdent c = false

theorem takeWhile_ended (n r : Text) (h : ∀ c ∈ n, isIdent c = true) (hr : Ended r) : (n ++ r).takeWhile isIdent = n := by
  induction n with
  | nil =>
    cases r with
    | nil => rfl
    | cons c r => simp [hr c rfl]
  | cons c n ih =>
    rw [List.cons_append, List.takeWhile_cons_of_pos (h c List.mem_cons_self), ih fun x hx => h x (List.mem_cons_of_mem _ hx)]

theorem ended_cons {c : Char} (r : Text) (h : isIdent c = false) : Ended (c :: r) := by
  intro d hd
  cases hd
  exact h

theorem subst_formula (F : Text → Text) (f : Formula) (h : f.WellFormed) (r : Text) (hr : Ended r) :
    Calculator.substCustom F false (f.source ++ r) = (f.resolve F).source ++ Calculator.substCustom F false r := by
  have one : ∀ (c : Char) (t : Text), c ≠ '@' → Calculator.substCustom F false (c :: t) = c :: Calculator.substCustom F false t := by
    intro c t hc
    exact substCustom_noAt F [c] t (by simpa using fun e => hc e.symm)
  have at_number : ∀ w f, (number w f).WellFormed → '@' ∉ (number w f).source := by
    intro w f h hm
    have hd : '@' ∉ "0123456789".toList := by decide +kernel
    cases f with
    | none => exact hd (h.2.1 _ hm)
    | some f =>
      rcases List.mem_append.1 hm with hm | hm
      · exact hd (h.2.1 _ hm)
      · rcases List.mem_cons.1 hm with hm | hm
        · exact absurd hm (by decide)
        · exact hd (h.2.2 _ hm)
  have binary : ∀ (f g : Formula) (c : Char), c ∈ "+-*/".toList →
      (∀ r, Ended r → Calculator.substCustom F false (f.source ++ r) = (f.resolve F).source ++ Calculator.substCustom F false r) →
      (∀ r, Ended r → Calculator.substCustom F false (g.source ++ r) = (g.resolve F).source ++ Calculator.substCustom F false r) →
      ∀ r, Ended r → Calculator.substCustom F false (f.source ++ c :: g.source ++ r) =
        (f.resolve F).source ++ c :: (g.resolve F).source ++ Calculator.substCustom F false r := by
    intro f g c hc h1 h2 r hr
    have k : ∀ c ∈ "+-*/".toList, isIdent c = false ∧ c ≠ '@' := by decide +kernel
    rw [List.append_assoc, List.cons_append, h1 _ (ended_cons _ (k c hc).1), one c _ (k c hc).2, h2 r hr]
    simp
  induction f generalizing r with
  | custom n =>
    change Calculator.substCustom F false ('@' :: (n ++ r)) = _
    rw [Calculator.substCustom, if_pos rfl, takeWhile_ended n r h.1 hr, Calculator.substCustom_skip F n r h.1, Calculator.substCustom_flag F r hr]
    rfl
  | number w f => exact substCustom_noAt F _ r (at_number w f h)
  | measurement n => exact substCustom_noAt F _ r (atom_noAt _ h rfl)
  | line a b => exact substCustom_noAt F _ r (atom_noAt _ h rfl)
  | angleLine a b => exact substCustom_noAt F _ r (atom_noAt _ h rfl)
  | currentLength => exact substCustom_noAt F _ r (atom_noAt _ h rfl)
  | paren f ih =>
    have e : (paren f).source ++ r = '(' :: (f.source ++ ')' :: r) := by simp [source]
    rw [e, one _ _ (by decide), ih h _ (ended_cons _ (by decide +kernel)), one _ _ (by decide)]
    simp [resolve, source]
  | before f ih => exact (one ' ' _ (by decide)).trans (congrArg _ (ih h r hr))
  | after f ih =>
    have e : (after f).source ++ r = f.source ++ ' ' :: r := by simp [source]
    rw [e, ih h _ (ended_cons _ (by decide +kernel)), one _ _ (by decide)]
    simp [resolve, source]
  | pos f ih => exact (one '+' _ (by decide)).trans (congrArg _ (ih h.1 r hr))
  | neg f ih => exact (one '-' _ (by decide)).trans (congrArg _ (ih h.1 r hr))
  | add f g ih1 ih2 => exact binary f g '+' (by decide) (ih1 h.1) (ih2 h.2.1) r hr
  | sub f g ih1 ih2 => exact binary f g '-' (by decide) (ih1 h.1) (ih2 h.2.1) r hr
  | mul f g ih1 ih2 => exact binary f g '*' (by decide) (ih1 h.1) (ih2 h.2.1) r hr
  | div f g ih1 ih2 => exact binary f g '/' (by decide) (ih1 h.1) (ih2 h.2.1) r hr

theorem customTokens_formula (f : Formula) (h : f.WellFormed) (r : Text) (hr : Ended r) (m : Text)
    (hm : m ∈ Calculator.customTokens (f.source ++ r)) : (∃ n, custom n ∈ f.parts ∧ m = '@' :: n) ∨ m ∈ Calculator.customTokens r := by
  have one : ∀ (c : Char) (t : Text), c ≠ '@' → Calculator.customTokens (c :: t) = Calculator.customTokens t := by
    intro c t hc
    exact customTokens_noAt [c] t (by simpa using fun e => hc e.symm)
  have at_number : ∀ w f, (number w f).WellFormed → '@' ∉ (number w f).source := by
    intro w f h hm
    have hd : '@' ∉ "0123456789".toList := by decide +kernel
    cases f with
    | none => exact hd (h.2.1 _ hm)
    | some f =>
      rcases List.mem_append.1 hm with hm | hm
      · exact hd (h.2.1 _ hm)
      · rcases List.mem_cons.1 hm with hm | hm
        · exact absurd hm (by decide)
        · exact hd (h.2.2 _ hm)
  have binary : ∀ (f g : Formula) (c : Char), c ∈ "+-*/".toList →
      (∀ r, Ended r → m ∈ Calculator.customTokens (f.source ++ r) → (∃ n, custom n ∈ f.parts ∧ m = '@' :: n) ∨ m ∈ Calculator.customTokens r) →
      (∀ r, Ended r → m ∈ Calculator.customTokens (g.source ++ r) → (∃ n, custom n ∈ g.parts ∧ m = '@' :: n) ∨ m ∈ Calculator.customTokens r) →
      ∀ r, Ended r → m ∈ Calculator.customTokens (f.source ++ c :: g.source ++ r) →
        (∃ n, custom n ∈ f.parts ++ g.parts ∧ m = '@' :: n) ∨ m ∈ Calculator.customTokens r := by
    intro f g c hc h1 h2 r hr hm
    have k : ∀ c ∈ "+-*/".toList, isIdent c = false ∧ c ≠ '@' := by decide +kernel
    rw [List.append_assoc, List.cons_append] at hm
    rcases h1 _ (ended_cons _ (k c hc).1) hm with ⟨n, k1, k2⟩ | hm
    · exact .inl ⟨n, List.mem_append_left _ k1, k2⟩
    · rw [one _ _ (k c hc).2] at hm
      rcases h2 r hr hm with ⟨n, k1, k2⟩ | hm
      · exact .inl ⟨n, List.mem_append_right _ k1, k2⟩
      · exact .inr hm
  have lift : ∀ (f g : Formula), (∀ x ∈ f.parts, x ∈ g.parts) → (∃ n, custom n ∈ f.parts ∧ m = '@' :: n) ∨ m ∈ Calculator.customTokens r →
      (∃ n, custom n ∈ g.parts ∧ m = '@' :: n) ∨ m ∈ Calculator.customTokens r :=
    fun f g hs => Or.imp (fun ⟨n, k1, k2⟩ => ⟨n, hs _ k1, k2⟩) id
  induction f generalizing r with
  | custom n =>
    change m ∈ Calculator.customTokens ('@' :: (n ++ r)) at hm
    rw [Calculator.customTokens, if_pos rfl, takeWhile_ended n r h.1 hr, Calculator.customTokens_skip n r h.1] at hm
    rcases List.mem_cons.1 hm with hm | hm
    · exact .inl ⟨n, List.mem_cons_self, hm⟩
    · exact .inr hm
  | number w f => exact .inr (by rwa [customTokens_noAt _ r (at_number w f h)] at hm)
  | measurement n => exact .inr (by rwa [customTokens_noAt _ r (atom_noAt _ h rfl)] at hm)
  | line a b => exact .inr (by rwa [customTokens_noAt _ r (atom_noAt _ h rfl)] at hm)
  | angleLine a b => exact .inr (by rwa [customTokens_noAt _ r (atom_noAt _ h rfl)] at hm)
  | currentLength => exact .inr (by rwa [customTokens_noAt _ r (atom_noAt _ h rfl)] at hm)
  | paren f ih =>
    have e : (paren f).source ++ r = '(' :: (f.source ++ ')' :: r) := by simp [source]
    rw [e, one _ _ (by decide)] at hm
    rcases ih h _ (ended_cons _ (by decide +kernel)) hm (fun f g hs => Or.imp (fun ⟨n, k1, k2⟩ => ⟨n, hs _ k1, k2⟩) id) with ⟨n, k1, k2⟩ | hm
    · exact .inl ⟨n, List.mem_cons_of_mem _ k1, k2⟩
    · exact .inr (by rwa [one _ _ (by decide)] at hm)
  | after f ih =>
    have e : (after f).source ++ r = f.source ++ ' ' :: r := by simp [source]
    rw [e] at hm
    rcases ih h _ (ended_cons _ (by decide +kernel)) hm (fun f g hs => Or.imp (fun ⟨n, k1, k2⟩ => ⟨n, hs _ k1, k2⟩) id) with ⟨n, k1, k2⟩ | hm
    · exact .inl ⟨n, List.mem_cons_of_mem _ k1, k2⟩
    · exact .inr (by rwa [one _ _ (by decide)] at hm)
  | before f ih =>
    have hm' : m ∈ Calculator.customTokens (' ' :: (f.source ++ r)) := hm
    rw [one _ _ (by decide)] at hm'
    exact lift f _ (fun x hx => List.mem_cons_of_mem _ hx) (ih h r hr hm' lift)
  | pos f ih =>
    have hm' : m ∈ Calculator.customTokens ('+' :: (f.source ++ r)) := hm
    rw [one _ _ (by decide)] at hm'
    exact lift f _ (fun x hx => List.mem_cons_of_mem _ hx) (ih h.1 r hr hm' lift)
  | neg f ih =>
    have hm' : m ∈ Calculator.customTokens ('-' :: (f.source ++ r)) := hm
    rw [one _ _ (by decide)] at hm'
    exact lift f _ (fun x hx => List.mem_cons_of_mem _ hx) (ih h.1 r hr hm' lift)
  | add f g ih1 ih2 =>
    rcases binary f g '+' (by decide) (fun r hr hm => ih1 h.1 r hr hm (fun f g hs => Or.imp (fun ⟨n, k1, k2⟩ => ⟨n, hs _ k1, k2⟩) id))
      (fun r hr hm => ih2 h.2.1 r hr hm (fun f g hs => Or.imp (fun ⟨n, k1, k2⟩ => ⟨n, hs _ k1, k2⟩) id)) r hr hm with ⟨n, k1, k2⟩ | hm
    · exact .inl ⟨n, List.mem_cons_of_mem _ k1, k2⟩
    · exact .inr hm
  | sub f g ih1 ih2 =>
    rcases binary f g '-' (by decide) (fun r hr hm => ih1 h.1 r hr hm (fun f g hs => Or.imp (fun ⟨n, k1, k2⟩ => ⟨n, hs _ k1, k2⟩) id))
      (fun r hr hm => ih2 h.2.1 r hr hm (fun f g hs => Or.imp (fun ⟨n, k1, k2⟩ => ⟨n, hs _ k1, k2⟩) id)) r hr hm with ⟨n, k1, k2⟩ | hm
    · exact .inl ⟨n, List.mem_cons_of_mem _ k1, k2⟩
    · exact .inr hm
  | mul f g ih1 ih2 =>
    rcases binary f g '*' (by decide) (fun r hr hm => ih1 h.1 r hr hm (fun f g hs => Or.imp (fun ⟨n, k1, k2⟩ => ⟨n, hs _ k1, k2⟩) id))
      (fun r hr hm => ih2 h.2.1 r hr hm (fun f g hs => Or.imp (fun ⟨n, k1, k2⟩ => ⟨n, hs _ k1, k2⟩) id)) r hr hm with ⟨n, k1, k2⟩ | hm
    · exact .inl ⟨n, List.mem_cons_of_mem _ k1, k2⟩
    · exact .inr hm
  | div f g ih1 ih2 =>
    rcases binary f g '/' (by decide) (fun r hr hm => ih1 h.1 r hr hm (fun f g hs => Or.imp (fun ⟨n, k1, k2⟩ => ⟨n, hs _ k1, k2⟩) id))
      (fun r hr hm => ih2 h.2.1 r hr hm (fun f g hs => Or.imp (fun ⟨n, k1, k2⟩ => ⟨n, hs _ k1, k2⟩) id)) r hr hm with ⟨n, k1, k2⟩ | hm
    · exact .inl ⟨n, List.mem_cons_of_mem _ k1, k2⟩
    · exact .inr hm

theorem customTokens_source (f : Formula) (h : f.WellFormed) (m : Text) (hm : m ∈ Calculator.customTokens f.source) :
    ∃ n, custom n ∈ f.parts ∧ m = '@' :: n := by
  have := customTokens_formula f h [] (fun c hc => by cases hc) m (by rwa [List.append_nil])
  rcases this with h | h
  · exact h
  · exact absurd h List.not_mem_nil

theorem custom_at (f : Formula) (n : Text) (h : custom n ∈ f.parts) : '@' ∈ f.source := by
  induction f with
  | custom m => exact List.mem_cons_self
  | number w f => simp [parts] at h
  | measurement m => simp [parts] at h
  | line a b => simp [parts] at h
  | angleLine a b => simp [parts] at h
  | currentLength => simp [parts] at h
  | paren f ih | pos f ih | neg f ih | before f ih | after f ih =>
    simp only [parts, List.mem_cons, reduceCtorEq, false_or] at h
    simp [source, ih h]
  | add f g ih1 ih2 | sub f g ih1 ih2 | mul f g ih1 ih2 | div f g ih1 ih2 =>
    simp only [parts, List.mem_cons, reduceCtorEq, false_or, List.mem_append] at h
    rcases h with h | h
    · simp [source, ih1 h]
    · simp [source, ih2 h]

/-- The text that Python is given. -/
theorem pythonise_formula (pyName : Text → Except PyErr Text) (F : Text → Text) (f : Formula) (h : f.WellFormed) (h1 : f.NoClash)
    (h2 : f.OneCurrent) (h3 : f.OneCustom) (hF : ∀ n, custom n ∈ f.parts → pyName ('@' :: n) = .ok (F ('@' :: n)))
    (hN : ∀ n, custom n ∈ f.parts → IsName (F ('@' :: n))) :
    Calculator.pythonise pyName f.source = .ok (f.resolve F).python := by
  have hc : Calculator.rewriteCustom pyName f.source = .ok (f.resolve F).source := by
    have hs := subst_formula F f h [] (fun c hc => by cases hc)
    rw [List.append_nil] at hs
    by_cases hex : ∃ n, custom n ∈ f.parts
    · obtain ⟨n, hn⟩ := hex
      have hall : ∀ m ∈ Calculator.customTokens f.source, m = '@' :: n := by
        intro m hm
        obtain ⟨k, k1, rfl⟩ := customTokens_source f h m hm
        rw [h3 k n k1 hn]
      rw [Calculator.rewriteCustom_one_name_partial pyName F f.source ('@' :: n) hall (hF n hn), hs]
      exact congrArg _ (List.append_nil _)
    · have hall : ∀ m, m ∉ Calculator.customTokens f.source := by
        intro m hm
        obtain ⟨k, k1, rfl⟩ := customTokens_source f h m hm
        exact hex ⟨k, k1⟩
      have hat : '@' ∉ f.source := by
        intro hm
        obtain ⟨k, hk⟩ := List.mem_iff_getElem?.1 hm
        exact hall _ (Calculator.mem_customTokens f.source k hk)
      have e := substCustom_noAt F f.source [] hat
      rw [List.append_nil, hs] at e
      unfold Calculator.rewriteCustom
      rw [if_neg hat]
      exact congrArg _ (List.append_cancel_right e).symm
  have hg := (resolve_good F f h hN).wellFormed
  unfold Calculator.pythonise
  rw [hc]
  simp only [bind, Except.bind, pure, Except.pure]
  rw [← asWords_source f, ← asWords_source (f.resolve F), ← asWords_python]
  rw [Calculator.rewriteCalls_other _ _ (asWords_ok f h) (asWords_noClash f h1) (asWords_oneCurrent f h2) (asWords_ok _ hg)]
  intro w hw hf
  rcases mem_words hw with rfl | hw
  · exact hf.elim
  · exact mem_asWords (resolve_words F f w hw hf) hf

/-- An unknown custom measurement. -/
theorem pythonise_unknown (pyName : Text → Except PyErr Text) (hp : ∀ x, pyName x = .error .keyError ∨ ∃ p, pyName x = .ok p)
    (f : Formula) (h : f.WellFormed) (h3 : f.OneCustom) (n : Text) (hn : custom n ∈ f.parts) (he : pyName ('@' :: n) = .error .keyError) :
    Calculator.pythonise pyName f.source = .error .keyError := by
  have hat := custom_at f n hn
  obtain ⟨k, hk⟩ := List.mem_iff_getElem?.1 hat
  have hocc : Calculator.OccursAt ['@'] f.source k := by
    unfold Calculator.OccursAt
    have hlt : k < f.source.length := (List.getElem?_eq_some_iff.1 hk).1
    rw [List.drop_eq_getElem_cons hlt]
    rw [List.getElem?_eq_getElem hlt, Option.some.injEq] at hk
    rw [hk]
    exact ⟨f.source.drop (k + 1), rfl⟩
  obtain ⟨s, name, hmem, -⟩ := Calculator.identifiers_complete f.source ['@'] (by simp) k hocc
  obtain ⟨m, hm, rfl⟩ := customTokens_source f h name (Calculator.identifier_at_customToken _ _ hmem)
  rw [h3 m n hm hn] at hmem
  unfold Calculator.pythonise
  rw [Calculator.rewriteCustom_unknown pyName f.source _ .keyError hat hmem hp he]
  rfl

/-! ## Tokens -/

/-- The tokens of `Line('A', 'B')`. -/
def callToks (f a b : Text) : List Tok :=
  [.name "__calculator__".toList, .sym '.', .name f, .sym '(', .str a, .sym ',', .str b, .sym ')']

/-- The tokens of `CurrentLength()`. -/
def currentToks : List Tok :=
  [.name "__calculator__".toList, .sym '.', .name "_function_CurrentLength".toList, .sym '(', .sym ')']

/-- The tokens of the text given to Python. -/
def toks : Formula → List Tok
  | number w none => [.num w []]
  | number w (some f) => [.num w f]
  | measurement n => [.name n]
  | custom n => [.name ('@' :: n)]
  | line a b => callToks "_function_Line".toList a b
  | angleLine a b => callToks "_function_AngleLine".toList a b
  | currentLength => currentToks
  | paren f => .sym '(' :: f.toks ++ [.sym ')']
  | pos f => .sym '+' :: f.toks
  | neg f => .sym '-' :: f.toks
  | add f g => f.toks ++ .sym '+' :: g.toks
  | sub f g => f.toks ++ .sym '-' :: g.toks
  | mul f g => f.toks ++ .sym '*' :: g.toks
  | div f g => f.toks ++ .sym '/' :: g.toks
  | before f => f.toks
  | after f => f.toks

/-- The tokens read in a text, and the token which is not ended. -/
def runFrom (cur : Cur) : Text → Option (List Tok × Cur)
  | [] => some ([], cur)
  | c :: t =>
    match cur.step c with
    | none => none
    | some (ts, cur) => (runFrom cur t).map fun r => (ts ++ r.1, r.2)

theorem lexFrom_run (t : Text) (cur c : Cur) (ts tl : List Tok) (h : runFrom cur t = some (ts, c)) (hc : c.flush = some tl) :
    lexFrom cur t = some (ts ++ tl) := by
  induction t generalizing cur ts with
  | nil =>
    simp only [runFrom, Option.some.injEq, Prod.mk.injEq] at h
    obtain ⟨rfl, rfl⟩ := h
    exact hc
  | cons x t ih =>
    simp only [runFrom] at h
    simp only [lexFrom]
    cases hs : cur.step x with
    | none => rw [hs] at h; cases h
    | some r =>
      obtain ⟨us, d⟩ := r
      rw [hs] at h
      simp only [Option.map_eq_some_iff] at h
      obtain ⟨⟨vs, e⟩, h1, h2⟩ := h
      cases h2
      simp only
      rw [ih d vs h1]
      simp

theorem run_append {cur c d : Cur} {a b : Text} {ts us : List Tok} (h1 : runFrom cur a = some (ts, c)) (h2 : runFrom c b = some (us, d)) :
    runFrom cur (a ++ b) = some (ts ++ us, d) := by
  induction a generalizing cur ts with
  | nil =>
    simp only [runFrom, Option.some.injEq, Prod.mk.injEq] at h1
    obtain ⟨rfl, rfl⟩ := h1
    exact h2
  | cons x t ih =>
    simp only [runFrom] at h1
    simp only [List.cons_append, runFrom]
    cases hs : cur.step x with
    | none => rw [hs] at h1; cases h1
    | some r =>
      obtain ⟨vs, e⟩ := r
      rw [hs] at h1
      simp only [Option.map_eq_some_iff] at h1
      obtain ⟨⟨ws, g⟩, k1, k2⟩ := h1
      cases k2
      simp only
      rw [ih k1]
      simp

/-- A token which a separator ends. -/
def Ends (cur : Cur) (tl : List Tok) : Prop :=
  cur.flush = some tl ∧ ∀ c ∈ "+-*/) ".toList, ∀ r, Cur.begin c = some r → cur.step c = some (tl ++ r.1, r.2)

theorem isDigit_of {c : Char} (h : c ∈ "0123456789".toList) : isDigit c = true := by simp only [isDigit, decide_eq_true h]

theorem run_whole (ds t : Text) (h : AreDigits t) : runFrom (.whole ds) t = some ([], .whole (ds ++ t)) := by
  induction t generalizing ds with
  | nil => simp [runFrom]
  | cons c t ih =>
    simp only [runFrom, Cur.step]
    rw [if_pos (isDigit_of (h c List.mem_cons_self))]
    simp only
    rw [ih _ fun x hx => h x (List.mem_cons_of_mem _ hx)]
    simp

theorem run_fraction (ds fs t : Text) (h : AreDigits t) : runFrom (.fraction ds fs) t = some ([], .fraction ds (fs ++ t)) := by
  induction t generalizing fs with
  | nil => simp [runFrom]
  | cons c t ih =>
    simp only [runFrom, Cur.step]
    rw [if_pos (isDigit_of (h c List.mem_cons_self))]
    simp only
    rw [ih _ fun x hx => h x (List.mem_cons_of_mem _ hx)]
    simp

theorem run_name (n t : Text) (h : ∀ c ∈ t, isIdent c = true) : runFrom (.name n) t = some ([], .name (n ++ t)) := by
  induction t generalizing n with
  | nil => simp [runFrom]
  | cons c t ih =>
    simp only [runFrom, Cur.step]
    rw [if_pos (h c List.mem_cons_self)]
    simp only
    rw [ih _ fun x hx => h x (List.mem_cons_of_mem _ hx)]
    simp

theorem run_str (s t : Text) (h : '\'' ∉ t) : runFrom (.str s) t = some ([], .str (s ++ t)) := by
  induction t generalizing s with
  | nil => simp [runFrom]
  | cons c t ih =>
    simp only [List.mem_cons, not_or] at h
    simp only [runFrom, Cur.step]
    rw [if_neg fun e => h.1 e.symm]
    simp only
    rw [ih _ h.2]
    simp

theorem seps_not {c : Char} (h : c ∈ "+-*/) ".toList) : isDigit c = false ∧ isIdent c = false ∧ c ≠ '.' := by
  have : ∀ c ∈ "+-*/) ".toList, isDigit c = false ∧ isIdent c = false ∧ c ≠ '.' := by decide +kernel
  exact this c h

theorem ends_nothing : Ends .nothing [] := ⟨rfl, fun c _ r h => by simp only [Cur.step, h, List.nil_append]⟩

theorem ends_whole (ds : Text) (h : ds.head? = some '0' → ds = ['0']) : Ends (.whole ds) [.num ds []] := by
  have hf : (Cur.whole ds).flush = some [.num ds []] := by
    simp only [Cur.flush]
    rw [if_neg]
    rintro ⟨h1, h2⟩
    exact h2 (h h1)
  refine ⟨hf, fun c hc r hr => ?_⟩
  obtain ⟨h1, h2, h3⟩ := seps_not hc
  simp only [Cur.step, h1, h2, h3, hf, hr, Bool.false_eq_true, if_false]

theorem ends_fraction (ds fs : Text) : Ends (.fraction ds fs) [.num ds fs] := by
  refine ⟨rfl, fun c hc r hr => ?_⟩
  obtain ⟨h1, h2, h3⟩ := seps_not hc
  simp only [Cur.step, h1, h2, Cur.flush, hr, Bool.false_eq_true, if_false]

theorem ends_name (n : Text) (h : n ∉ pythonWords) : Ends (.name n) [.name n] := by
  have hf : (Cur.name n).flush = some [.name n] := by
    simp only [Cur.flush]
    rw [if_neg]
    exact h
  refine ⟨hf, fun c hc r hr => ?_⟩
  obtain ⟨h1, h2, h3⟩ := seps_not hc
  simp only [Cur.step, h2, hf, hr, Bool.false_eq_true, if_false]

theorem run_call (f : Text) (pre : Text) (h : runFrom .nothing pre = some ([.name "__calculator__".toList, .sym '.', .name f, .sym '('], .str []))
    (a b : Text) (ha : '\'' ∉ a) (hb : '\'' ∉ b) :
    runFrom .nothing (pre ++ a ++ "', '".toList ++ b ++ "')".toList) = some (callToks f a b, .nothing) := by
  have h1 := run_append h (run_str [] a ha)
  have h2 : runFrom (.str ([] ++ a)) "', '".toList = some ([.str a, .sym ','], .str []) := rfl
  have h3 := run_append h1 h2
  have h4 := run_append h3 (run_str [] b hb)
  have h5 : runFrom (.str ([] ++ b)) "')".toList = some ([.str b, .sym ')'], .nothing) := rfl
  have h6 := run_append h4 h5
  exact h6

/-- Reading the text of a formula. -/
theorem run_formula (f : Formula) (h : f.Good) : ∃ ts tl c, runFrom .nothing f.python = some (ts, c) ∧ Ends c tl ∧ ts ++ tl = f.toks := by
  have hsep : ∀ (c : Char) (t : Text) (cur : Cur) (tl : List Tok), Ends cur tl → c ∈ "+-*/) ".toList →
      ∀ r, Cur.begin c = some r → runFrom cur [c] = some (tl ++ r.1, r.2) := by
    intro c t cur tl he hc r hr
    simp only [runFrom, he.2 c hc r hr, Option.map_some, List.append_nil]
  have quote : ∀ {a b : Text}, ArePoints a b → '\'' ∉ a ∧ '\'' ∉ b := by
    intro a b hab
    have hq : isIdent '\'' = false := by decide +kernel
    exact ⟨fun hm => by simpa [hq] using (hab.1 _ (List.mem_append_left _ hm)).1,
      fun hm => by simpa [hq] using (hab.1 _ (List.mem_append_right _ hm)).1⟩
  have binary : ∀ (f g : Formula) (c : Char), c ∈ "+-*/".toList →
      (∃ ts tl d, runFrom .nothing f.python = some (ts, d) ∧ Ends d tl ∧ ts ++ tl = f.toks) →
      (∃ ts tl d, runFrom .nothing g.python = some (ts, d) ∧ Ends d tl ∧ ts ++ tl = g.toks) →
      ∃ ts tl d, runFrom .nothing (f.python ++ c :: g.python) = some (ts, d) ∧ Ends d tl ∧ ts ++ tl = f.toks ++ .sym c :: g.toks := by
    rintro f g c hc ⟨ts, tl, d, h1, h2, h3⟩ ⟨us, ul, e, k1, k2, k3⟩
    have hb : ∀ c ∈ "+-*/".toList, Cur.begin c = some ([.sym c], .nothing) := by decide +kernel
    have hc' : ∀ c ∈ "+-*/".toList, c ∈ "+-*/) ".toList := by decide +kernel
    have h4 := run_append h1 (hsep c [] d tl h2 (hc' c hc) _ (hb c hc))
    have h5 := run_append h4 k1
    refine ⟨_, ul, e, by rw [← h5]; simp, k2, ?_⟩
    rw [← h3, ← k3]
    simp
  have sign : ∀ (f : Formula) (c : Char), c ∈ "+-".toList →
      (∃ ts tl d, runFrom .nothing f.python = some (ts, d) ∧ Ends d tl ∧ ts ++ tl = f.toks) →
      ∃ ts tl d, runFrom .nothing (c :: f.python) = some (ts, d) ∧ Ends d tl ∧ ts ++ tl = .sym c :: f.toks := by
    rintro f c hc ⟨ts, tl, d, h1, h2, h3⟩
    have hb : ∀ c ∈ "+-".toList, runFrom .nothing [c] = some ([.sym c], .nothing) := by decide +kernel
    have h4 := run_append (hb c hc) h1
    refine ⟨_, tl, d, h4, h2, ?_⟩
    rw [← h3]
    simp
  unfold Good at h
  induction f with
  | custom n => exact h.elim
  | number w f =>
    cases f with
    | none =>
      obtain ⟨h1, h2, h3⟩ := h
      cases w with
      | nil => exact absurd rfl h1
      | cons c w =>
        refine ⟨[], [.num (c :: w) []], .whole (c :: w), ?_, ends_whole _ h3, rfl⟩
        have hb : runFrom .nothing [c] = some ([], .whole [c]) := by
          simp only [runFrom, Cur.step, Cur.begin, isDigit_of (h2 c List.mem_cons_self), if_true, Option.map_some, List.append_nil]
        exact run_append hb (run_whole [c] w fun x hx => h2 x (List.mem_cons_of_mem _ hx))
    | some f =>
      obtain ⟨h1, h2, h3⟩ := h
      cases w with
      | nil => exact absurd rfl h1
      | cons c w =>
        refine ⟨[], [.num (c :: w) f], .fraction (c :: w) f, ?_, ends_fraction _ _, rfl⟩
        have hb : runFrom .nothing [c] = some ([], .whole [c]) := by
          simp only [runFrom, Cur.step, Cur.begin, isDigit_of (h2 c List.mem_cons_self), if_true, Option.map_some, List.append_nil]
        have h4 := run_append hb (run_whole [c] w fun x hx => h2 x (List.mem_cons_of_mem _ hx))
        have hd : isDigit '.' = false := by decide +kernel
        have h5 : runFrom (.whole ([c] ++ w)) ['.'] = some ([], .fraction ([c] ++ w) []) := by
          simp only [runFrom, Cur.step, hd, Bool.false_eq_true, if_false, if_true, Option.map_some, List.append_nil]
        have h6 := run_append (run_append h4 h5) (run_fraction _ [] f h3)
        rw [show (number (c :: w) (some f)).python = [c] ++ w ++ ['.'] ++ f by simp [python]]
        exact h6
  | measurement n =>
    obtain ⟨h1, h2, h3, h4, h5, h6⟩ := h
    cases n with
    | nil => exact absurd rfl h1
    | cons c n =>
      refine ⟨[], [.name (c :: n)], .name (c :: n), ?_, ends_name _ h4, rfl⟩
      have hd : isDigit c = false := by simp only [isDigit, decide_eq_false (h3 c rfl)]
      have hb : runFrom .nothing [c] = some ([], .name [c]) := by
        simp only [runFrom, Cur.step, Cur.begin, hd, h2 c List.mem_cons_self, Bool.false_eq_true, if_false, if_true, Option.map_some, List.append_nil]
      exact run_append hb (run_name [c] n fun x hx => h2 x (List.mem_cons_of_mem _ hx))
  | line a b =>
    refine ⟨callToks "_function_Line".toList a b, [], .nothing, ?_, ends_nothing, List.append_nil _⟩
    exact run_call _ _ (by decide +kernel) a b (quote h).1 (quote h).2
  | angleLine a b =>
    refine ⟨callToks "_function_AngleLine".toList a b, [], .nothing, ?_, ends_nothing, List.append_nil _⟩
    exact run_call _ _ (by decide +kernel) a b (quote h).1 (quote h).2
  | currentLength => exact ⟨currentToks, [], .nothing, by decide +kernel, ends_nothing, List.append_nil _⟩
  | paren f ih =>
    obtain ⟨ts, tl, d, h1, h2, h3⟩ := ih h
    have hb : runFrom .nothing ['('] = some ([.sym '('], .nothing) := by decide +kernel
    have h4 := run_append (run_append hb h1) (hsep ')' [] d tl h2 (by decide) ([.sym ')'], .nothing) (by decide +kernel))
    refine ⟨_, [], _, h4, ends_nothing, ?_⟩
    simp only [toks, ← h3]
    simp
  | pos f ih => exact sign f '+' (by decide) (ih h.1)
  | neg f ih => exact sign f '-' (by decide) (ih h.1)
  | add f g ih1 ih2 => exact binary f g '+' (by decide) (ih1 h.1) (ih2 h.2.1)
  | sub f g ih1 ih2 => exact binary f g '-' (by decide) (ih1 h.1) (ih2 h.2.1)
  | mul f g ih1 ih2 => exact binary f g '*' (by decide) (ih1 h.1) (ih2 h.2.1)
  | div f g ih1 ih2 => exact binary f g '/' (by decide) (ih1 h.1) (ih2 h.2.1)
  | before f ih =>
    obtain ⟨ts, tl, d, h1, h2, h3⟩ := ih h
    have hb : runFrom .nothing [' '] = some ([], .nothing) := by decide +kernel
    exact ⟨_, tl, d, run_append hb h1, h2, h3⟩
  | after f ih =>
    obtain ⟨ts, tl, d, h1, h2, h3⟩ := ih h
    have h4 := run_append h1 (hsep ' ' [] d tl h2 (by decide) ([], .nothing) (by decide +kernel))
    refine ⟨_, [], _, h4, ends_nothing, ?_⟩
    simp only [toks, ← h3]
    simp

theorem lex_formula (f : Formula) (h : f.Good) : lex f.python = some f.toks := by
  obtain ⟨ts, tl, c, h1, h2, h3⟩ := run_formula f h
  rw [← h3]
  exact lexFrom_run _ _ _ _ _ h1 h2.1

/-! ## Parsing -/

/-- The expression of Python. -/
def tree : Formula → Tree
  | number w none => .num w []
  | number w (some f) => .num w f
  | measurement n => .name n
  | custom n => .name ('@' :: n)
  | line a b => .call "_function_Line".toList [a, b]
  | angleLine a b => .call "_function_AngleLine".toList [a, b]
  | currentLength => .call "_function_CurrentLength".toList []
  | paren f => f.tree
  | pos f => .pos f.tree
  | neg f => .neg f.tree
  | add f g => .add f.tree g.tree
  | sub f g => .sub f.tree g.tree
  | mul f g => .mul f.tree g.tree
  | div f g => .div f.tree g.tree
  | before f => f.tree
  | after f => f.tree

/-- What follows is not a part of an atom. -/
def NoDot (rest : List Tok) : Prop := ∀ r, rest ≠ .sym '.' :: r

/-- What follows is not a part of a product. -/
def NoMul (rest : List Tok) : Prop := ∀ r, rest ≠ .sym '*' :: r ∧ rest ≠ .sym '/' :: r

/-- What follows is not a part of a sum. -/
def NoAdd (rest : List Tok) : Prop := ∀ r, rest ≠ .sym '+' :: r ∧ rest ≠ .sym '-' :: r

theorem productLoop_end (n : Nat) (a : Tree) (rest : List Tok) (h : NoMul rest) : productLoop (n + 1) a rest = some (a, rest) := by
  rw [productLoop]
  · exact fun r e => (h r).1 e
  · exact fun r e => (h r).2 e

theorem sumLoop_end (n : Nat) (a : Tree) (rest : List Tok) (h : NoAdd rest) : sumLoop (n + 1) a rest = some (a, rest) := by
  rw [sumLoop]
  · exact fun r e => (h r).1 e
  · exact fun r e => (h r).2 e

/-- A factor is parsed. -/
def ParsesSigned (f : Formula) : Prop :=
  ∀ rest n, NoDot rest → 4 * f.toks.length ≤ n + 2 → parseSigned n (f.toks ++ rest) = some (f.tree, rest)

/-- A product is parsed. -/
def ParsesProduct (f : Formula) : Prop :=
  ∀ rest n, NoDot rest → ∃ m, n + 1 ≤ m ∧ parseProduct (n + 4 * f.toks.length - 1) (f.toks ++ rest) = productLoop m f.tree rest

/-- A sum is parsed. -/
def ParsesSum (f : Formula) : Prop :=
  ∀ rest n, NoDot rest → NoMul rest → ∃ m, n ≤ m ∧ parseSum (n + 4 * f.toks.length) (f.toks ++ rest) = sumLoop m f.tree rest

theorem toks_pos (f : Formula) : 0 < f.toks.length := by
  induction f with
  | number w f => cases f <;> simp [toks]
  | line a b => exact Nat.succ_pos _
  | angleLine a b => exact Nat.succ_pos _
  | currentLength => exact Nat.succ_pos _
  | before f ih => exact ih
  | after f ih => exact ih
  | _ => simp [toks]

theorem product_of_signed {f : Formula} (h : ParsesSigned f) : ParsesProduct f := by
  intro rest n hr
  have hp := f.toks_pos
  obtain ⟨k, hk⟩ : ∃ k, n + 4 * f.toks.length - 1 = k + 1 := ⟨n + 4 * f.toks.length - 2, by omega⟩
  refine ⟨k, by omega, ?_⟩
  rw [hk, parseProduct, h rest k hr (by omega)]

theorem sum_of_product {f : Formula} (h : ParsesProduct f) : ParsesSum f := by
  intro rest n hr hm
  have hp := f.toks_pos
  obtain ⟨k, hk⟩ : ∃ k, n + 4 * f.toks.length = k + 1 := ⟨n + 4 * f.toks.length - 1, by omega⟩
  obtain ⟨m, h1, h2⟩ := h rest n hr
  obtain ⟨m', rfl⟩ : ∃ m', m = m' + 1 := ⟨m - 1, by omega⟩
  rw [show n + 4 * f.toks.length - 1 = k by omega, productLoop_end _ _ _ hm] at h2
  refine ⟨k, by omega, ?_⟩
  rw [hk, parseSum, h2]

theorem noDot_sym {c : Char} (r : List Tok) (h : c ≠ '.') : NoDot (.sym c :: r) := by
  intro r' e
  injection e with e
  injection e with e
  exact h e

theorem noMul_sym {c : Char} (r : List Tok) (h : c ≠ '*' ∧ c ≠ '/') : NoMul (.sym c :: r) := by
  intro r'
  constructor
  · intro e
    injection e with e
    injection e with e
    exact h.1 e
  · intro e
    injection e with e
    injection e with e
    exact h.2 e

theorem noAdd_sym {c : Char} (r : List Tok) (h : c ≠ '+' ∧ c ≠ '-') : NoAdd (.sym c :: r) := by
  intro r'
  constructor
  · intro e
    injection e with e
    injection e with e
    exact h.1 e
  · intro e
    injection e with e
    injection e with e
    exact h.2 e

theorem signed_atom (n : Nat) (t : Tok) (ts : List Tok) (h : t ≠ .sym '+' ∧ t ≠ .sym '-') : parseSigned (n + 1) (t :: ts) = parseAtom n (t :: ts) := by
  rw [parseSigned]
  · rintro r e
    injection e with e
    exact h.1 e
  · rintro r e
    injection e with e
    exact h.2 e

theorem atom_name (n : Nat) (x : Text) (rest : List Tok) (hr : NoDot rest) (hx : x ≠ "__calculator__".toList) :
    parseAtom (n + 1) (.name x :: rest) = some (.name x, rest) := by
  rw [parseAtom, if_neg hx]
  intro f r e
  exact hr _ e

theorem atom_call (n : Nat) (f a b : Text) (rest : List Tok) :
    parseAtom (n + 1) (callToks f a b ++ rest) = some (.call f [a, b], rest) := by
  change parseAtom (n + 1) (.name "__calculator__".toList :: .sym '.' :: .name f :: .sym '(' :: .str a :: .sym ',' :: .str b :: .sym ')' :: rest) = _
  rw [parseAtom, if_pos rfl]
  simp only [parseArgs]

theorem atom_current (n : Nat) (rest : List Tok) :
    parseAtom (n + 1) (currentToks ++ rest) = some (.call "_function_CurrentLength".toList [], rest) := by
  change parseAtom (n + 1) (.name "__calculator__".toList :: .sym '.' :: .name "_function_CurrentLength".toList :: .sym '(' :: .sym ')' :: rest) = _
  rw [parseAtom, if_pos rfl]
  simp only [parseArgs]

theorem parses (f : Formula) (h : f.Good) :
    ParsesSum f ∧ (1 ≤ f.level → ParsesProduct f) ∧ (2 ≤ f.level → ParsesSigned f) := by
  have of_signed : ∀ f : Formula, ParsesSigned f → ParsesSum f ∧ (1 ≤ f.level → ParsesProduct f) ∧ (2 ≤ f.level → ParsesSigned f) :=
    fun f hs => ⟨sum_of_product (product_of_signed hs), fun _ => product_of_signed hs, fun _ => hs⟩
  have fuel : ∀ (f : Formula) (n : Nat), 4 * f.toks.length ≤ n + 2 → ∃ m, n = m + 2 := by
    intro f n hn
    have := f.toks_pos
    exact ⟨n - 2, by omega⟩
  unfold Good at h
  induction f with
  | custom n => exact h.elim
  | number w f =>
    refine of_signed _ fun rest n hr hn => ?_
    obtain ⟨m, rfl⟩ := fuel _ n hn
    cases f with
    | none =>
      change parseSigned (m + 1 + 1) (.num w [] :: rest) = _
      rw [signed_atom _ _ _ ⟨by simp, by simp⟩, parseAtom]
      rfl
    | some f =>
      change parseSigned (m + 1 + 1) (.num w f :: rest) = _
      rw [signed_atom _ _ _ ⟨by simp, by simp⟩, parseAtom]
      rfl
  | measurement x =>
    refine of_signed _ fun rest n hr hn => ?_
    obtain ⟨m, rfl⟩ := fuel _ n hn
    change parseSigned (m + 1 + 1) (.name x :: rest) = _
    rw [signed_atom _ _ _ ⟨by simp, by simp⟩, atom_name _ _ _ hr h.2.2.2.2.1]
    rfl
  | line a b =>
    refine of_signed _ fun rest n hr hn => ?_
    obtain ⟨m, rfl⟩ := fuel _ n hn
    exact (signed_atom (m + 1) _ _ ⟨by simp, by simp⟩).trans (atom_call m _ a b rest)
  | angleLine a b =>
    refine of_signed _ fun rest n hr hn => ?_
    obtain ⟨m, rfl⟩ := fuel _ n hn
    exact (signed_atom (m + 1) _ _ ⟨by simp, by simp⟩).trans (atom_call m _ a b rest)
  | currentLength =>
    refine of_signed _ fun rest n hr hn => ?_
    obtain ⟨m, rfl⟩ := fuel _ n hn
    exact (signed_atom (m + 1) _ _ ⟨by simp, by simp⟩).trans (atom_current m rest)
  | paren f ih =>
    refine of_signed _ fun rest n hr hn => ?_
    obtain ⟨m, rfl⟩ := fuel _ n hn
    have hlen : (paren f).toks.length = f.toks.length + 2 := by simp [toks]
    rw [hlen] at hn
    obtain ⟨k, hk, h2⟩ := (ih h).1 (.sym ')' :: rest) (m - 4 * f.toks.length) (noDot_sym _ (by decide)) (noMul_sym _ (by decide))
    obtain ⟨k', rfl⟩ : ∃ k', k = k' + 1 := ⟨k - 1, by omega⟩
    rw [show m - 4 * f.toks.length + 4 * f.toks.length = m by omega, sumLoop_end _ _ _ (noAdd_sym _ (by decide))] at h2
    rw [show (paren f).toks ++ rest = .sym '(' :: (f.toks ++ .sym ')' :: rest) by simp [toks], signed_atom _ _ _ (by decide), parseAtom, h2]
    rfl
  | pos f ih =>
    refine of_signed _ fun rest n hr hn => ?_
    obtain ⟨m, rfl⟩ := fuel _ n hn
    have hlen : (pos f).toks.length = f.toks.length + 1 := by simp [toks]
    rw [hlen] at hn
    rw [show (pos f).toks ++ rest = .sym '+' :: (f.toks ++ rest) by simp [toks], parseSigned, (ih h.1).2.2 h.2 rest (m + 1) hr (by omega)]
    rfl
  | neg f ih =>
    refine of_signed _ fun rest n hr hn => ?_
    obtain ⟨m, rfl⟩ := fuel _ n hn
    have hlen : (neg f).toks.length = f.toks.length + 1 := by simp [toks]
    rw [hlen] at hn
    rw [show (neg f).toks ++ rest = .sym '-' :: (f.toks ++ rest) by simp [toks], parseSigned, (ih h.1).2.2 h.2 rest (m + 1) hr (by omega)]
    rfl
  | mul f g ih1 ih2 =>
    have hp : ParsesProduct (mul f g) := by
      intro rest n hr
      have hlen : (mul f g).toks.length = f.toks.length + (g.toks.length + 1) := by simp [toks]
      have h0 := f.toks_pos
      obtain ⟨k, hk, h2⟩ := (ih1 h.1).2.1 h.2.2.1 (.sym '*' :: (g.toks ++ rest)) (n + 4 * g.toks.length + 4) (noDot_sym _ (by decide))
      obtain ⟨k', rfl⟩ : ∃ k', k = k' + 1 := ⟨k - 1, by omega⟩
      rw [productLoop, (ih2 h.2.1).2.2 h.2.2.2 rest k' hr (by omega)] at h2
      refine ⟨k', by omega, ?_⟩
      rw [show n + 4 * (mul f g).toks.length - 1 = n + 4 * g.toks.length + 4 + 4 * f.toks.length - 1 by omega,
        show (mul f g).toks ++ rest = f.toks ++ .sym '*' :: (g.toks ++ rest) by simp [toks], h2]
      rfl
    exact ⟨sum_of_product hp, fun _ => hp, fun hl => absurd hl (by simp [level])⟩
  | div f g ih1 ih2 =>
    have hp : ParsesProduct (div f g) := by
      intro rest n hr
      have hlen : (div f g).toks.length = f.toks.length + (g.toks.length + 1) := by simp [toks]
      have h0 := f.toks_pos
      obtain ⟨k, hk, h2⟩ := (ih1 h.1).2.1 h.2.2.1 (.sym '/' :: (g.toks ++ rest)) (n + 4 * g.toks.length + 4) (noDot_sym _ (by decide))
      obtain ⟨k', rfl⟩ : ∃ k', k = k' + 1 := ⟨k - 1, by omega⟩
      rw [productLoop, (ih2 h.2.1).2.2 h.2.2.2 rest k' hr (by omega)] at h2
      refine ⟨k', by omega, ?_⟩
      rw [show n + 4 * (div f g).toks.length - 1 = n + 4 * g.toks.length + 4 + 4 * f.toks.length - 1 by omega,
        show (div f g).toks ++ rest = f.toks ++ .sym '/' :: (g.toks ++ rest) by simp [toks], h2]
      rfl
    exact ⟨sum_of_product hp, fun _ => hp, fun hl => absurd hl (by simp [level])⟩
  | add f g ih1 ih2 =>
    refine ⟨fun rest n hr hm => ?_, fun hl => absurd hl (by simp [level]), fun hl => absurd hl (by simp [level])⟩
    have hlen : (add f g).toks.length = f.toks.length + (g.toks.length + 1) := by simp [toks]
    obtain ⟨k, hk, h2⟩ := (ih1 h.1).1 (.sym '+' :: (g.toks ++ rest)) (n + 4 * g.toks.length + 4) (noDot_sym _ (by decide)) (noMul_sym _ (by decide))
    obtain ⟨k', rfl⟩ : ∃ k', k = k' + 1 := ⟨k - 1, by omega⟩
    obtain ⟨j, hj, h3⟩ := (ih2 h.2.1).2.1 h.2.2 rest (k' + 1 - 4 * g.toks.length) hr
    obtain ⟨j', rfl⟩ : ∃ j', j = j' + 1 := ⟨j - 1, by omega⟩
    rw [show k' + 1 - 4 * g.toks.length + 4 * g.toks.length - 1 = k' by omega, productLoop_end _ _ _ hm] at h3
    rw [sumLoop, h3] at h2
    refine ⟨k', by omega, ?_⟩
    rw [show n + 4 * (add f g).toks.length = n + 4 * g.toks.length + 4 + 4 * f.toks.length by omega,
      show (add f g).toks ++ rest = f.toks ++ .sym '+' :: (g.toks ++ rest) by simp [toks], h2]
    rfl
  | sub f g ih1 ih2 =>
    refine ⟨fun rest n hr hm => ?_, fun hl => absurd hl (by simp [level]), fun hl => absurd hl (by simp [level])⟩
    have hlen : (sub f g).toks.length = f.toks.length + (g.toks.length + 1) := by simp [toks]
    obtain ⟨k, hk, h2⟩ := (ih1 h.1).1 (.sym '-' :: (g.toks ++ rest)) (n + 4 * g.toks.length + 4) (noDot_sym _ (by decide)) (noMul_sym _ (by decide))
    obtain ⟨k', rfl⟩ : ∃ k', k = k' + 1 := ⟨k - 1, by omega⟩
    obtain ⟨j, hj, h3⟩ := (ih2 h.2.1).2.1 h.2.2 rest (k' + 1 - 4 * g.toks.length) hr
    obtain ⟨j', rfl⟩ : ∃ j', j = j' + 1 := ⟨j - 1, by omega⟩
    rw [show k' + 1 - 4 * g.toks.length + 4 * g.toks.length - 1 = k' by omega, productLoop_end _ _ _ hm] at h3
    rw [sumLoop, h3] at h2
    refine ⟨k', by omega, ?_⟩
    rw [show n + 4 * (sub f g).toks.length = n + 4 * g.toks.length + 4 + 4 * f.toks.length by omega,
      show (sub f g).toks ++ rest = f.toks ++ .sym '-' :: (g.toks ++ rest) by simp [toks], h2]
    rfl
  | before f ih => exact ih h
  | after f ih => exact ih h

theorem head_append {a : Text} (b : Text) (h : a ≠ []) : (a ++ b).head? = a.head? := by
  cases a with
  | nil => exact absurd rfl h
  | cons c a => rfl

theorem python_heads (f : Formula) (h : f.Good) :
    f.source ≠ [] ∧ f.python ≠ [] ∧ (f.source.head? = some ' ' ↔ f.python.head? = some ' ') := by
  unfold Good at h
  induction f with
  | custom n => exact h.elim
  | number w f =>
    cases f with
    | none => exact ⟨h.1, h.1, Iff.rfl⟩
    | some f => exact ⟨by simp [source], by simp [python], Iff.rfl⟩
  | measurement n => exact ⟨h.1, h.1, Iff.rfl⟩
  | line a b =>
    have h1 : (line a b).source.head? = some 'L' := rfl
    have h2 : (line a b).python.head? = some '_' := rfl
    refine ⟨fun e => ?_, fun e => ?_, ?_⟩
    · rw [e] at h1; cases h1
    · rw [e] at h2; cases h2
    · rw [h1, h2]; decide
  | angleLine a b =>
    have h1 : (angleLine a b).source.head? = some 'A' := rfl
    have h2 : (angleLine a b).python.head? = some '_' := rfl
    refine ⟨fun e => ?_, fun e => ?_, ?_⟩
    · rw [e] at h1; cases h1
    · rw [e] at h2; cases h2
    · rw [h1, h2]; decide
  | currentLength =>
    have h1 : currentLength.source.head? = some 'C' := rfl
    have h2 : currentLength.python.head? = some '_' := rfl
    refine ⟨fun e => ?_, fun e => ?_, ?_⟩
    · rw [e] at h1; cases h1
    · rw [e] at h2; cases h2
    · rw [h1, h2]; decide
  | paren f ih => exact ⟨by simp [source], by simp [python], Iff.rfl⟩
  | pos f ih => exact ⟨by simp [source], by simp [python], Iff.rfl⟩
  | neg f ih => exact ⟨by simp [source], by simp [python], Iff.rfl⟩
  | before f ih => exact ⟨by simp [source], by simp [python], Iff.rfl⟩
  | add f g ih1 ih2 | sub f g ih1 ih2 | mul f g ih1 ih2 | div f g ih1 ih2 =>
    obtain ⟨h1, h2, h3⟩ := ih1 h.1
    simp only [source, python]
    rw [head_append _ h1, head_append _ h2]
    exact ⟨by simp, by simp, h3⟩
  | after f ih =>
    obtain ⟨h1, h2, h3⟩ := ih h
    simp only [source, python]
    rw [head_append _ h1, head_append _ h2]
    exact ⟨by simp, by simp, h3⟩

theorem python_head (f : Formula) (h : f.source.head? ≠ some ' ') (hw : f.Good) : f.python.head? ≠ some ' ' :=
  fun e => h ((python_heads f hw).2.2.2 e)

theorem resolve_head (F : Text → Text) (f : Formula) (h : f.WellFormed) (hF : ∀ n, custom n ∈ f.parts → IsName (F ('@' :: n)))
    (hb : f.source.head? ≠ some ' ') : (f.resolve F).source.head? ≠ some ' ' := by
  have key : f.source ≠ [] ∧ (f.resolve F).source ≠ [] ∧ ((f.resolve F).source.head? = some ' ' → f.source.head? = some ' ') := by
    clear hb
    unfold WellFormed at h
    induction f with
    | number w f => exact ⟨by cases f <;> simp [source, h.1], by cases f <;> simp [resolve, source, h.1], id⟩
    | measurement n => exact ⟨h.1, h.1, id⟩
    | custom n =>
      refine ⟨List.cons_ne_nil _ _, (hF n List.mem_cons_self).1, fun e => ?_⟩
      have := (hF n List.mem_cons_self).2.1 ' ' (List.mem_of_head? e)
      exact absurd this (by decide +kernel)
    | line a b => exact ⟨(python_heads _ (show (line a b).Good from h)).1, (python_heads _ (show (line a b).Good from h)).1, id⟩
    | angleLine a b => exact ⟨(python_heads _ (show (angleLine a b).Good from h)).1, (python_heads _ (show (angleLine a b).Good from h)).1, id⟩
    | currentLength => exact ⟨(python_heads _ (show currentLength.Good from h)).1, (python_heads _ (show currentLength.Good from h)).1, id⟩
    | paren f ih => exact ⟨by simp [source], by simp [resolve, source], fun e => by simp [resolve, source] at e⟩
    | pos f ih => exact ⟨by simp [source], by simp [resolve, source], fun e => by simp [resolve, source] at e⟩
    | neg f ih => exact ⟨by simp [source], by simp [resolve, source], fun e => by simp [resolve, source] at e⟩
    | before f ih => exact ⟨by simp [source], by simp [resolve, source], fun _ => rfl⟩
    | add f g ih1 ih2 | sub f g ih1 ih2 | mul f g ih1 ih2 | div f g ih1 ih2 =>
      obtain ⟨h1, h2, h3⟩ := ih1 h.1 fun n hn => hF n (List.mem_cons_of_mem _ (List.mem_append_left _ hn))
      simp only [source, resolve]
      rw [head_append _ h1, head_append _ h2]
      exact ⟨by simp, by simp, h3⟩
    | after f ih =>
      obtain ⟨h1, h2, h3⟩ := ih h fun n hn => hF n (List.mem_cons_of_mem _ hn)
      simp only [source, resolve]
      rw [head_append _ h1, head_append _ h2]
      exact ⟨by simp, by simp, h3⟩
  exact fun e => hb (key.2.2 e)

/-- The text given to Python is parsed as the formula says. -/
theorem parse_formula (f : Formula) (h : f.Good) (hb : f.source.head? ≠ some ' ') : parse f.python = some f.tree := by
  unfold parse
  rw [if_neg (python_head f hb h), lex_formula f h]
  obtain ⟨m, h1, h2⟩ := (parses f h).1 [] 4 (fun r => by simp) (fun r => ⟨by simp, by simp⟩)
  obtain ⟨m', rfl⟩ : ∃ m', m = m' + 1 := ⟨m - 1, by omega⟩
  rw [sumLoop_end _ _ _ (fun r => ⟨by simp, by simp⟩), List.append_nil, Nat.add_comm] at h2
  simp only [h2]

end Formula

end Patro.Formulas
