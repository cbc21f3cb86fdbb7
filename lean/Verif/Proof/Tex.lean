import Mathlib.Data.List.TakeWhile
import Mathlib.Tactic.Common
import Verif.Spec.Tex
/-!
# Lemmas about TeX texts
-/

namespace Patro.Tex

open Xml (Text)

theorem replace_char (a : Char) (w t : Text) :
    Patro.Text.replace [a] w t = t.flatMap fun c => if c = a then w else [c] := by
  have go : ∀ t : Text, Patro.Text.replaceGo [a] w 0 t = t.flatMap fun c => if c = a then w else [c] := by
    intro t
    induction t with
    | nil => rfl
    | cons c t ih =>
      unfold Patro.Text.replaceGo
      by_cases h : c = a
      · subst h; simp [List.isPrefixOf, ih]
      · have : ¬ (a = c) := fun e => h e.symm
        simp [List.isPrefixOf, h, this, ih]
  exact go t

/-- What the four replacements make of a character. -/
def escape (c : Char) : Text :=
  if c = '{' then ['{', '{'] else if c = '}' then ['}', '}'] else if c = '«' then ['{'] else if c = '»' then ['}'] else [c]

theorem guillemetFormat_eq (lookup : Text → Except PyErr Text) (t : Text) :
    guillemetFormat lookup t = format lookup (t.flatMap escape) := by
  unfold guillemetFormat
  simp only [replace_char, List.flatMap_assoc]
  congr 2
  funext c
  unfold escape
  by_cases h1 : c = '{'
  · subst h1; decide
  by_cases h2 : c = '}'
  · subst h2; decide
  by_cases h3 : c = '«'
  · subst h3; decide
  by_cases h4 : c = '»'
  · subst h4; decide
  simp [h1, h2, h3, h4]

variable (lookup : Text → Except PyErr Text)

theorem format_plain (t r : Text) (h1 : '«' ∉ t) (h2 : '»' ∉ t) :
    formatGo lookup .plain (t.flatMap escape ++ r) = (formatGo lookup .plain r).map (t ++ ·) := by
  induction t with
  | nil => show formatGo lookup .plain r = _; cases formatGo lookup .plain r <;> rfl
  | cons c t ih =>
    have ih := ih (fun h => h1 (by simp [h])) (fun h => h2 (by simp [h]))
    have h3 : c ≠ '«' := fun h => h1 (by simp [h])
    have h4 : c ≠ '»' := fun h => h2 (by simp [h])
    rw [List.flatMap_cons, List.append_assoc]
    unfold escape
    by_cases h5 : c = '{'
    · subst h5
      show formatGo lookup .plain ('{' :: '{' :: (t.flatMap escape ++ r)) = _
      simp only [formatGo, if_true]
      rw [ih]
      cases formatGo lookup .plain r <;> rfl
    by_cases h6 : c = '}'
    · subst h6
      show formatGo lookup .plain ('}' :: '}' :: (t.flatMap escape ++ r)) = _
      rw [formatGo, if_neg (by decide), if_pos rfl, formatGo, if_pos rfl, ih]
      cases formatGo lookup .plain r <;> rfl
    rw [if_neg h5, if_neg h6, if_neg h3, if_neg h4]
    show formatGo lookup .plain (c :: (t.flatMap escape ++ r)) = _
    rw [formatGo, if_neg h5, if_neg h6, ih]
    cases formatGo lookup .plain r <;> rfl

theorem format_field (f acc r : Text) (h1 : '{' ∉ f) (h2 : '}' ∉ f) :
    formatGo lookup (.field 0 acc) (f ++ '}' :: r) = (do
      let v ← lookup (acc.reverse ++ f)
      let r ← formatGo lookup .plain r
      return v ++ r) := by
  induction f generalizing acc with
  | nil => rw [List.append_nil]; rfl
  | cons c f ih =>
    have h3 : c ≠ '{' := fun h => h1 (by simp [h])
    have h4 : c ≠ '}' := fun h => h2 (by simp [h])
    rw [List.cons_append, formatGo, if_neg h3, if_neg h4, ih (c :: acc) (fun h => h1 (by simp [h])) (fun h => h2 (by simp [h]))]
    simp

theorem flatMap_escape_self (f : Text) (h1 : '«' ∉ f) (h2 : '»' ∉ f) (h3 : '{' ∉ f) (h4 : '}' ∉ f) : f.flatMap escape = f := by
  induction f with
  | nil => rfl
  | cons c f ih =>
    have e1 : c ≠ '«' := fun h => h1 (by simp [h])
    have e2 : c ≠ '»' := fun h => h2 (by simp [h])
    have e3 : c ≠ '{' := fun h => h3 (by simp [h])
    have e4 : c ≠ '}' := fun h => h4 (by simp [h])
    rw [List.flatMap_cons, ih (fun h => h1 (by simp [h])) (fun h => h2 (by simp [h])) (fun h => h3 (by simp [h]))
      (fun h => h4 (by simp [h]))]
    simp [escape, e1, e2, e3, e4]

/-! ## Lines -/

/-- A text made of complete lines. -/
def Complete (t : Text) : Prop := t = [] ∨ t.getLast? = some '\n'

theorem linesGo_append (a b acc : Text) (h : a.getLast? = some '\n') : linesGo acc (a ++ b) = linesGo acc a ++ lines b := by
  induction a generalizing acc with
  | nil => simp at h
  | cons c a ih =>
    cases a with
    | nil =>
      simp only [List.getLast?_singleton, Option.some.injEq] at h
      subst h
      simp [linesGo, lines]
    | cons d a =>
      rw [List.getLast?_cons_cons] at h
      by_cases hc : c = '\n'
      · rw [List.cons_append, linesGo, if_pos hc, ih [] h]
        conv_rhs => rw [linesGo, if_pos hc]
        rfl
      · rw [List.cons_append, linesGo, if_neg hc, ih (c :: acc) h]
        conv_rhs => rw [linesGo, if_neg hc]

theorem lines_append (a b : Text) (h : Complete a) : lines (a ++ b) = lines a ++ lines b := by
  rcases h with rfl | h
  · rfl
  · exact linesGo_append a b [] h

theorem complete_append {a b : Text} (ha : Complete a) (hb : Complete b) : Complete (a ++ b) := by
  rcases hb with rfl | hb
  · rw [List.append_nil]; exact ha
  · right
    rw [List.getLast?_append, hb]; rfl

theorem linesGo_one (l acc : Text) (h : '\n' ∉ l) : linesGo acc (l ++ ['\n']) = [acc.reverse ++ l] := by
  induction l generalizing acc with
  | nil => simp [linesGo]
  | cons c l ih =>
    have hc : c ≠ '\n' := fun e => h (by simp [e])
    rw [List.cons_append, linesGo, if_neg hc, ih (c :: acc) (fun e => h (by simp [e]))]
    simp

theorem lines_one (l : Text) (h : '\n' ∉ l) : lines (l ++ ['\n']) = [l] := by
  unfold lines; rw [linesGo_one l [] h]; rfl

theorem nest_plain (ls : List Text) (h : ∀ l ∈ ls, ¬ "\\begin{".toList.isPrefixOf l ∧ ¬ "\\end{".toList.isPrefixOf l)
    (stack : List Text) : ls.foldl nest (some stack) = some stack := by
  induction ls with
  | nil => rfl
  | cons l ls ih =>
    have h1 := h l (by simp)
    rw [List.foldl_cons]
    have : nest (some stack) l = some stack := by
      unfold nest
      simp only [Option.bind_some]
      rw [if_neg h1.1, if_neg h1.2]
    rw [this]
    exact ih fun l' hl => h l' (by simp [hl])

theorem takeWhile_name (name rest : Text) (h : '}' ∉ name) :
    (name ++ '}' :: rest).takeWhile (fun c => decide (c ≠ '}')) = name := by
  induction name with
  | nil => rfl
  | cons c name ih =>
    have hc : c ≠ '}' := fun e => h (by simp [e])
    rw [List.cons_append, List.takeWhile_cons, if_pos (by simpa using hc), ih (fun e => h (by simp [e]))]

theorem beginLine_lines (name options : Text) (h1 : '\n' ∉ name) (h2 : '}' ∉ name) (h3 : '\n' ∉ options) :
    ∀ stack, (lines (beginLine name options)).foldl nest (some stack) = some (name :: stack) := by
  intro stack
  unfold beginLine
  rw [lines_one _ (by
    simp only [List.mem_append, not_or]
    refine ⟨⟨⟨by decide, h1⟩, by decide⟩, ?_⟩
    split
    · simp
    · simp [h3])]
  generalize hr : (if options = [] then [] else '[' :: options ++ [']'] : Text) = rest
  rw [List.foldl_cons, List.foldl_nil]
  unfold nest
  simp only [Option.bind_some]
  have e : "\\begin{".toList ++ name ++ ['}'] ++ rest = "\\begin{".toList ++ (name ++ '}' :: rest) := by simp
  rw [e, if_pos (by rw [List.isPrefixOf_iff_prefix]; exact List.prefix_append _ _)]
  have e2 : nameAfter 7 ("\\begin{".toList ++ (name ++ '}' :: rest)) = name := by
    unfold nameAfter
    rw [show ("\\begin{".toList ++ (name ++ '}' :: rest)).drop 7 = name ++ '}' :: rest from rfl]
    exact takeWhile_name name rest h2
  rw [e2]

theorem endLine_lines (name : Text) (h1 : '\n' ∉ name) (h2 : '}' ∉ name) :
    ∀ stack, (lines (endLine name)).foldl nest (some (name :: stack)) = some stack := by
  intro stack
  unfold endLine
  rw [show "\\end{".toList ++ name ++ ['}', '\n'] = ("\\end{".toList ++ name ++ ['}']) ++ ['\n'] by simp, lines_one _ (by
    simp only [List.mem_append, not_or]
    exact ⟨⟨by decide, h1⟩, by decide⟩)]
  rw [List.foldl_cons, List.foldl_nil]
  unfold nest
  simp only [Option.bind_some]
  have e : "\\end{".toList ++ name ++ ['}'] = "\\end{".toList ++ (name ++ '}' :: []) := by simp
  rw [e, if_neg (by
      show ¬ (List.isPrefixOf ('\\' :: 'b' :: "egin{".toList) ('\\' :: 'e' :: ("nd{".toList ++ (name ++ ['}']))) = true)
      simp [List.isPrefixOf]),
    if_pos (by rw [List.isPrefixOf_iff_prefix]; exact List.prefix_append _ _)]
  have e2 : nameAfter 5 ("\\end{".toList ++ (name ++ '}' :: [])) = name := by
    unfold nameAfter
    rw [show ("\\end{".toList ++ (name ++ '}' :: [])).drop 5 = name ++ '}' :: [] from rfl]
    exact takeWhile_name name [] h2
  simp only [e2, if_true]

theorem beginLine_complete (name options : Text) : Complete (beginLine name options) := by
  right; unfold beginLine; rw [List.getLast?_append]; rfl

theorem endLine_complete (name : Text) : Complete (endLine name) := by
  right; unfold endLine; rw [List.getLast?_append]; rfl

mutual
theorem node_nested : (n : Node) → n.Good →
    Complete n.str ∧ ∀ stack, (lines n.str).foldl nest (some stack) = some stack
  | .text t, h => by
    unfold Node.Good at h
    unfold Node.str
    exact ⟨h.1, nest_plain _ h.2⟩
  | .buffer c, h => by
    unfold Node.Good at h
    unfold Node.str
    exact nodes_nested c h
  | .env name options c, h => by
    unfold Node.Good at h
    obtain ⟨h1, h2, h3, h4⟩ := h
    obtain ⟨hc, hn⟩ := nodes_nested c h4
    unfold Node.str
    have hb := complete_append (beginLine_complete name options) hc
    refine ⟨complete_append hb (endLine_complete name), fun stack => ?_⟩
    rw [lines_append _ _ hb, lines_append _ _ (beginLine_complete name options), List.foldl_append, List.foldl_append,
      beginLine_lines name options h1 h2 h3, hn, endLine_lines name h1 h2]
theorem nodes_nested : (l : List Node) → GoodAll l →
    Complete (strs l) ∧ ∀ stack, (lines (strs l)).foldl nest (some stack) = some stack
  | [], _ => ⟨Or.inl (by unfold strs; rfl), fun stack => by unfold strs; rfl⟩
  | n :: l, h => by
    unfold GoodAll at h
    obtain ⟨h1, h2⟩ := node_nested n h.1
    obtain ⟨h3, h4⟩ := nodes_nested l h.2
    unfold strs
    exact ⟨complete_append h1 h3, fun stack => by rw [lines_append _ _ h1, List.foldl_append, h2, h4]⟩
end

/-! ## Names of files -/

theorem rfindGo_none_or (pat t : Text) (i : Nat) (last : Option Nat) (hp : pat ≠ []) :
    rfindGo pat t i last = last ∨ ∃ j, i ≤ j ∧ j < i + t.length ∧ rfindGo pat t i last = some j ∧ pat.isPrefixOf (t.drop (j - i)) = true := by
  induction t generalizing i last with
  | nil => left; unfold rfindGo; rw [if_neg hp]
  | cons c t ih =>
    unfold rfindGo
    rcases ih (i + 1) (if pat.isPrefixOf (c :: t) then some i else last) with h | ⟨j, h1, h2, h3, h4⟩
    · rw [h]
      by_cases hpre : pat.isPrefixOf (c :: t) = true
      · right
        refine ⟨i, le_refl _, by simp, by rw [if_pos hpre], ?_⟩
        simpa using hpre
      · left; rw [if_neg hpre]
    · right
      refine ⟨j, by omega, by simp; omega, h3, ?_⟩
      rw [show j - i = (j - (i + 1)) + 1 by omega, List.drop_succ_cons]
      exact h4

theorem rfindGo_suffix (base pat : Text) (i : Nat) (last : Option Nat) (hp : pat ≠ []) :
    rfindGo pat (base ++ pat) i last = some (i + base.length) := by
  induction base generalizing i last with
  | nil =>
    cases pat with
    | nil => exact absurd rfl hp
    | cons p pat =>
      rw [List.nil_append, rfindGo, if_pos (by rw [List.isPrefixOf_iff_prefix])]
      have : ∀ (t : Text) (j : Nat) (l : Option Nat), t.length < (p :: pat).length → rfindGo (p :: pat) t j l = l := by
        intro t
        induction t with
        | nil => intro j l _; unfold rfindGo; rw [if_neg (by simp)]
        | cons c t ih =>
          intro j l hl
          unfold rfindGo
          rw [if_neg (by
            intro h
            rw [List.isPrefixOf_iff_prefix] at h
            have := h.length_le
            omega)]
          exact ih _ _ (by simp at hl ⊢; omega)
      exact this pat _ _ (by simp)
  | cons c base ih =>
    rw [List.cons_append, rfindGo, ih]
    simp; omega

theorem rfind_four (t : Text) : ((t.length : Int) - rfind ".tex".toList t = 4) ↔
    (∃ base, t = base ++ ".tex".toList) ∨ (t.length = 3) := by
  unfold rfind
  constructor
  · intro h
    rcases rfindGo_none_or ".tex".toList t 0 none (by decide) with e | ⟨j, h1, h2, e, h3⟩
    · rw [e] at h
      simp only at h
      right; omega
    · rw [e] at h
      simp only at h
      left
      rw [Nat.sub_zero, List.isPrefixOf_iff_prefix] at h3
      have hl : (t.drop j).length = 4 := by rw [List.length_drop]; omega
      have := h3.eq_of_length (by rw [hl]; rfl)
      exact ⟨t.take j, by rw [this, List.take_append_drop]⟩
  · rintro (⟨base, rfl⟩ | h)
    · rw [rfindGo_suffix base _ 0 none (by decide)]
      simp only [List.length_append]
      rw [show ".tex".toList.length = 4 from rfl]
      push_cast; omega
    · rcases rfindGo_none_or ".tex".toList t 0 none (by decide) with e | ⟨j, h1, h2, e, h3⟩
      · rw [e]; simp only; omega
      · rw [Nat.sub_zero, List.isPrefixOf_iff_prefix] at h3
        have := h3.length_le
        rw [List.length_drop, show ".tex".toList.length = 4 from rfl] at this
        omega

end Patro.Tex
