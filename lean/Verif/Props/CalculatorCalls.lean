import Verif.Proof.CalculatorCalls
import Verif.Model.Calculator
import Mathlib.Data.List.Infix
/-!
# C77: expressions that use several functions
-/

namespace Patro.Calculator

open Patro
open Patro.Text

/-- C77, what holds: in an expression made of any number of words and separators, every use of a function is replaced by
the corresponding Python call and everything else is left as it is. Missing: names of points that hold the text of a
function, uses of a function of which one begins like another (`rewriteCalls_prefix_clash`) and repeated uses of
`CurrentLength` (`rewriteCalls_current_length`). -/
theorem rewriteCalls_words_partial (e : Words) (he : e.Ok) (hclash : e.NoClash) (hone : e.OneCurrent) :
    rewriteCalls e.source e.source = e.python := by
  unfold rewriteCalls
  have := replace_all e he hclash hone (functionCalls e.source) [] (List.nil_append _).symm
  rw [textAfter_nil, List.nil_append, textAfter_all e he] at this
  exact this

/-- C77, what holds: without custom measurements this is the text given to Python. -/
theorem pythonise_words_partial (pyName : Text → Except PyErr Text) (e : Words) (he : e.Ok) (hclash : e.NoClash)
    (hone : e.OneCurrent) (hat : '@' ∉ e.source) : pythonise pyName e.source = .ok e.python := by
  unfold pythonise rewriteCustom
  rw [if_neg hat]
  simp only [bind, Except.bind, pure, Except.pure]
  rw [rewriteCalls_words_partial e he hclash hone]

/-- The expression `2*(AngleLine_A_B1+Line_C_B)/CurrentLength-Line_C_B`. -/
def severalCalls : Words where
  first := .plain "2".toList
  rest := [('*', .plain []), ('(', .call "AngleLine".toList ["A".toList, "B1".toList]),
    ('+', .call "Line".toList ["C".toList, "B".toList]), (')', .plain []), ('/', .currentLength),
    ('-', .call "Line".toList ["C".toList, "B".toList])]

theorem severalCalls_source :
    severalCalls.source = "2*(AngleLine_A_B1+Line_C_B)/CurrentLength-Line_C_B".toList := by decide +kernel

theorem severalCalls_python :
    severalCalls.python = ("2*(__calculator__._function_AngleLine('A', 'B1')+__calculator__._function_Line('C', 'B'))" ++
      "/__calculator__._function_CurrentLength()-__calculator__._function_Line('C', 'B')").toList := by decide +kernel

/-- The hypotheses of `rewriteCalls_words_partial` hold for this expression. -/
theorem severalCalls_ok : severalCalls.Ok ∧ severalCalls.NoClash ∧ severalCalls.OneCurrent := by
  refine ⟨⟨?_, by decide⟩, ?_, ?_⟩
  · have h1 : ("2".toList).all isIdent = true ∧ Free "2".toList ∧ Free [] ∧
        Free (underscored ["A".toList, "B1".toList]) ∧ Free (underscored ["C".toList, "B".toList]) := by
      unfold Free
      decide +kernel
    have h2 : ∀ a ∈ ["A".toList, "B1".toList, "C".toList, "B".toList], ∀ c ∈ a, isIdent c = true ∧ c ≠ '_' := by
      decide +kernel
    have h3 : "AngleLine".toList ∈ callNames ∧ "Line".toList ∈ callNames := by decide +kernel
    obtain ⟨a1, a2, a3, a4, a5⟩ := h1
    intro w hw
    simp only [Words.words, severalCalls, List.map_cons, List.map_nil, List.mem_cons, List.not_mem_nil,
      or_false] at hw
    have call1 : (Word.call "AngleLine".toList ["A".toList, "B1".toList]).Ok :=
      ⟨h3.1, List.cons_ne_nil _ _, fun a ha => h2 a (by
        simp only [List.mem_cons, List.not_mem_nil, or_false] at ha ⊢
        rcases ha with ha | ha
        · exact Or.inl ha
        · exact Or.inr (Or.inl ha)), a4⟩
    have call2 : (Word.call "Line".toList ["C".toList, "B".toList]).Ok :=
      ⟨h3.2, List.cons_ne_nil _ _, fun a ha => h2 a (by
        simp only [List.mem_cons, List.not_mem_nil, or_false] at ha ⊢
        rcases ha with ha | ha
        · exact Or.inr (Or.inr (Or.inl ha))
        · exact Or.inr (Or.inr (Or.inr ha))), a5⟩
    rcases hw with rfl | rfl | rfl | rfl | rfl | rfl | rfl
    · exact ⟨fun c hc => List.all_eq_true.1 a1 c hc, a2⟩
    · exact ⟨fun c hc => absurd hc List.not_mem_nil, a3⟩
    · exact call1
    · exact call2
    · exact ⟨fun c hc => absurd hc List.not_mem_nil, a3⟩
    · exact trivial
    · exact call2
  · have key : ∀ v ∈ severalCalls.words.map Word.source, ∀ w ∈ severalCalls.words.map Word.source, ∀ c ∈ v.tails,
        (∃ k ∈ keywords, k <+: c) → c <+: w → c = w := by decide +kernel
    intro v hv w hw c hc hk hp _
    exact key _ (List.mem_map_of_mem hv) _ (List.mem_map_of_mem hw) c ((List.mem_tails _ _).2 hc) hk hp
  · intro a b c h
    have h1 := congrArg (fun l => (l.map Word.source).count "CurrentLength".toList) h
    have h3 : Word.currentLength.source = "CurrentLength".toList := rfl
    simp only [List.map_append, List.map_cons, List.count_append, h3, List.count_cons_self] at h1
    have h2 : (severalCalls.words.map Word.source).count "CurrentLength".toList = 1 := by decide +kernel
    rw [h2] at h1
    omega

example : rewriteCalls "2*(AngleLine_A_B1+Line_C_B)/CurrentLength-Line_C_B".toList
      "2*(AngleLine_A_B1+Line_C_B)/CurrentLength-Line_C_B".toList =
    ("2*(__calculator__._function_AngleLine('A', 'B1')+__calculator__._function_Line('C', 'B'))" ++
      "/__calculator__._function_CurrentLength()-__calculator__._function_Line('C', 'B')").toList := by
  rw [← severalCalls_source, ← severalCalls_python]
  exact rewriteCalls_words_partial severalCalls severalCalls_ok.1 severalCalls_ok.2.1 severalCalls_ok.2.2

end Patro.Calculator
