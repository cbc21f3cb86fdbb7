import Verif.Spec.Calculator
/-!
# Vocabulary for expressions that use several functions

An expression is written as words (made of letters, digits and `_`, possibly empty) separated by single characters of
any other kind: `2*Line_A_B+h` is `2`, `*`, `Line_A_B`, `+`, `h`.
-/

namespace Patro.Calculator

open Patro.Text (Text)

/-- The functions that take names of points. -/
def callNames : List Text :=
  ["Angle1Spl".toList, "Angle2Spl".toList, "AngleLine".toList, "C1LengthSpl".toList, "C2LengthSpl".toList,
   "Line".toList, "Spl".toList]

/-- The texts that announce a function. -/
def keywords : List Text := "CurrentLength".toList :: callNames.map (· ++ ['_'])

/-- `a1_a2_…`. -/
def underscored : List Text → Text
  | [] => []
  | [a] => a
  | a :: as => a ++ '_' :: underscored as

/-- `'a1', 'a2', …`. -/
def quoted : List Text → Text
  | [] => []
  | [a] => '\'' :: a ++ ['\'']
  | a :: as => '\'' :: a ++ '\'' :: ',' :: ' ' :: quoted as

/-- A word of an expression. -/
inductive Word where
  /-- a number, the name of a measurement, … -/
  | plain (w : Text)
  /-- `f_a1_a2_…` -/
  | call (f : Text) (args : List Text)
  /-- `CurrentLength` -/
  | currentLength

/-- How the word is written in the pattern. -/
def Word.source : Word → Text
  | .plain w => w
  | .call f args => f ++ '_' :: underscored args
  | .currentLength => "CurrentLength".toList

/-- What Python must be given for the word. -/
def Word.python : Word → Text
  | .plain w => w
  | .call f args => "__calculator__._function_".toList ++ f ++ '(' :: quoted args ++ [')']
  | .currentLength => "__calculator__._function_CurrentLength()".toList

/-- The word uses a function. -/
def Word.isFunction : Word → Prop
  | .plain _ => False
  | _ => True

/-- No text announcing a function lies inside of `t`. -/
def Free (t : Text) : Prop := ∀ k ∈ keywords, ¬ k <:+: t

/-- The word is made of identifier characters, and texts announcing a function only appear where a function is used. -/
def Word.Ok : Word → Prop
  | .plain w => (∀ c ∈ w, isIdent c = true) ∧ Free w
  | .call f args => f ∈ callNames ∧ args ≠ [] ∧ (∀ a ∈ args, ∀ c ∈ a, isIdent c = true ∧ c ≠ '_') ∧
      Free (underscored args)
  | .currentLength => True

/-- A text made of a first item and of items preceded by a separator. -/
def glue (first : Text) (rest : List (Char × Text)) : Text := first ++ rest.flatMap fun x => x.1 :: x.2

/-- An expression: a first word, then separators with a word. -/
structure Words where
  first : Word
  rest : List (Char × Word)

/-- The words. -/
def Words.words (e : Words) : List Word := e.first :: e.rest.map (·.2)

/-- The expression as it is written in the pattern. -/
def Words.source (e : Words) : Text := glue e.first.source (e.rest.map fun x => (x.1, x.2.source))

/-- The expression as Python must be given it. -/
def Words.python (e : Words) : Text := glue e.first.python (e.rest.map fun x => (x.1, x.2.python))

/-- The words are well formed and the separators are not identifier characters. -/
def Words.Ok (e : Words) : Prop := (∀ w ∈ e.words, w.Ok) ∧ ∀ x ∈ e.rest, isIdent x.1 = false

/-- No use of a function begins like another one: neither the words nor the uses read inside of a word
(`Line_A_B` is read inside of `AngleLine_A_B`). -/
def Words.NoClash (e : Words) : Prop :=
  ∀ v ∈ e.words, ∀ w ∈ e.words, ∀ c, c <:+ v.source → (∃ k ∈ keywords, k <+: c) → c <+: w.source → w.isFunction →
    c = w.source

/-- `CurrentLength` is used at most once. -/
def Words.OneCurrent (e : Words) : Prop :=
  ∀ a b c : List Word, e.words ≠ a ++ Word.currentLength :: b ++ Word.currentLength :: c

end Patro.Calculator
