import Verif.Model.Calculator
/-! # Vocabulary for expressions -/

namespace Patro.Calculator

open Patro.Text (Text)

/-- `pat` occurs in `text` at position `k`. -/
def OccursAt (pat text : Text) (k : Nat) : Prop := pat <+: text.drop k

/-- `name` is a maximal identifier at position `s`: it occurs there, all its characters but the first are
identifier characters, and it is followed by the end of the text or by another kind of character. -/
def MaximalAt (name text : Text) (s : Nat) : Prop :=
  OccursAt name text s ∧ name ≠ [] ∧ (∀ c ∈ name.tail, isIdent c = true) ∧
    ∀ c, text[s + name.length]? = some c → isIdent c = false

/-- The custom names of an expression: every `@` with the identifier characters that follow. -/
def customTokens : Text → List Text
  | [] => []
  | c :: t => if c = '@' then (c :: t.takeWhile isIdent) :: customTokens t else customTokens t

/-- The expression with every custom name `n` replaced by `f n`; `inName` tells that the previous character
belonged to a custom name. -/
def substCustom (f : Text → Text) : Bool → Text → Text
  | _, [] => []
  | inName, c :: t =>
    if c = '@' then f ('@' :: t.takeWhile isIdent) ++ substCustom f true t
    else if inName && isIdent c then substCustom f true t
    else c :: substCustom f false t

end Patro.Calculator
