/-!
# Python string methods used by the model

A text is a list of characters; positions are indices.
-/

namespace Patro.Text

/-- A text. -/
abbrev Text := List Char

/-- Position of the first occurrence of `pat` in `t`, whose first character has position `i`. -/
def findAt (pat : Text) : Text → Nat → Option Nat
  | [], i => if pat = [] then some i else none
  | c :: t, i => if pat.isPrefixOf (c :: t) then some i else findAt pat t (i + 1)

/-- `text.find(pat, start)` for a non-empty `pat` and `start ≥ 0`; `none` stands for -1. -/
def find (pat text : Text) (start : Nat) : Option Nat := findAt pat (text.drop start) start

/-- Loop of `replace`: `skip` characters of an occurrence are still to be dropped. -/
def replaceGo (old new : Text) : Nat → Text → Text
  | _, [] => []
  | k + 1, _ :: t => replaceGo old new k t
  | 0, c :: t =>
    if old.isPrefixOf (c :: t) then new ++ replaceGo old new (old.length - 1) t
    else c :: replaceGo old new 0 t

/-- `text.replace(old, new)` for a non-empty `old`: non overlapping occurrences from left to right. -/
def replace (old new text : Text) : Text := replaceGo old new 0 text

end Patro.Text
