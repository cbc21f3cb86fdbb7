import Verif.Model.Tex
/-!
# What TeX templates, environments and paintings are expected to be
-/

namespace Patro.Tex

open Xml (Text)

/-- A template: pieces of plain text, and placeholders with the text of a field. -/
inductive Piece where
  | plain (t : Text)
  | placeholder (field : Text)

/-- How a template is written: the placeholders are between guillemets. -/
def Piece.write : Piece → Text
  | .plain t => t
  | .placeholder f => '«' :: f ++ ['»']

/-- A plain text has no guillemet; a field has no guillemet and no brace, and is not empty. -/
def Piece.WellFormed : Piece → Prop
  | .plain t => '«' ∉ t ∧ '»' ∉ t
  | .placeholder f => f ≠ [] ∧ '«' ∉ f ∧ '»' ∉ f ∧ '{' ∉ f ∧ '}' ∉ f

/-- What the template stands for: the plain texts as they are, and the values of the fields. -/
def fill (value : Text → Except PyErr Text) : List Piece → Except PyErr Text
  | [] => .ok []
  | .plain t :: l => (fill value l).map (t ++ ·)
  | .placeholder f :: l => do
    let v ← value f
    let r ← fill value l
    return v ++ r

/-- The lines of a text, without their ends; what follows the last end of line is the last line if it is not empty. -/
def linesGo : Text → Text → List Text
  | acc, [] => if acc = [] then [] else [acc.reverse]
  | acc, c :: t => if c = '\n' then acc.reverse :: linesGo [] t else linesGo (c :: acc) t
@[inherit_doc linesGo] def lines (t : Text) : List Text := linesGo [] t

/-- The name in a command: what follows the given number of characters, up to a closing brace. -/
def nameAfter (n : Nat) (line : Text) : Text := (line.drop n).takeWhile (· ≠ '}')

/-- The environments that are open after a line, the innermost first; `none` if the line closes an environment that is not
the innermost one. -/
def nest (opened : Option (List Text)) (line : Text) : Option (List Text) :=
  opened.bind fun stack =>
    if "\\begin{".toList.isPrefixOf line then some (nameAfter 7 line :: stack)
    else if "\\end{".toList.isPrefixOf line then
      match stack with
      | top :: rest => if top = nameAfter 5 line then some rest else none
      | [] => none
    else some stack

/-- The environments of a text are properly nested and closed. -/
def Nested (t : Text) : Prop := (lines t).foldl nest (some []) = some []

/-- A text made of complete lines, none of which opens or closes an environment. -/
def PlainLines (t : Text) : Prop :=
  (t = [] ∨ t.getLast? = some '\n') ∧
    ∀ l ∈ lines t, ¬ "\\begin{".toList.isPrefixOf l ∧ ¬ "\\end{".toList.isPrefixOf l

mutual
/-- The texts are plain lines, and the names and options of the environments are in one line. -/
def Node.Good : Node → Prop
  | .text t => PlainLines t
  | .buffer c => GoodAll c
  | .env name options c => '\n' ∉ name ∧ '}' ∉ name ∧ '\n' ∉ options ∧ GoodAll c
@[inherit_doc Node.Good] def GoodAll : List Node → Prop
  | [] => True
  | n :: l => n.Good ∧ GoodAll l
end

/-- How a position is written in a picture: the name of a coordinate, or the two numbers, between parentheses. -/
def positionText {K : Type _} (number : K → Text) : Scene.Position K → Text
  | .name n => "(".toList ++ n.toList ++ ")".toList
  | .vector v => "(".toList ++ number v.x ++ ",".toList ++ number v.y ++ ")".toList

/-- How a coordinate is defined in a picture. -/
def coordinateText {K : Type _} (number : K → Text) (name : String) (position : Scene.Position K) : Text :=
  "\\coordinate (".toList ++ name.toList ++ ") at ".toList ++ positionText number position ++ ";\n".toList

end Patro.Tex
