import Verif.Spec.ValFormulas
import Verif.Spec.ValPrinted
import Verif.Spec.ValDrawn
/-! # The measurements of a `.vit` file -/

namespace Patro.ValVit

open Patro.Text (Text)
open Measurement (Formula)
open Vit (VMeas KeyOf Makes callOf Node FirstChild)

variable {K : Type}

/-- The file `tree` has an element `m` which describes the measurement. -/
def Describes (isAlnum : Char → Bool) (sympify : Text → Except PyErr (Formula K)) (tree : Node) (m : VMeas K) : Prop :=
  ∃ n e, FirstChild tree "body-measurements" n ∧ e ∈ n.children ∧ Makes isAlnum sympify (callOf e) m

/-- The names needed for a formula, directly or through measurements of the file. -/
inductive Needs (isAlnum : Char → Bool) (sympify : Text → Except PyErr (Formula K)) (tree : Node) (f : Formula K) : Text → Prop where
  | direct {n : Text} : n ∈ f.names → Needs isAlnum sympify tree f n
  | through {r : Text} {m : VMeas K} : Needs isAlnum sympify tree f m.name → Describes isAlnum sympify tree m → r ∈ m.core.expression.names →
      Needs isAlnum sympify tree f r

/-- `σ` gives every measurement of the file, by its name, the value of its expression. -/
def Solves (isAlnum : Char → Bool) (sympify : Text → Except PyErr (Formula K)) (tree : Node) (σ : Text → K) : Prop :=
  ∀ m, Describes isAlnum sympify tree m → σ m.name = m.core.expression.eval σ

/-- `measure` gives the values of the measurements of the file, rounded by `rnd`, under the names by which a formula refers to them, and no
others. -/
def Measures (isAlnum : Char → Bool) (sympify : Text → Except PyErr (Formula K)) (rnd : K → K) (tree : Node) (σ : Text → K)
    (measure : Text → Option K) : Prop :=
  ∀ x v, measure x = some v ↔ ∃ m, Describes isAlnum sympify tree m ∧ KeyOf m x ∧ v = rnd (σ m.name)

end Patro.ValVit
