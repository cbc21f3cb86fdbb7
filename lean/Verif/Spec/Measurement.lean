import Verif.Model.Measurement
/-! # Vocabulary for measurements -/

namespace Patro.Measurement

open Patro.Text (Text)

variable {K : Type _}

/-- The value of a formula when every name `n` stands for `σ n`. -/
def Formula.eval (σ : Text → K) : Formula K → K
  | .num k => k
  | .var n => σ n
  | .bin op a b => op (a.eval σ) (b.eval σ)

/-- The names a formula refers to. -/
def Formula.names : Formula K → List Text
  | .num _ => []
  | .var n => [n]
  | .bin _ a b => a.names ++ b.names

/-- `σ` gives every measurement of the set the value of its formula. -/
def Solves (σ : Text → K) (s : MSet K) : Prop :=
  ∀ n m, s.get? n = some m → σ n = m.expression.eval σ

end Patro.Measurement

namespace Patro.Measurement

open Patro.Text (Text)

variable {K : Type _}

/-- The names needed, directly or through other measurements, to compute a formula. -/
inductive Needs (s : MSet K) (f : Formula K) : Text → Prop where
  | direct {n : Text} : n ∈ f.names → Needs s f n
  | through {n r : Text} {m : Meas K} : Needs s f n → s.get? n = some m → r ∈ m.expression.names → Needs s f r

/-- `σ` gives every measurement needed for a formula the value of its own formula. -/
def SolvesFor (σ : Text → K) (s : MSet K) (f : Formula K) : Prop :=
  ∀ n m, Needs s f n → s.get? n = some m → σ n = m.expression.eval σ

/-- The set after a sequence of `add` calls; a call that raises leaves the set as it is. -/
def MSet.addAll (isAlnum : Char → Bool) (s : MSet K) : List (Text × Arg K) → MSet K
  | [] => s
  | (n, v) :: l => match s.add isAlnum n v with
    | .ok s' => MSet.addAll isAlnum s' l
    | .error _ => MSet.addAll isAlnum s l

end Patro.Measurement
