import Verif.Model.SketchAgain
import Verif.Spec.SketchGeometry
/-! # Sketches with the same operations and other formulas -/

namespace Patro.SketchGeometry

/-- No formula. -/
def blank : Expr := fun _ => .error .nan

/-- An operation without its formulas: its class, its name and the operations it refers to. -/
def Op.shape : Op → Op
  | .single n _ _ => .single n blank blank
  | .along n f s _ => .along n f s blank
  | .endLine n b _ _ => .endLine n b blank blank
  | .lineIntersect n a b c d => .lineIntersect n a b c d
  | .normal n f s _ _ => .normal n f s blank blank
  | .contact n f s c _ => .contact n f s c blank
  | .intersection n f s => .intersection n f s
  | .line f s => .line f s
  | .spline f s _ _ _ _ => .spline f s blank blank blank blank

/-- Two sketches with the same operations; the formulas, or what the formulas read of the measurements, may be different. -/
def SameShape (ops ops' : List Op) : Prop := ops.map Op.shape = ops'.map Op.shape

/-- Everything which is known in `env` is known in `env'`: the names of the points and the vectors that are computed. -/
def Env.Le (env env' : Env) : Prop :=
  env'.current = env.current ∧
  (∀ n, (env.points n).isSome → (env'.points n).isSome) ∧ ∀ n p, env.points n = some (some p) → env'.points n = some (some p)

/-- A formula which has a value keeps it when more points are known. -/
def Expr.Stable (e : Expr) : Prop := ∀ env env', Env.Le env env' → ∀ v, e env = .ok v → e env' = .ok v

/-- The value of a formula depends on the points named in `names` and on the current segment only. -/
def Expr.ReadsOnly (e : Expr) (names : List String) : Prop :=
  ∀ env env' : Env, env'.current = env.current → (∀ n ∈ names, env'.points n = env.points n) → e env' = e env

/-- The operation which a name means for the operation of number `i`: the last one of this name up to `i`. -/
def meant (ops : List Op) (i : Nat) (n : String) : Option Nat :=
  (List.range (i + 1)).reverse.find? fun j => ops[j]?.bind Op.name = some n

end Patro.SketchGeometry
