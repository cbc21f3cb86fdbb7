import Verif.Model.Vit
import Verif.Model.Formula
/-!
# Model of the measurements in a calculator, and of the formulas of a sketch with their values

The constructor of `Patro/Pattern/Calculator.py` for a set of Valentina measurements.
-/

namespace Patro.ValFormulas

open Patro.Text (Text)
open Measurement (Formula)
open Vit (VSet VMeas)

variable {K : Type}

/-- An entry of the cache: the calculator itself or a number. -/
inductive Cached (K : Type) where
  | calculator
  | number (v : K)

/-- `measurement.value` of the object `i` (Measurement.py:108-121), with its two caches, for the objects of a set of Valentina measurements. `rnd`
is the rounding of `evalf(3)`; a name left is a `TypeError` of `float`. There is an object for each key, so that the `KeyError` does not occur. -/
def objectValue (rnd : K → K) (s : VSet K) (i : Nat) : Except PyErr K × VSet K :=
  match s.objects[i]? with
  | none => (.error .keyError, s)
  | some m =>
    match m.core.value with
    | some v => (.ok v, s)
    | none =>
      let ev := m.core.evaluated.getD (s.subs m.core.expression)
      match ev.ground? with
      | some k => (.ok (rnd k), { s with
          objects := s.objects.set i { m with core := { m.core with evaluated := some ev, value := some (rnd k) } } })
      | none => (.error .typeError, { s with objects := s.objects.set i { m with core := { m.core with evaluated := some ev } } })

/-- The loop over the measurements (Calculator.py:98-100). -/
def loadCache (rnd : K → K) : VSet K → Dict Text (Cached K) → List Nat → Except PyErr (Dict Text (Cached K)) × VSet K
  | s, cache, [] => (.ok cache, s)
  | s, cache, i :: is =>
    match objectValue rnd s i with
    | (.error e, s) => (.error e, s)
    | (.ok v, s) =>
      match s.objects[i]? with
      | none => (.error .keyError, s)
      | some m => loadCache rnd s (cache.set m.name (.number v)) is

/-- The cache of `Calculator(measurements)` (Calculator.py:88-100). -/
def calculatorCache (rnd : K → K) (s : VSet K) : Except PyErr (Dict Text (Cached K)) × VSet K :=
  loadCache rnd s [("__calculator__".toList, .calculator)] s.iter

/-- The number of a name. -/
def numbers (cache : Dict Text (Cached K)) (n : Text) : Option K :=
  match cache.get? n with
  | some (.number v) => some v
  | _ => none

/-- `self._calculator.measurements[measurement].name` (Calculator.py:272). -/
def pyName (s : VSet K) (x : Text) : Except PyErr Text :=
  match s.get x with
  | .error e => .error e
  | .ok i =>
    match s.objects[i]? with
    | none => .error .keyError
    | some m => .ok m.name

/-- A formula of a sketch, with the measurements of its calculator (Calculator.py:260-347). Where a measurement has the place of the calculator
in the cache, the functions are not modelled: the `ValueError` is a placeholder. -/
noncomputable def expression (builtin : Text → Bool) (s : VSet ℝ) (cache : Dict Text (Cached ℝ)) (text : Text) : SketchGeometry.Expr :=
  match cache.get? "__calculator__".toList with
  | some .calculator => Formulas.compile builtin (pyName s) (numbers cache) text
  | _ => fun _ => .error (.py .valueError)

end Patro.ValFormulas
