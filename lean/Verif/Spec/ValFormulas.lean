import Verif.Model.ValFormulas
import Verif.Spec.Vit
import Verif.Spec.Measurement
import Verif.Spec.Formula
import Verif.Spec.ValPlaces
/-! # The values of the measurements, and what the formulas of a file say -/

namespace Patro.ValFormulas

open Patro.Text (Text)
open Measurement (Formula)
open Vit (VMeas KeyOf)
open Valentina (Class Element)
open ValPlaces (Drawing meaning SaysWith)

variable {K : Type}

/-- `σ` gives every measurement, by its name, the value of its expression. -/
def SolvesAll (σ : Text → K) (ms : List (VMeas K)) : Prop := ∀ m ∈ ms, σ m.name = m.core.expression.eval σ

/-- The value of the measurement that has the key `x`, rounded by `rnd`. -/
noncomputable def valueOf (rnd : K → K) (σ : Text → K) (ms : List (VMeas K)) (x : Text) : Option K :=
  open Classical in (ms.find? fun m : VMeas K => decide (KeyOf m x)).map fun m : VMeas K => rnd (σ m.name)

/-- The attributes of an element which are formulas. -/
def formulas (c : Class) : List String := ((Valentina.table c).filter fun r => r.meaning = .formula).map Valentina.Row.xml

/-- The attribute `attr` of `e` is a readable formula which denotes `v`, where `measure` gives the values of the measurements. -/
def Denotes (measure : Text → Option ℝ) (d : Drawing) (before : List Element) (e : Element) (current : Option (Vec ℝ)) (attr : String) (v : ℝ) :
    Prop :=
  ∃ f : Formulas.Formula, e.attrib.get? attr = some f.source ∧ f.Readable ∧ f.Means measure ⟨meaning d before e, current⟩ v

/-- What an element says, its formulas having the values they denote. -/
def SaysFormulas (measure : Text → Option ℝ) (d : Drawing) (before : List Element) (e : Element) : Class → Prop :=
  SaysWith (Denotes measure d before e) d e

/-- The formulas of an element are readable, and ask the angle of a line only for points at different places. -/
def ReadableFormulas (d : Drawing) (before : List Element) (e : Element) (c : Class) : Prop :=
  ∀ attr ∈ formulas c, ∀ t, e.attrib.get? attr = some t →
    ∃ f : Formulas.Formula, f.source = t ∧ f.Readable ∧ ∀ current, f.Apart ⟨meaning d before e, current⟩

end Patro.ValFormulas
