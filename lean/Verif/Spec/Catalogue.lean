import Verif.Model.Catalogue
import Mathlib.Data.List.Forall2
/-! # What the catalogue of the standard measurements is -/

namespace Patro.Catalogue

open Patro.Text (Text)

/-- The code and the fields of the measurements of all the topics, in the order of the document. -/
def listed (data : Dict Text Topic) : List (Text × List Text) := data.flatMap fun t => t.2.measurements.getD []

/-- The measurement described by a code and its fields. -/
def Describes (l : Text × List Text) (m : Entry) : Prop := m.code = l.1 ∧ l.2 = [m.name, m.fullName, m.description, m.defaultValue]

/-- The document describes the measurements `ms`: every topic has its measurements, and every measurement its four fields. -/
def Document (data : Dict Text Topic) (ms : List Entry) : Prop :=
  (∀ t ∈ data, t.2.measurements ≠ none) ∧ List.Forall₂ Describes (listed data) ms

end Patro.Catalogue
