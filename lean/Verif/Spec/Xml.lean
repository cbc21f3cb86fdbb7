import Verif.Model.Xml
/-! # Vocabulary for class hierarchies -/

namespace Patro.Xml

variable {A : Type _}

/-- `Inherits c d`: `d` is a base class of `c`, or a base class of one of its ancestors. -/
inductive Inherits : Cls A → Cls A → Prop where
  | base {own : List A} {bases mro : List (Cls A)} {b : Cls A} : b ∈ bases → Inherits (.mk own bases mro) b
  | trans {c d e : Cls A} : Inherits c d → Inherits d e → Inherits c e

/-- The part of `__mro__` between the class itself and `object` lists ancestors only, at every class of the
hierarchy. -/
inductive WellFormed : Cls A → Prop where
  | mk {own : List A} {bases mro : List (Cls A)} : (∀ b ∈ bases, WellFormed b) → (∀ m ∈ mro, WellFormed m) →
      (∀ m ∈ mro, Inherits (.mk own bases mro) m) → WellFormed (.mk own bases mro)

/-- The declarations written in the body of the class. -/
def Cls.own : Cls A → List A
  | .mk own _ _ => own

/-- The declaration with Python name `p` that takes effect: the last one in the list. -/
def effective {V : Type _} (p : String) (attrs : List (Attr V)) : Option (Attr V) :=
  attrs.reverse.find? fun a => a.py == p

end Patro.Xml
