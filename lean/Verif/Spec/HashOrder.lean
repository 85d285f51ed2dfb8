import Verif.Spec.Csv
import Verif.Model.HashOrder
/-!
# Specification: iteration orders of sets (C116)
-/

namespace Verif

/-- an order in which the set of the five columns can be iterated -/
def ColumnOrder (keys : List PyStr) : Prop :=
  keys.Perm [py!"Segment", py!"Datenelement", py!"Codes und Qualifier", py!"Beschreibung", py!"Bedingung"]

/-- the same dictionary: the same columns with the same cells, possibly in another order -/
def SameRow (a b : RawRow) : Prop := ∀ key, dictGet key a = dictGet key b

/-- the same exception, or as many rows which are equal one by one -/
def SameRows : PyRes (List RawRow) → PyRes (List RawRow) → Prop
  | .ok a, .ok b => List.Forall₂ SameRow a b
  | .error e, .error e' => e = e'
  | _, _ => False

end Verif
