import Verif.Model.MigXml
import Mathlib.Data.List.Forall2
/-!
# Specification of C133: what a location asks for
-/

namespace Verif

/-- the same segment group; no segment group, an empty key and `UNH` mean the message -/
def SameGroupKey (a b : Option PyStr) : Prop :=
  a = b ∨ ((a = none ∨ a = some [] ∨ a = some py!"UNH") ∧ (b = none ∨ b = some [] ∨ b = some py!"UNH"))

/-- the same segment; no segment code and `UNH` mean the message -/
def SameSegmentCode (a b : Option PyStr) : Prop := a = b ∨ ((a = none ∨ a = some py!"UNH") ∧ (b = none ∨ b = some py!"UNH"))

/-- the two locations ask for the same element: their layers have the same segment groups and opening qualifiers, they have the same segment and the
same data element and, if there is a data element, the same qualifier; the opening segments of the layers may differ -/
structure SameQuestion (a b : AhbLocation) : Prop where
  layers : List.Forall₂ (fun x y : AhbLocationLayer => SameGroupKey x.segmentGroupKey y.segmentGroupKey ∧ x.openingQualifier = y.openingQualifier)
    a.layers b.layers
  segment : SameSegmentCode a.segmentCode b.segmentCode
  dataElement : a.dataElementId = b.dataElementId
  qualifier : a.dataElementId ≠ none → a.qualifier = b.qualifier

end Verif
