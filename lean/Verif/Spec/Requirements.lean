import Verif.Proofs.White
import Verif.Spec.Deep
import Verif.Spec.Navigation
/-!
# Specification vocabulary: the requirements of a flat AHB and of a deep AHB

A requirement says under which condition (ahb expression) a field or a segment has to be present. Flat and deep AHB are read
from top to bottom as lists of requirements.
-/

namespace Verif

/-- the requirement on a data element: a free text (`entry = none`) or one entry (qualifier, meaning) of a value pool -/
structure FieldRequirement where
  dataElement : PyStr
  entry : Option (PyStr × PyStr)
  expression : PyStr
  deriving DecidableEq

/-- the requirement a line of a flat AHB states on a data element, if any -/
def AhbLine.fieldRequirement? (l : AhbLine) : Option FieldRequirement :=
  match l.dataElement, l.ahbExpression with
  | some d, some e =>
    if e = [] then none
    else some ⟨d, l.valuePoolEntry.map fun q => (q, trim (l.name.getD [])), e⟩
  | _, _ => none

/-- the requirements a deep AHB states on a data element -/
def DocItem.fieldRequirements : DocItem → List FieldRequirement
  | .dataElement de => match de.kind with
    | .freeText e => [⟨de.dataElementId, none, e⟩]
    | .valuePool es => es.map fun x => ⟨de.dataElementId, some (x.qualifier, x.meaning), x.ahbExpression⟩
  | _ => []

/-- the expression a line of a flat AHB states for a segment: the line has a segment code, but no data element -/
def AhbLine.segmentRequirement? (l : AhbLine) : Option PyStr :=
  if l.segmentCode ≠ none ∧ l.dataElement = none then l.ahbExpression.filter fun e => e ≠ [] else none

/-- the expression of a segment of a deep AHB -/
def DocItem.segmentRequirement? : DocItem → Option PyStr
  | .segment _ e _ _ _ => some e
  | _ => none

/-- a field without value pool is described by one line: no line with a data element but without value pool entry is
directly followed by a line with the same data element -/
def FreeTextsHaveOneLine (lines : List AhbLine) : Prop :=
  ∀ (n : Nat) (a b : AhbLine), lines[n]? = some a → lines[n + 1]? = some b → a.dataElement ≠ none →
    a.dataElement = b.dataElement → a.valuePoolEntry ≠ none

/-- a line with a segment code, but without data element, is not followed by a segment with the same code unless there is a
line with a data element in between -/
def SegmentsHaveOneLine (lines : List AhbLine) : Prop :=
  ∀ (n : Nat) (a b : AhbLine), lines[n]? = some a → lines[n + 1]? = some b → a.segmentCode ≠ none →
    a.dataElement = none → b.dataElement = none → nextSegmentAt lines (n + 1) ≠ a.segmentCode

/-- a line without segment code and data element (the heading of a group) that has an expression has the same expression as
the next line with a segment code -/
def HeadingsAgree (lines : List AhbLine) : Prop :=
  ∀ (n : Nat) (a : AhbLine), lines[n]? = some a → a.segmentCode = none → a.dataElement = none → a.ahbExpression ≠ none →
    a.ahbExpression ≠ some [] →
    ∃ s, (lines.drop n).find? (fun l => l.segmentCode.isSome) = some s ∧ s.ahbExpression = a.ahbExpression

/-- two locations are equal except for the qualifiers -/
def AhbLocation.SamePlace (a b : AhbLocation) : Prop :=
  a.layers = b.layers ∧ a.segmentCode = b.segmentCode ∧ a.dataElementId = b.dataElementId

/-- the located lines, divided into the longest parts of consecutive lines at the same place -/
def PlaceParts (located : List (AhbLine × AhbLocation)) (parts : List (List (AhbLine × AhbLocation))) : Prop :=
  parts.flatten = located ∧ (∀ p ∈ parts, p ≠ [] ∧ ∀ x ∈ p, ∀ y ∈ p, x.2.SamePlace y.2) ∧
  ∀ (n : Nat) (a b : List (AhbLine × AhbLocation)), parts[n]? = some a → parts[n + 1]? = some b →
    ∀ x ∈ a, ∀ y ∈ b, ¬ x.2.SamePlace y.2

/-- the requirements on a data element that are kept from the lines at one place: none if there is no segment code, all if the first
line has got a value pool entry, otherwise the one of the first line -/
def keptFieldRequirements (lines : List AhbLine) : List FieldRequirement :=
  if lines.all fun l => l.segmentCode = none then []
  else match lines with
    | [] => []
    | first :: _ => if first.valuePoolEntry = none then first.fieldRequirement?.toList else lines.filterMap AhbLine.fieldRequirement?

/-- the requirement on a segment that is kept from the lines at one place: if there is a segment code but no data element, the first
expression -/
def keptSegmentRequirement (lines : List AhbLine) : Option PyStr :=
  if (lines.all fun l => l.segmentCode = none) || (lines.any fun l => l.dataElement ≠ none) then none
  else lines.findSome? fun l => l.ahbExpression.filter fun e => e ≠ []

end Verif
