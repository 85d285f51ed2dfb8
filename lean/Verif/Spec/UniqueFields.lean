import Verif.Spec.TemplatePath
import Verif.Spec.Requirements
import Verif.Spec.Codes
/-!
# Specification vocabulary: does a discriminator identify a data element?
-/

namespace Verif

/-- the discriminator of a data element -/
def DocItem.fieldDiscriminator : DocItem → Option PyStr
  | .dataElement de => de.discriminator
  | _ => none

/-- the segment groups around a location, from the outside to the inside, as the template calls them; qualifiers are left out -/
def AhbLocation.groups (loc : AhbLocation) : List PyStr := loc.layers.map fun l => groupRef l.segmentGroupKey

/-- the same data element id inside the same segment groups -/
def AhbLocation.SameIdAndGroups (a b : AhbLocation) : Prop := a.dataElementId = b.dataElementId ∧ a.groups = b.groups

/-- the same data element id in the same segment inside the same segment groups -/
def AhbLocation.SameIdSegmentAndGroups (a b : AhbLocation) : Prop :=
  a.dataElementId = b.dataElementId ∧ a.segmentCode = b.segmentCode ∧ a.groups = b.groups

/-- the same data element id below the same class of the template: the layers of both locations lead to it -/
def AhbLocation.SameIdAndClass (document : Xml) (a b : AhbLocation) : Prop :=
  a.dataElementId = b.dataElementId ∧ ∃ p e, LayerWalk document a.layers p e ∧ LayerWalk document b.layers p e

/-- in the template, every field is in a class of its own segment: the class around a field is neither the message nor a segment group -/
def FieldsInSegments (root : Xml) : Prop :=
  ∀ (path : List Nat) (es : List Xml) (c f : Xml), lineage root path = some (es ++ [c, f]) → f.tag = py!"field" →
    ∃ r, dictGet py!"ref" c.attrib = some r ∧ r ≠ py!"UNH" ∧ ¬ IsSgKey r

/-- no data element is described at two places of the AHB which are the same in the given sense: divide the located lines into the longest parts
of consecutive lines at the same place; then no two parts with a data element are the same -/
def EachFieldOnce (same : AhbLocation → AhbLocation → Prop) (sgh : Sgh) (lines : List AhbLine) : Prop :=
  ∀ located parts, determineLocations sgh lines = .ok located → PlaceParts located parts →
    parts.Pairwise fun p q => ∀ x ∈ p, ∀ y ∈ q, x.2.dataElementId ≠ none → ¬ same x.2 y.2

end Verif
