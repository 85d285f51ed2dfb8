import Verif.Spec.Deep
import Verif.Model.Deep
/-!
# Specification vocabulary for the operations on deep AHBs
-/

namespace Verif

/-- the group occurs at some depth in a list of groups -/
def GroupOccurs (l : List SegmentGroup) (g : SegmentGroup) : Prop := ∃ a, groupAt? l a = some g

/-- the segment occurs at some depth in a list of groups -/
def SegmentOccurs (l : List SegmentGroup) (s : Segment) : Prop := ∃ g, GroupOccurs l g ∧ s ∈ g.ownSegments

/-- the data element occurs at some depth in a list of groups -/
def DataElementOccurs (l : List SegmentGroup) (de : DataElement) : Prop := ∃ s, SegmentOccurs l s ∧ de ∈ s.dataElements

/-- all segments of a group and the groups below it, in document order -/
def SegmentGroup.segmentsInOrder (g : SegmentGroup) : List Segment :=
  g.addresses.flatMap fun a => match g.at? a with
    | some h => h.ownSegments
    | none => []

/-- equal up to `ahb_line_index` -/
def Segment.SameButIndex (a b : Segment) : Prop :=
  a.discriminator = b.discriminator ∧ a.ahbExpression = b.ahbExpression ∧ a.dataElements = b.dataElements ∧
    a.sectionName = b.sectionName ∧ a.segmentId = b.segmentId

/-- both `None`, or lists of the same length with related entries -/
def SameOptList {α : Type} (R : α → α → Prop) : Option (List α) → Option (List α) → Prop
  | none, none => True
  | some a, some b => a.length = b.length ∧ ∀ (i : Nat) (x y : α), a[i]? = some x → b[i]? = some y → R x y
  | _, _ => False

namespace SegmentGroup
mutual
/-- equal up to the `ahb_line_index` of the groups and segments at every depth -/
def SameButIndex : SegmentGroup → SegmentGroup → Prop
  | mk d e _ s gs, mk d' e' _ s' gs' =>
    d = d' ∧ e = e' ∧ SameOptList Segment.SameButIndex s s' ∧ SameButIndexOpt gs gs'
/-- the same for the optional sub groups -/
def SameButIndexOpt : Option (List SegmentGroup) → Option (List SegmentGroup) → Prop
  | none, none => True
  | some a, some b => SameButIndexList a b
  | none, some _ => False
  | some _, none => False
/-- the same, one by one -/
def SameButIndexList : List SegmentGroup → List SegmentGroup → Prop
  | [], [] => True
  | a :: as, b :: bs => SameButIndex a b ∧ SameButIndexList as bs
  | [], _ :: _ => False
  | _ :: _, [] => False
end

mutual
/-- the tree with a function applied to each data element at every depth -/
def mapDataElements (f : DataElement → DataElement) : SegmentGroup → SegmentGroup
  | mk d e i s gs =>
    mk d e i (s.map fun ss => ss.map fun x => { x with dataElements := x.dataElements.map f }) (mapDataElementsOpt f gs)
/-- the same for the optional sub groups -/
def mapDataElementsOpt (f : DataElement → DataElement) : Option (List SegmentGroup) → Option (List SegmentGroup)
  | none => none
  | some l => some (mapDataElementsList f l)
/-- the same for every group of a list -/
def mapDataElementsList (f : DataElement → DataElement) : List SegmentGroup → List SegmentGroup
  | [] => []
  | g :: l => mapDataElements f g :: mapDataElementsList f l
end
end SegmentGroup

/-- the discriminator of a data element item -/
def DocItem.dataElementDiscriminator : DocItem → Option PyStr
  | .dataElement de => de.discriminator
  | _ => none

/-- the expressions an item carries -/
def DocItem.expressions : DocItem → List PyStr
  | .group _ e _ => [e]
  | .segment _ e _ _ _ => [e]
  | .dataElement de => match de.kind with
    | .freeText e => [e]
    | .valuePool es => es.map ValuePoolEntry.ahbExpression

/-- a pure replacement function that records the discriminators it is called with -/
def recordCalls (f : PyStr → InputReplacement) (d : PyStr) : StateM (List PyStr) InputReplacement := do
  modify fun log => log ++ [d]
  pure (f d)

end Verif
