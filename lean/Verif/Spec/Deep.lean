import Verif.Proofs.White
import Verif.Model.Ahb
/-!
# Specification vocabulary for deep AHBs: document order, occurrences, addresses
-/

namespace Verif

/-- what a reader meets when reading a deep AHB from top to bottom -/
inductive DocItem where
  | group (discriminator : Option PyStr) (ahbExpression : PyStr) (ahbLineIndex : Option Int)
  | segment (discriminator : Option PyStr) (ahbExpression : PyStr) (ahbLineIndex : Option Int)
      (sectionName segmentId : Option PyStr)
  | dataElement (de : DataElement)
  deriving DecidableEq

/-- a text that is neither empty nor whitespace only -/
def NotBlank (s : PyStr) : Prop := ∃ c ∈ s, c ∉ whiteSpace

/-- all expressions of an item are not blank -/
def DocItem.NotBlank : DocItem → Prop
  | .group _ e _ => Verif.NotBlank e
  | .segment _ e _ _ _ => Verif.NotBlank e
  | .dataElement de => match de.kind with
    | .freeText e => Verif.NotBlank e
    | .valuePool es => ∀ x ∈ es, Verif.NotBlank x.ahbExpression

/-- the `ahb_line_index` of a group or segment -/
def DocItem.lineIndex : DocItem → Option (Option Int)
  | .group _ _ i => some i
  | .segment _ _ i _ _ => some i
  | .dataElement _ => none

/-- the `ahb_line_index` of a segment -/
def DocItem.segmentLineIndex : DocItem → Option (Option Int)
  | .segment _ _ i _ _ => some i
  | _ => none

/-- the group itself, without its content -/
def SegmentGroup.header (g : SegmentGroup) : DocItem := .group g.discriminator g.ahbExpression g.ahbLineIndex

/-- the segment itself, without its content -/
def Segment.header (s : Segment) : DocItem :=
  .segment s.discriminator s.ahbExpression s.ahbLineIndex s.sectionName s.segmentId

/-- a segment, then its data elements -/
def Segment.docItems (s : Segment) : List DocItem := s.header :: s.dataElements.map .dataElement

namespace SegmentGroup

/-- the groups directly below a group (none if the attribute is `None`) -/
def children (g : SegmentGroup) : List SegmentGroup := g.segmentGroups.getD []

/-- the segments directly in a group (none if the attribute is `None`) -/
def ownSegments (g : SegmentGroup) : List Segment := g.segments.getD []

mutual
/-- a group, then its segments with their data elements, then its sub groups -/
def docItems : SegmentGroup → List DocItem
  | mk d e i s gs => .group d e i :: ((s.getD []).flatMap Segment.docItems ++ docItemsOpt gs)
/-- no sub groups if the attribute is `None` -/
def docItemsOpt : Option (List SegmentGroup) → List DocItem
  | none => []
  | some l => docItemsList l
/-- groups one after the other -/
def docItemsList : List SegmentGroup → List DocItem
  | [] => []
  | g :: l => docItems g ++ docItemsList l
end

/-- the group at an address below a group; the address `[]` is the group itself -/
def at? : SegmentGroup → List Nat → Option SegmentGroup
  | g, [] => some g
  | g, i :: a => (g.children[i]?).bind fun c => c.at? a

end SegmentGroup

/-- a list of groups read from top to bottom -/
def documentOrder (l : List SegmentGroup) : List DocItem := l.flatMap SegmentGroup.docItems

/-- the group at an address below a list of groups (an address has at least one index) -/
def groupAt? (l : List SegmentGroup) : List Nat → Option SegmentGroup
  | [] => none
  | i :: a => (l[i]?).bind fun g => g.at? a

namespace SegmentGroup
mutual
/-- addresses (relative to the group) of the group and all groups below, in document order -/
def addresses : SegmentGroup → List (List Nat)
  | mk _ _ _ _ gs => [] :: addressesOpt gs
/-- no sub groups if the attribute is `None` -/
def addressesOpt : Option (List SegmentGroup) → List (List Nat)
  | none => []
  | some l => addressesList 0 l
/-- addresses in a list of groups, the first of which has index `n` -/
def addressesList (n : Nat) : List SegmentGroup → List (List Nat)
  | [] => []
  | g :: l => (addresses g).map (n :: ·) ++ addressesList (n + 1) l
end
end SegmentGroup

/-- addresses of all groups in document order -/
def groupAddresses (l : List SegmentGroup) : List (List Nat) := SegmentGroup.addressesList 0 l

end Verif
