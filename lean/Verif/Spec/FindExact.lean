import Verif.Spec.DeepOps
/-!
# Specification vocabulary: how often and in which order the searches in a deep AHB return something
-/

namespace Verif

/-- all groups at any depth in document order: a group, then the groups below it -/
def groupsInOrder (l : List SegmentGroup) : List SegmentGroup := (groupAddresses l).filterMap (groupAt? l)

/-- groups at different places are different -/
def DistinctGroups (l : List SegmentGroup) : Prop := ∀ a b g, groupAt? l a = some g → groupAt? l b = some g → a = b

/-- the segment occurs once, in the group at the given address -/
def OnlyIn (l : List SegmentGroup) (address : List Nat) (s : Segment) : Prop :=
  ∃ g, groupAt? l address = some g ∧ g.ownSegments.count s = 1 ∧
    ∀ b h, groupAt? l b = some h → s ∈ h.ownSegments → b = address

/-- how many of the groups on the way from an outermost group to the one at the given address (both included) satisfy the predicate -/
def matchesAbove (l : List SegmentGroup) (p : SegmentGroup → Bool) (address : List Nat) : Nat :=
  (List.range address.length).countP fun k => (groupAt? l (address.take (k + 1))).any p

end Verif
