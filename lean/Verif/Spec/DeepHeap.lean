import Verif.Model.DeepHeap
/-!
# Specification: what is seen when the objects on the heap are read (C118)
-/

namespace Verif

/-- the segment number `s` -/
def Heap.readSegment (h : Heap) (s : Nat) : Segment :=
  let c := h.segments s
  { discriminator := c.discriminator, ahbExpression := c.ahbExpression, ahbLineIndex := c.ahbLineIndex,
    dataElements := h.dataElementLists c.dataElements, sectionName := c.sectionName, segmentId := c.segmentId }

/-- the list of groups number `r`, read down to the given depth; below, nothing is seen -/
def Heap.readGroups (h : Heap) : Nat → Nat → List SegmentGroup
  | 0, _ => []
  | depth + 1, r => (h.groupLists r).map fun k =>
    let c := h.groups k
    .mk c.discriminator c.ahbExpression c.ahbLineIndex (some ((h.segmentLists c.segments).map h.readSegment))
      (some (h.readGroups depth c.segmentGroups))

/-- the objects form this tree: whatever the depth to which `result.lines` is read, as soon as it is large enough, `lines` is seen -/
def Heap.Shows (h : Heap) (lines : List SegmentGroup) : Prop := ∃ depth, ∀ d ≥ depth, h.readGroups d 0 = lines

/-- no list and no object is used at two places: two groups in lists that exist, and two segments in lists that exist, are at the same
position of the same list if they are the same object or if they share the list of groups, the list of segments or the list of data elements.
The lists of a group in a list that exists, exist themselves, and the list of its groups is not `result.lines`. -/
structure Heap.NothingShared (h : Heap) : Prop where
  groups : ∀ a ≤ h.groupCount, ∀ b ≤ h.groupCount, ∀ i j k l : Nat, (h.groupLists a)[i]? = some k → (h.groupLists b)[j]? = some l →
    (k = l ∨ (h.groups k).segmentGroups = (h.groups l).segmentGroups ∨ (h.groups k).segments = (h.groups l).segments) → a = b ∧ i = j
  lists : ∀ a ≤ h.groupCount, ∀ k ∈ h.groupLists a, (h.groups k).segments < h.groupCount ∧ (h.groups k).segmentGroups ≤ h.groupCount ∧
    (h.groups k).segmentGroups ≠ 0
  segments : ∀ a < h.groupCount, ∀ b < h.groupCount, ∀ i j s t : Nat, (h.segmentLists a)[i]? = some s → (h.segmentLists b)[j]? = some t →
    (s = t ∨ (h.segments s).dataElements = (h.segments t).dataElements) → a = b ∧ i = j

/-- both raise the same exception, or both return and the results are related -/
def SameResult {α β : Type} (R : α → β → Prop) : PyRes α → PyRes β → Prop
  | .ok a, .ok b => R a b
  | .error e, .error e' => e = e'
  | _, _ => False

end Verif
