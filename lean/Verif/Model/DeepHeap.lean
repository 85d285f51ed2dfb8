import Verif.Model.Matching
import Verif.Model.DeepAssign
/-!
# Model: `to_deep_ahb` with references to lists

`to_deep_ahb` keeps references to lists inside of the tree that it builds, and appends to these lists. Model/Matching.lean represents such a
reference by an address in the tree. Here the lists are objects of their own on a heap, as in the program: a reference is the number of a
list, and appending to a list changes what is seen through all references to it.

Data elements are complete when they are appended and are not changed any more; they are values here.
-/

namespace Verif

/-- a `SegmentGroup` that refers to its two lists — mig_ahb_matching.py:162-169 -/
structure GroupCell where
  discriminator : Option PyStr
  ahbExpression : PyStr
  ahbLineIndex : Option Int
  /-- number of the list of segments -/
  segments : Nat
  /-- number of the list of groups -/
  segmentGroups : Nat

/-- a `Segment` that refers to its list of data elements — mig_ahb_matching.py:215-221 -/
structure SegmentCell where
  discriminator : Option PyStr
  ahbExpression : PyStr
  ahbLineIndex : Option Int
  /-- number of the list of data elements -/
  dataElements : Nat
  sectionName : Option PyStr
  segmentId : Option PyStr

/-- the objects: lists of (references to) groups, lists of (references to) segments, lists of data elements, groups and segments, and how
many groups and segments there are. The list of groups number 0 is `result.lines`. (serves mig_ahb_matching.py:100-118) -/
structure Heap where
  groupLists : Nat → List Nat
  segmentLists : Nat → List Nat
  dataElementLists : Nat → List DataElement
  groups : Nat → GroupCell
  segments : Nat → SegmentCell
  groupCount : Nat
  segmentCount : Nat

/-- the local variables of `to_deep_ahb` — mig_ahb_matching.py:100-118 -/
structure HeapState where
  heap : Heap
  parentGroupLists : List Nat
  usedStacks : List PyStr
  segmentsHere : Option Nat
  sgHere : Option Nat
  dataElementsHere : Option Nat
  previousPosition : Option AhbLocation

/-- before the loop, `result.lines` is empty and there are no other objects — mig_ahb_matching.py:100-118. (What is found at a number
that has not been given to an object yet is irrelevant.) -/
def HeapState.init : HeapState :=
  { heap := { groupLists := fun _ => [], segmentLists := fun _ => [], dataElementLists := fun _ => [],
              groups := fun _ => { discriminator := none, ahbExpression := [], ahbLineIndex := none, segments := 0, segmentGroups := 0 },
              segments := fun _ => { discriminator := none, ahbExpression := [], ahbLineIndex := none, dataElements := 0,
                                     sectionName := none, segmentId := none },
              groupCount := 0, segmentCount := 0 },
    parentGroupLists := [], usedStacks := [], segmentsHere := none, sgHere := none, dataElementsHere := none, previousPosition := none }

/-- `list.append(x)` for the list number `r` (serves mig_ahb_matching.py:148, 173, 177, 190, 223) -/
def appendTo {α : Type} (lists : Nat → List α) (r : Nat) (x : α) : Nat → List α := heapSet lists r (lists r ++ [x])

/-- `SegmentGroup(..., segments=[], segment_groups=[])`: the group gets the next number, and two new empty lists
— mig_ahb_matching.py:162-169 -/
def Heap.newGroup (h : Heap) (g : SegmentGroup) : Heap :=
  { h with
    groupLists := heapSet h.groupLists (h.groupCount + 1) []
    segmentLists := heapSet h.segmentLists h.groupCount []
    groups := heapSet h.groups h.groupCount
      { discriminator := g.discriminator, ahbExpression := g.ahbExpression, ahbLineIndex := g.ahbLineIndex, segments := h.groupCount,
        segmentGroups := h.groupCount + 1 }
    groupCount := h.groupCount + 1 }

/-- `Segment(..., data_elements=[])`: the segment gets the next number, and a new empty list — mig_ahb_matching.py:215-221 -/
def Heap.newSegment (h : Heap) (s : Segment) : Heap :=
  { h with
    dataElementLists := heapSet h.dataElementLists h.segmentCount []
    segments := heapSet h.segments h.segmentCount
      { discriminator := s.discriminator, ahbExpression := s.ahbExpression, ahbLineIndex := s.ahbLineIndex, dataElements := h.segmentCount,
        sectionName := s.sectionName, segmentId := s.segmentId }
    segmentCount := h.segmentCount + 1 }

/-- `layers_up` times `append_next_sg_here = parent_group_lists.pop()` — mig_ahb_matching.py:182-186 -/
def popRefs : Nat → HeapState → PyRes HeapState
  | 0, st => .ok st
  | n + 1, st =>
    match st.parentGroupLists.getLast? with
    | none => .error .valueError
    | some r => popRefs n { st with parentGroupLists := st.parentGroupLists.dropLast, sgHere := some r }

/-- `layers_down - 1` times down to the groups of the last group — mig_ahb_matching.py:187-189; `last` of an empty list raises `ValueError` -/
def pushRefs : Nat → HeapState → PyRes HeapState
  | 0, st => .ok st
  | n + 1, st =>
    match st.sgHere with
    | none => .error .unboundLocalError
    | some r =>
      match (st.heap.groupLists r).getLast? with
      | none => .error .valueError
      | some k => pushRefs n
          { st with parentGroupLists := st.parentGroupLists ++ [r], sgHere := some (st.heap.groups k).segmentGroups }

/-- the group number `k` is appended to the list `append_next_sg_here`, the list is remembered, and replaced by the list of the groups of
the new group — mig_ahb_matching.py:177-179, 190-192 -/
def appendGroupRef (k : Nat) (st : HeapState) : PyRes HeapState :=
  match st.sgHere with
  | none => .error .unboundLocalError
  | some r => .ok { st with
      heap := { st.heap with groupLists := appendTo st.heap.groupLists r k }
      parentGroupLists := st.parentGroupLists ++ [r]
      sgHere := some (st.heap.groups k).segmentGroups }

/-- inserting the new group number `k` — mig_ahb_matching.py:172-192 -/
def insertGroupRef (k : Nat) (position : AhbLocation) (st : HeapState) : PyRes HeapState :=
  if (st.heap.groups k).discriminator = some rootPath then
    .ok { st with
      heap := { st.heap with groupLists := appendTo st.heap.groupLists 0 k }
      parentGroupLists := st.parentGroupLists ++ [0]
      sgHere := some (st.heap.groups k).segmentGroups }
  else match st.previousPosition with
    | none => .error .unboundLocalError
    | some previous =>
      if position.isSubLocationOf previous then appendGroupRef k st
      else do
        let distance ← calculateDistance previous position
        let st ← popRefs distance.layersUp st
        let st ← pushRefs (distance.layersDown - 1) st
        appendGroupRef k st

/-- the `if` in which a new segment group is opened — mig_ahb_matching.py:154-192 -/
def maybeOpenGroupRef (firstLine lastLine : AhbLine) (position : AhbLocation) (stack : Option EdifactStack) (st : HeapState) :
    PyRes HeapState := do
  let lastLayer ← pyLast position.layers
  if opensGroup st.usedStacks firstLine lastLine lastLayer stack then
    let path := stack.map EdifactStack.toJsonPath
    let g ← SegmentGroup.new path (firstLine.ahbExpression.map strip) firstLine.index (some []) (some [])
    let k := st.heap.groupCount
    let heap := st.heap.newGroup g
    insertGroupRef k position { st with heap := heap, usedStacks := st.usedStacks ++ path.toList, segmentsHere := some (heap.groups k).segments }
  else pure st

/-- creating a segment — mig_ahb_matching.py:201-224 -/
def createSegmentRef (posStr : AhbLocation → PyStr) (lines : List AhbLine) (firstLine : AhbLine) (position : AhbLocation)
    (stack : Option EdifactStack) (st : HeapState) : PyRes HeapState :=
  match lines.find? fun l => truthy l.ahbExpression with
  | none => .ok st
  | some expressionLine => do
    let discriminator := match stack with
      | none => posStr position
      | some s => s.toJsonPath
    let segment ← Segment.new (some discriminator) expressionLine.ahbExpression firstLine.index [] firstLine.sectionName none
    let s := st.heap.segmentCount
    let heap := st.heap.newSegment segment
    match st.segmentsHere with
    | none => .error .unboundLocalError
    | some r => pure { st with
        heap := { heap with segmentLists := appendTo heap.segmentLists r s }
        dataElementsHere := some (heap.segments s).dataElements
        previousPosition := some position }

/-- the `else` branch of the loop body — mig_ahb_matching.py:152-224 -/
def segmentStepRef (posStr : AhbLocation → PyStr) (lines : List AhbLine) (position : AhbLocation) (stack : Option EdifactStack)
    (st : HeapState) : PyRes HeapState := do
  let firstLine ← match lines.head? with
    | some l => .ok l
    | none => .error .valueError
  let lastLine ← pyLast lines
  let st ← maybeOpenGroupRef firstLine lastLine position stack st
  if lastLine.dataElement.isSome then .error .assertionError
  else if lastLine.segmentCode.isNone then .error .assertionError
  else createSegmentRef posStr lines firstLine position stack st

/-- the data element branch of the loop body — mig_ahb_matching.py:142-150, 224 -/
def dataElementStepRef (lines : List AhbLine) (position : AhbLocation) (stack : Option EdifactStack) (st : HeapState) : PyRes HeapState :=
  if !lines.any fun l => l.ahbExpression.isSome then .ok st
  else do
    let de ← mergeLinesWithSameDataElement lines stack
    match st.dataElementsHere with
    | none => .error .valueError
    | some r => pure { st with
        heap := { st.heap with dataElementLists := appendTo st.heap.dataElementLists r de }
        previousPosition := some position }

/-- loop body of `to_deep_ahb` — mig_ahb_matching.py:123-224 -/
def deepStepRef (reader : MigLookup) (posStr : AhbLocation → PyStr) (st : HeapState) (item : AhbLocation × List (AhbLine × AhbLocation)) :
    PyRes HeapState :=
  let lines := item.2.map Prod.fst
  if !lines.any fun l => l.segmentCode.isSome then .ok st
  else do
    let (position, stack) ← lookupStack reader item.1 item.2
    if lines.any fun l => l.dataElement.isSome then dataElementStepRef lines position stack st
    else segmentStepRef posStr lines position stack st

/-- `to_deep_ahb` — mig_ahb_matching.py:94-225: the flat AHB (whose meta information has been changed), the meta information of the deep AHB
(the same object), and the objects it consists of -/
def toDeepAhbRef (reader : MigLookup) (posStr : AhbLocation → PyStr) (flat : FlatAhb) (sgh : Sgh) :
    PyRes (FlatAhb × AhbMetaInformation × Heap) := do
  let info := { flat.ahbMeta with mausVersion := some mausVersion }
  let located ← determineLocations sgh flat.lines
  let st ← (groupBy (fun x => removeQualifier x.2) located).foldlM (deepStepRef reader posStr) HeapState.init
  pure ({ flat with ahbMeta := info }, info, st.heap)

end Verif
