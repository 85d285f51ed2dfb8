import Verif.Model.Ahb
/-!
# Model of `maus.mig_ahb_matching`

The Python code keeps references to the inner lists (`result.lines`, `group.segment_groups`, `group.segments`,
`segment.data_elements`) of the tree under construction and appends to them. Here a reference is the address of the
owner of the list: as elements are only ever appended at the end of these lists, an address keeps denoting the same
object. An unbound local variable is `none`.
-/

namespace Verif

/-! ## merging lines -/

/-- the set `{ahb_line.data_element for ahb_line in ahb_lines}` — /repo/src/maus/mig_ahb_matching.py:33 -/
def distinctDataElements (lines : List AhbLine) : List (Option PyStr) := (lines.map AhbLine.dataElement).eraseDups

/-- the loop over the value pool entries — mig_ahb_matching.py:50-60 -/
def mergeEntries : List AhbLine → PyRes (List ValuePoolEntry)
  | [] => .ok []
  | l :: ls =>
    if !truthy l.ahbExpression then mergeEntries ls
    else match l.name with
      | none => .error .attributeError
      | some n => do
        let e ← ValuePoolEntry.new l.valuePoolEntry (some (strip n)) l.ahbExpression
        let rest ← mergeEntries ls
        pure (e :: rest)

/-- `merge_lines_with_same_data_element` — mig_ahb_matching.py:27-75. The lambda handed over to `first` (66-68) is its
default value, so `first` returns the first line. -/
def mergeLinesWithSameDataElement (ahbLines : List AhbLine) (firstStack : Option EdifactStack) : PyRes DataElement :=
  if (distinctDataElements ahbLines).length ≠ 1 then .error .valueError
  else
    let discriminator := firstStack.map EdifactStack.toJsonPath
    match ahbLines with
    | [] => .error .indexError
    | l0 :: _ =>
      if l0.valuePoolEntry.isSome then do
        let result ← DataElement.newValuePool discriminator l0.dataElement none []
        let entries ← mergeEntries ahbLines
        pure { result with kind := .valuePool entries }
      else do
        let result ← DataElement.newFreeText discriminator l0.dataElement none l0.ahbExpression
        match deriveDataTypeFromSegmentCode l0.segmentCode with
        | none => pure result
        | some t => pure { result with valueType := some t }

/-! ## grouping the lines -/

/-- `_remove_qualifier` — mig_ahb_matching.py:78-88. The constructor re-validates values that have been validated
before, so it does not raise. -/
def removeQualifier (l : AhbLocation) : AhbLocation :=
  { layers := l.layers, segmentCode := l.segmentCode, dataElementId := l.dataElementId, qualifier := none }

/-- `itertools.groupby(xs, key)`: maximal runs of consecutive elements with equal keys, runs as lists (serves mig_ahb_matching.py:119-122) -/
def groupBy {α κ : Type} [DecidableEq κ] (key : α → κ) : List α → List (κ × List α)
  | [] => []
  | x :: xs =>
    match groupBy key xs with
    | [] => [(key x, [x])]
    | (k, g) :: rest => if key x = k then (k, x :: g) :: rest else (key x, [x]) :: (k, g) :: rest

/-! ## references into the tree under construction (C118 shows that the program with references to lists does the same) -/

/-- address of a group: index in `result.lines`, then indices in `segment_groups`. As a reference to a list of groups,
`[]` is `result.lines` and `p` is the attribute `segment_groups` of the group at address `p`. (serves mig_ahb_matching.py:104-117) -/
abbrev GroupPath := List Nat

/-- the list of groups that is referenced by a path (serves mig_ahb_matching.py:104-117) -/
def groupsAt : List SegmentGroup → GroupPath → Option (List SegmentGroup)
  | l, [] => some l
  | l, i :: p => (l[i]?).bind fun g => g.segmentGroups.bind fun gs => groupsAt gs p

/-- mutation of the referenced list of groups (serves mig_ahb_matching.py:173-192) -/
def modifyGroups (f : List SegmentGroup → List SegmentGroup) : GroupPath → List SegmentGroup → List SegmentGroup
  | [], l => f l
  | i :: p, l => l.modify i fun g => g.setSegmentGroups (g.segmentGroups.map (modifyGroups f p))

/-- mutation of the attribute `segments` of the group at a (non-empty) address (serves mig_ahb_matching.py:171, 223) -/
def modifySegments (f : List Segment → List Segment) (p : GroupPath) (l : List SegmentGroup) : List SegmentGroup :=
  match p.getLast? with
  | none => l
  | some i => modifyGroups (fun gs => gs.modify i fun g => g.setSegments (g.segments.map f)) p.dropLast l

/-! ## to_deep_ahb -/

/-- the local variables of `to_deep_ahb` — mig_ahb_matching.py:100-118. `lines` is `result.lines`, `segmentsHere` is the
address of the group whose `segments` are meant, `dataElementsHere` additionally has the index of the segment. -/
structure DeepState where
  lines : List SegmentGroup
  parentGroupLists : List GroupPath
  usedStacks : List PyStr
  segmentsHere : Option GroupPath
  sgHere : Option GroupPath
  dataElementsHere : Option (GroupPath × Nat)
  previousPosition : Option AhbLocation

/-- before the loop — mig_ahb_matching.py:100-118 -/
def DeepState.init : DeepState :=
  { lines := [], parentGroupLists := [], usedStacks := [], segmentsHere := none, sgHere := none,
    dataElementsHere := none, previousPosition := none }

/-- a MIG reader is a function from locations to stacks (or exceptions) — /repo/src/maus/reader/mig_reader.py (serves mig_ahb_matching.py:131) -/
abbrev MigLookup := AhbLocation → PyRes (Option EdifactStack)

/-- the retry loop — mig_ahb_matching.py:136-141; it always asks for the first location -/
def retryStack (reader : MigLookup) (firstLocation : AhbLocation) : List AhbLocation → PyRes (Option EdifactStack)
  | [] => .ok none
  | _ :: rest =>
    match reader firstLocation with
    | .ok s => .ok s
    | .error .valueError => retryStack reader firstLocation rest
    | .error e => .error e

/-- position and stack of a run of lines — mig_ahb_matching.py:127-141 -/
def lookupStack (reader : MigLookup) (key : AhbLocation) (group : List (AhbLine × AhbLocation)) :
    PyRes (AhbLocation × Option EdifactStack) :=
  let firstLocation := match group with
    | (_, loc) :: _ => loc
    | [] => key
  let position := if group.length = 1 then firstLocation else key
  match reader position with
  | .ok s => .ok (position, s)
  | .error .valueError =>
    if group.length > 1 then do
      let s ← retryStack reader firstLocation (group.map Prod.snd)
      pure (position, s)
    else .ok (position, none)
  | .error e => .error e

/-- the path of the message root — mig_ahb_matching.py:172 -/
def rootPath : PyStr := py!"$[\"Dokument\"][0][\"Nachricht\"][0]"

/-- `layers_up` pops — mig_ahb_matching.py:182-186; `IndexError` becomes `ValueError` -/
def popGroupLists : Nat → DeepState → PyRes DeepState
  | 0, st => .ok st
  | n + 1, st =>
    match st.parentGroupLists.getLast? with
    | none => .error .valueError
    | some p => popGroupLists n { st with parentGroupLists := st.parentGroupLists.dropLast, sgHere := some p }

/-- `layers_down - 1` pushes — mig_ahb_matching.py:187-189; `last` of an empty list raises `ValueError` -/
def pushGroupLists : Nat → DeepState → PyRes DeepState
  | 0, st => .ok st
  | n + 1, st =>
    match st.sgHere with
    | none => .error .unboundLocalError
    | some p =>
      match groupsAt st.lines p with
      | none => .error .typeError
      | some l =>
        if l.isEmpty then .error .valueError
        else pushGroupLists n
          { st with parentGroupLists := st.parentGroupLists ++ [p], sgHere := some (p ++ [l.length - 1]) }

/-- `append_next_sg_here.append(segment_group)`, `parent_group_lists.append(append_next_sg_here)`,
`append_next_sg_here = segment_group.segment_groups` — mig_ahb_matching.py:177-179, 190-192; together with the
assignment to `append_next_segments_here` (171) -/
def appendGroup (g : SegmentGroup) (st : DeepState) : PyRes DeepState :=
  match st.sgHere with
  | none => .error .unboundLocalError
  | some p =>
    let path := p ++ [((groupsAt st.lines p).getD []).length]
    .ok { st with
      lines := modifyGroups (· ++ [g]) p st.lines
      parentGroupLists := st.parentGroupLists ++ [p]
      segmentsHere := some path
      sgHere := some path }

/-- inserting a new group — mig_ahb_matching.py:172-192 -/
def insertGroup (g : SegmentGroup) (position : AhbLocation) (st : DeepState) : PyRes DeepState :=
  if g.discriminator = some rootPath then
    let path := [st.lines.length]
    .ok { st with
      lines := st.lines ++ [g]
      parentGroupLists := st.parentGroupLists ++ [[]]
      segmentsHere := some path
      sgHere := some path }
  else match st.previousPosition with
    | none => .error .unboundLocalError
    | some previous =>
      if position.isSubLocationOf previous then appendGroup g st
      else do
        let distance ← calculateDistance previous position
        let st ← popGroupLists distance.layersUp st
        let st ← pushGroupLists (distance.layersDown - 1) st
        appendGroup g st

/-- the condition for opening a new group — mig_ahb_matching.py:154-160. `lastLayer` is `last(position.layers)`. -/
def opensGroup (used : List PyStr) (firstLine lastLine : AhbLine) (lastLayer : AhbLocationLayer)
    (stack : Option EdifactStack) : Bool :=
  decide (firstLine.segmentGroupKey = lastLayer.segmentGroupKey)
    && decide (some lastLayer.openingSegmentCode = lastLine.segmentCode)
    && match stack with
      | none => false
      | some s => !used.contains s.toJsonPath && firstLine.ahbExpression.isSome

/-- the `if` in which a new segment group is opened — mig_ahb_matching.py:154-192 -/
def maybeOpenGroup (firstLine lastLine : AhbLine) (position : AhbLocation) (stack : Option EdifactStack)
    (st : DeepState) : PyRes DeepState := do
  let lastLayer ← pyLast position.layers
  if opensGroup st.usedStacks firstLine lastLine lastLayer stack then
    let path := stack.map EdifactStack.toJsonPath
    let g ← SegmentGroup.new path (firstLine.ahbExpression.map strip) firstLine.index (some []) (some [])
    insertGroup g position { st with usedStacks := st.usedStacks ++ path.toList }
  else pure st

/-- creating a segment for the first line with an expression — mig_ahb_matching.py:201-224 (without such a line the loop
continues without updating `previous_position`). `posStr` is `str(position)`. -/
def createSegment (posStr : AhbLocation → PyStr) (lines : List AhbLine) (firstLine : AhbLine) (position : AhbLocation)
    (stack : Option EdifactStack) (st : DeepState) : PyRes DeepState :=
  match lines.find? fun l => truthy l.ahbExpression with
  | none => .ok st
  | some expressionLine => do
    let discriminator := match stack with
      | none => posStr position
      | some s => s.toJsonPath
    let segment ← Segment.new (some discriminator) expressionLine.ahbExpression firstLine.index [] firstLine.sectionName none
    match st.segmentsHere with
    | none => .error .unboundLocalError
    | some p =>
      let gs := (groupsAt st.lines p.dropLast).getD []
      let segments := ((gs[p.getLast?.getD 0]?).bind SegmentGroup.segments).getD []
      pure { st with
        lines := modifySegments (· ++ [segment]) p st.lines
        dataElementsHere := some (p, segments.length)
        previousPosition := some position }

/-- the `else` branch of the loop body: section headings, segments and groups — mig_ahb_matching.py:152-224 -/
def segmentStep (posStr : AhbLocation → PyStr) (lines : List AhbLine) (position : AhbLocation)
    (stack : Option EdifactStack) (st : DeepState) : PyRes DeepState := do
  let firstLine ← match lines.head? with
    | some l => .ok l
    | none => .error .valueError
  let lastLine ← pyLast lines
  let st ← maybeOpenGroup firstLine lastLine position stack st
  if lastLine.dataElement.isSome then .error .assertionError
  else if lastLine.segmentCode.isNone then .error .assertionError
  else createSegment posStr lines firstLine position stack st

/-- the data element branch of the loop body — mig_ahb_matching.py:142-150, 224 -/
def dataElementStep (lines : List AhbLine) (position : AhbLocation) (stack : Option EdifactStack) (st : DeepState) :
    PyRes DeepState :=
  if !lines.any fun l => l.ahbExpression.isSome then .ok st
  else do
    let de ← mergeLinesWithSameDataElement lines stack
    match st.dataElementsHere with
    | none => .error .valueError
    | some (p, i) =>
      pure { st with
        lines := modifySegments (fun ss => ss.modify i fun s => { s with dataElements := s.dataElements ++ [de] }) p st.lines
        previousPosition := some position }

/-- loop body of `to_deep_ahb` — mig_ahb_matching.py:123-224 -/
def deepStep (reader : MigLookup) (posStr : AhbLocation → PyStr) (st : DeepState)
    (item : AhbLocation × List (AhbLine × AhbLocation)) : PyRes DeepState :=
  let lines := item.2.map Prod.fst
  if !lines.any fun l => l.segmentCode.isSome then .ok st
  else do
    let (position, stack) ← lookupStack reader item.1 item.2
    if lines.any fun l => l.dataElement.isSome then dataElementStep lines position stack st
    else segmentStep posStr lines position stack st

/-- `to_deep_ahb` — mig_ahb_matching.py:94-225. `result.meta` is the same object as `flat_ahb.meta`, so the assignment
of the version (101) is visible in both: the pair of the (modified) flat AHB and the deep AHB is returned. -/
def toDeepAhb (reader : MigLookup) (posStr : AhbLocation → PyStr) (flat : FlatAhb) (sgh : Sgh) : PyRes (FlatAhb × DeepAhb) := do
  let info := { flat.ahbMeta with mausVersion := some mausVersion }
  let located ← determineLocations sgh flat.lines
  let st ← (groupBy (fun x => removeQualifier x.2) located).foldlM (deepStep reader posStr) DeepState.init
  pure ({ flat with ahbMeta := info }, { ahbMeta := info, lines := st.lines })

end Verif
