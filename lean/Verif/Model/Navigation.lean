import Verif.Model.AhbLine
import Verif.Model.Sgh
/-!
# Model of `maus.navigation`
-/

namespace Verif

/-! ## Python list helpers -/

/-- `more_itertools.last(l)`: `ValueError` on an empty list (serves navigation.py:582, 650, 655, 659) -/
def pyLast {α : Type} (l : List α) : PyRes α :=
  match l.getLast? with
  | some x => .ok x
  | none => .error .valueError

/-- `l.pop()` (the popped element is not used): `IndexError` on an empty list (serves navigation.py:603, 658, 660) -/
def pyPop {α : Type} (l : List α) : PyRes (List α) :=
  match l with
  | [] => .error .indexError
  | x :: l' => .ok ((x :: l').dropLast)

/-- `l[i]` for an `int` index, negative indices count from the end (serves navigation.py:519-570) -/
def pyGet {α : Type} (l : List α) (i : Int) : PyRes α :=
  let j := if i < 0 then i + l.length else i
  if j < 0 then .error .indexError
  else match l[j.toNat]? with
    | some x => .ok x
    | none => .error .indexError

/-! ## look-ahead -/

/-- first loop of `_enhance_with_next_line_that_fulfills_predicate`, over the suffix `ahb_lines[index:]`
— /repo/src/maus/navigation.py:28-36. `T` is `str`, the selected attribute is an `Optional[str]`. -/
def enhanceLoop (pred : AhbLine → Bool) (sel : AhbLine → Option PyStr) : List AhbLine → List (AhbLine × Option PyStr)
  | [] => []
  | l :: ls =>
    if pred l then (l, sel l) :: enhanceLoop pred sel ls
    else match (l :: ls).find? pred with
      | none => []
      | some m => (l, sel m) :: enhanceLoop pred sel ls

/-- second loop of `_enhance_with_next_line_that_fulfills_predicate`: append `(ahb_lines[idx], None)`, `idx += 1`,
`n` times — navigation.py:37-40 -/
def enhanceFill (lines : List AhbLine) : Nat → Int → PyRes (List (AhbLine × Option PyStr))
  | 0, _ => .ok []
  | n + 1, idx => do
    let l ← pyGet lines idx
    let rest ← enhanceFill lines n (idx + 1)
    pure ((l, none) :: rest)

/-- `_enhance_with_next_line_that_fulfills_predicate` — navigation.py:20-41 -/
def enhance (pred : AhbLine → Bool) (sel : AhbLine → Option PyStr) (lines : List AhbLine) :
    PyRes (List (AhbLine × Option PyStr)) := do
  let result := enhanceLoop pred sel lines
  let rest ← enhanceFill lines (lines.length - result.length) ((result.length : Int) - 1)
  pure (result ++ rest)

/-- `_enhance_with_next_segment` — navigation.py:44-75 -/
def enhanceWithNextSegment (lines : List AhbLine) : PyRes (List (AhbLine × Option PyStr)) :=
  enhance (fun l => l.segmentCode.isSome) (fun l => l.segmentCode) lines

/-- `_enhance_with_next_value_pool_entry` — navigation.py:78-106 -/
def enhanceWithNextValuePoolEntry (lines : List AhbLine) : PyRes (List (AhbLine × Option PyStr)) :=
  enhance (fun l => l.valuePoolEntry.isSome) (fun l => l.valuePoolEntry) lines

/-- `_is_opening_segment_line_border` — navigation.py:109-135.
`next_line == opening_segment_code` (124) compares an `AhbLine` with a `str` and hence is always `False`. -/
def isOpeningSegmentLineBorder (thisLine nextLine : AhbLine) (nextFilledSegment : Option PyStr)
    (openingSegmentCode : PyStr) : Bool :=
  if thisLine.sectionName = nextLine.sectionName then false
  else
    let thisLineIsOpeningSegment := decide (thisLine.segmentCode = some openingSegmentCode)
    let nextLineIsOpeningSegment := false
    let thisLineHasEmptySegment := thisLine.segmentCode.isNone
    if thisLineIsOpeningSegment = false ∧ nextLineIsOpeningSegment = false ∧ thisLineHasEmptySegment = true then false
    else
      let nextLineHasEmptySegment := nextLine.segmentCode.isNone
      if nextLineIsOpeningSegment = false ∧ nextLineHasEmptySegment = false then false
      else decide (nextFilledSegment = some openingSegmentCode)

/-! ## locations -/

/-- `^SG\d+$` — navigation.py:149 and anwendungshandbuch.py:269 -/
def sgKeyRe : Re := .seq .bol (.seq (.str py!"SG") (.seq (.plus (.cls isDigit)) .eol))
/-- `^[A-Z]{3}$` — navigation.py:155, 199 -/
def segmentCode3Re : Re := .seq .bol (.seq (.rep 3 (.cls isAZ)) .eol)
/-- `^[A-Z]*\d*$` — navigation.py:161 -/
def openingQualifierRe : Re := .seq .bol (.seq (.star true (.cls isAZ)) (.seq (.star true (.cls isDigit)) .eol))
/-- `^\d{4}$` — navigation.py:206, edifact_components.py:57 -/
def dataElement4Re : Re := .seq .bol (.seq (.rep 4 (.cls isDigit)) .eol)

/-- `attrs.validators.optional(attrs.validators.matches_re(r))` on an `Optional[str]` (`re.fullmatch`) (serves navigation.py:149, 161, 199, 206) -/
def optMatches (r : Re) : Option PyStr → Bool
  | none => true
  | some s => (r.fullMatch s).isSome

/-- `AhbLocationLayer` — navigation.py:139-168 -/
structure AhbLocationLayer where
  segmentGroupKey : Option PyStr
  openingSegmentCode : PyStr
  openingQualifier : Option PyStr
  deriving DecidableEq

/-- `AhbLocationLayer(...)` with its validators in field order — navigation.py:139-168.
`matches_re` on `None` is `re.fullmatch(..., None)`: `TypeError`. -/
def AhbLocationLayer.new (segmentGroupKey openingSegmentCode openingQualifier : Option PyStr) :
    PyRes AhbLocationLayer :=
  if !optMatches sgKeyRe segmentGroupKey then .error .valueError
  else match openingSegmentCode with
    | none => .error .typeError
    | some o =>
      if (segmentCode3Re.fullMatch o).isNone then .error .valueError
      else if !optMatches openingQualifierRe openingQualifier then .error .valueError
      else .ok { segmentGroupKey := segmentGroupKey, openingSegmentCode := o, openingQualifier := openingQualifier }

/-- `AhbLocation` — navigation.py:173-216; `pseudo` distinguishes the sub class `_PseudoAhbLocation` (244-249).
attrs' `__eq__` compares the class first, so `pseudo` takes part in equality. -/
structure AhbLocation where
  layers : List AhbLocationLayer
  segmentCode : Option PyStr := none
  dataElementId : Option PyStr := none
  qualifier : Option PyStr := none
  pseudo : Bool := false
  deriving DecidableEq

/-- `AhbLocation(...)` / `_PseudoAhbLocation(...)` with validators — navigation.py:189-213 -/
def AhbLocation.new (layers : List AhbLocationLayer) (segmentCode dataElementId qualifier : Option PyStr)
    (pseudo : Bool := false) : PyRes AhbLocation :=
  if layers.length < 1 then .error .valueError
  else if !optMatches segmentCode3Re segmentCode then .error .valueError
  else if !optMatches dataElement4Re dataElementId then .error .valueError
  else .ok { layers := layers, segmentCode := segmentCode, dataElementId := dataElementId, qualifier := qualifier,
             pseudo := pseudo }

/-- the zip loop of `is_sub_location_of`: `False` at the first pair of different layers — navigation.py:228-235 -/
def zipAllEq {α : Type} [DecidableEq α] : List α → List α → Bool
  | a :: as, b :: bs => if a ≠ b then false else zipAllEq as bs
  | _, _ => true

/-- `AhbLocation.is_sub_location_of` — navigation.py:218-235 -/
def AhbLocation.isSubLocationOf (self other : AhbLocation) : Bool :=
  if other.layers.length > self.layers.length then false
  else zipAllEq other.layers self.layers

/-- `AhbLocation.is_parent_of` — navigation.py:237-241 -/
def AhbLocation.isParentOf (self other : AhbLocation) : Bool := other.isSubLocationOf self

/-- the zip loop with `break` of `find_common_ancestor` — navigation.py:286-292 -/
def commonLayers (onlyConsiderSgKey : Bool) : List AhbLocationLayer → List AhbLocationLayer → List AhbLocationLayer
  | x :: xs, y :: ys =>
    if x = y ∨ (onlyConsiderSgKey = true ∧ x.segmentGroupKey = y.segmentGroupKey) then
      x :: commonLayers onlyConsiderSgKey xs ys
    else []
  | _, _ => []

/-- `find_common_ancestor` — navigation.py:272-300. A `ValueError` of the constructor is re-raised as `ValueError`. -/
def findCommonAncestor (x y : AhbLocation) : PyRes AhbLocation :=
  let onlyConsiderSgKey := x.pseudo || y.pseudo
  AhbLocation.new (commonLayers onlyConsiderSgKey x.layers y.layers) none none none onlyConsiderSgKey

mutual
/-- `_construct_pseudo_location` — navigation.py:303-331 (`existing_layers=None` behaves like `[]`) -/
def constructPseudoLocation (sgKey : Option PyStr) : Sgh → List AhbLocationLayer → PyRes (Option AhbLocation)
  | .mk k o sub, existing => do
    let thisLayer ← AhbLocationLayer.new k (some o) none
    let layers := existing ++ [thisLayer]
    if sgKey = k then
      let loc ← AhbLocation.new layers none none none true
      pure (some loc)
    else constructPseudoLocationOpt sgKey sub layers
/-- `segment_group_hierarchy.sub_hierarchy or []` — navigation.py:327 -/
def constructPseudoLocationOpt (sgKey : Option PyStr) :
    Option (List Sgh) → List AhbLocationLayer → PyRes (Option AhbLocation)
  | none, _ => .ok none
  | some l, layers => constructPseudoLocationList sgKey l layers
/-- loop over the sub hierarchies — navigation.py:327-331 -/
def constructPseudoLocationList (sgKey : Option PyStr) :
    List Sgh → List AhbLocationLayer → PyRes (Option AhbLocation)
  | [], _ => .ok none
  | s :: l, layers => do
    let subResult ← constructPseudoLocation sgKey s layers
    match subResult with
    | some loc => pure (some loc)
    | none => constructPseudoLocationList sgKey l layers
end

/-- `_find_common_ancestor_from_sgh` — navigation.py:334-353. The second check (350) tests `location_x` again, so a
missing `location_y` is only noticed as `None.layers`: `AttributeError`. -/
def findCommonAncestorFromSgh (sgKeyX sgKeyY : Option PyStr) (sgh : Sgh) : PyRes AhbLocation := do
  let locationX ← constructPseudoLocation sgKeyX sgh []
  match locationX with
  | none => .error .valueError
  | some x =>
    let locationY ← constructPseudoLocation sgKeyY sgh []
    match locationY with
    | none => .error .attributeError
    | some y => findCommonAncestor x y

/-- `_AhbLocationDistance` — navigation.py:356-382 -/
structure AhbLocationDistance where
  layersUp : Nat
  layersDown : Nat
  deriving DecidableEq

/-- `_AhbLocationDistance(...)` with its `ge(0)` validators (serves navigation.py:369-379) -/
def AhbLocationDistance.new (up down : Int) : PyRes AhbLocationDistance :=
  if up < 0 ∨ down < 0 then .error .valueError else .ok { layersUp := up.toNat, layersDown := down.toNat }

/-- `calculate_distance` — navigation.py:385-398 -/
def calculateDistance (x y : AhbLocation) : PyRes AhbLocationDistance := do
  let ca ← findCommonAncestor x y
  AhbLocationDistance.new ((x.layers.length : Int) - ca.layers.length) ((y.layers.length : Int) - ca.layers.length)

/-! ## hierarchy changes -/

/-- `_DifferentialAhbLineHierarchyChange` — navigation.py:401-435 -/
inductive Change where
  | stay
  | moveToNeighbourSameKey
  | moveToNeighbourDifferentKey
  | diveIntoSubGroup
  | leaveToParent
  | leaveToParentAndDive
  deriving DecidableEq, Repr

/-- `is_segment_group_change` — navigation.py:431-435 -/
def Change.isSegmentGroupChange (c : Change) : Bool := c ≠ .stay

/-- `_this_line_is_hierarchically_below_the_previous_sg_key` (not called by the package) — navigation.py:438-453 -/
def thisLineIsHierarchicallyBelow (thisLine : AhbLine) (previousKey : Option PyStr) (sgh : Sgh) : Bool :=
  if thisLine.segmentGroupKey = previousKey then false
  else if sgh.segmentGroup = previousKey then true
  else sgh.sgIsHierarchicallyBelow thisLine.segmentGroupKey previousKey

/-- `previous_sg_key` in `_determine_hierarchy_change` — navigation.py:471-473 -/
def previousSgKey : Option AhbLine → Option PyStr
  | some p => p.segmentGroupKey
  | none => none

/-- `_determine_hierarchy_change` — navigation.py:457-500 -/
def determineHierarchyChange (thisLine : AhbLine) (previousLine : Option AhbLine)
    (nextSegment nextQualifier lastOpeningSegment lastOpeningQualifier : Option PyStr)
    (isReady : Bool) (sgh : Sgh) : Change :=
  if thisLine.segmentGroupKey = previousSgKey previousLine then
    if nextSegment ≠ lastOpeningSegment then .stay
    else if nextQualifier = lastOpeningQualifier ∨ (lastOpeningSegment = none ∧ nextSegment = some py!"UNH") then .stay
    else if isReady then .moveToNeighbourSameKey
    else .stay
  else if sgh.sgIsHierarchicallyBelow thisLine.segmentGroupKey (previousSgKey previousLine) then .diveIntoSubGroup
  else .leaveToParentAndDive

/-- local variables of `determine_hierarchy_changes` — navigation.py:511-514 -/
structure ChangeState where
  segmentCodeWasNone : Bool
  previousLine : Option AhbLine
  lastOpeningQualifier : Option PyStr
  lastOpeningSegment : Option PyStr

/-- initial values — navigation.py:511-514 -/
def ChangeState.init : ChangeState :=
  { segmentCodeWasNone := true, previousLine := none, lastOpeningQualifier := some py!"UNH",
    lastOpeningSegment := none }

/-- loop body of `determine_hierarchy_changes` — navigation.py:526-544 -/
def changeStep (sgh : Sgh) (st : ChangeState) (line : AhbLine) (nextSegment nextQualifier : Option PyStr) :
    ChangeState × Change :=
  let wasNone := if line.segmentCode.isNone then true else st.segmentCodeWasNone
  let change := determineHierarchyChange line st.previousLine nextSegment nextQualifier st.lastOpeningSegment
    st.lastOpeningQualifier wasNone sgh
  let lastQ := if change.isSegmentGroupChange then nextQualifier else st.lastOpeningQualifier
  let lastS := if change.isSegmentGroupChange then nextSegment else st.lastOpeningSegment
  let wasNone := if line.segmentCode.isSome then false else wasNone
  ({ segmentCodeWasNone := wasNone, previousLine := some line, lastOpeningQualifier := lastQ,
     lastOpeningSegment := lastS }, change)

/-- the loop of `determine_hierarchy_changes` — navigation.py:518-544 -/
def changesLoop (sgh : Sgh) : ChangeState → List (AhbLine × Option PyStr × Option PyStr) → List (AhbLine × Change)
  | _, [] => []
  | st, (line, seg, qual) :: rest =>
    let r := changeStep sgh st line seg qual
    (line, r.2) :: changesLoop sgh r.1 rest

/-- `zip(a, b, c, strict=True)` materialised by `list(...)`: `ValueError` for different lengths (serves navigation.py:519) -/
def zip3Strict {α β γ : Type} : List α → List β → List γ → PyRes (List (α × β × γ))
  | [], [], [] => .ok []
  | a :: as, b :: bs, c :: cs => do
    let r ← zip3Strict as bs cs
    pure ((a, b, c) :: r)
  | _, _, _ => .error .valueError

/-- `zip(a, b, c)` (serves navigation.py:577) -/
def zip3 {α β γ : Type} : List α → List β → List γ → List (α × β × γ)
  | a :: as, b :: bs, c :: cs => (a, b, c) :: zip3 as bs cs
  | _, _, _ => []

/-- `determine_hierarchy_changes` — navigation.py:503-545 (Python ≥ 3.10: strict zip) -/
def determineHierarchyChanges (lines : List AhbLine) (sgh : Sgh) : PyRes (List (AhbLine × Change)) := do
  let segs ← enhanceWithNextSegment lines
  let quals ← enhanceWithNextValuePoolEntry lines
  let zipped ← zip3Strict lines (segs.map Prod.snd) (quals.map Prod.snd)
  pure (changesLoop sgh ChangeState.init zipped)

/-! ## determine_locations -/

/-- local variables of `determine_locations` — navigation.py:564, 576 -/
structure LocState where
  layers : List AhbLocationLayer
  result : List (AhbLine × AhbLocation)

/-- the pop loop of the LEAVE branch — navigation.py:656-660 -/
def leavePops (key : Option PyStr) : Nat → List AhbLocationLayer → PyRes (List AhbLocationLayer)
  | 0, layers => .ok layers
  | n + 1, layers => do
    let layers ← pyPop layers
    let l ← pyLast layers
    let layers ← if l.segmentGroupKey = key then pyPop layers else pure layers
    leavePops key n layers

/-- appending `(this_ahb_line, AhbLocation(layers=layers.copy(), ...))` — navigation.py:590-600 (and 611-621, 633-643,
668-678) -/
def appendLocation (st : LocState) (line : AhbLine) (nextSegment : Option PyStr) (layers : List AhbLocationLayer) :
    PyRes LocState := do
  let loc ← AhbLocation.new layers nextSegment line.dataElement line.valuePoolEntry
  pure { layers := layers, result := st.result ++ [(line, loc)] }

/-- lines 582-587: the root layer receives the first qualifier (serves navigation.py:582-587) -/
def initialLayers (sgh : Sgh) (st : LocState) (nextQualifier : Option PyStr) : PyRes (List AhbLocationLayer) := do
  let l ← pyLast st.layers
  if l.openingQualifier = none ∧ st.result.length = 0 then
    let newLayer ← AhbLocationLayer.new sgh.segmentGroup (some sgh.openingSegment) nextQualifier
    pure (st.layers.dropLast ++ [newLayer])
  else pure st.layers

/-- loop body of `determine_locations` — navigation.py:582-681.
For `MOVE_TO_NEIGHBOUR_DIFFERENT_KEY` no branch applies and nothing is appended. -/
def locStep (sgh : Sgh) (st : LocState) (item : (AhbLine × Change) × Option PyStr × Option PyStr) : PyRes LocState := do
  let ((line, change), nextSegment, nextQualifier) := item
  let layers ← initialLayers sgh st nextQualifier
  match change with
  | .stay => appendLocation st line nextSegment layers
  | .moveToNeighbourSameKey => do
    let layers ← pyPop layers
    let newLayer ← AhbLocationLayer.new line.segmentGroupKey nextSegment nextQualifier
    appendLocation st line nextSegment (layers ++ [newLayer])
  | .diveIntoSubGroup => do
    let newLayer ← AhbLocationLayer.new line.segmentGroupKey nextSegment nextQualifier
    appendLocation st line nextSegment (layers ++ [newLayer])
  | .leaveToParentAndDive => do
    let lastResult ← pyLast st.result
    let lastLayer ← pyLast lastResult.2.layers
    let commonAncestor ← findCommonAncestorFromSgh lastLayer.segmentGroupKey line.segmentGroupKey sgh
    let distance ← calculateDistance lastResult.2 commonAncestor
    let layers ← leavePops line.segmentGroupKey distance.layersUp layers
    let newLayer ← AhbLocationLayer.new line.segmentGroupKey nextSegment nextQualifier
    appendLocation st line nextSegment (layers ++ [newLayer])
  | .leaveToParent => .error .notImplementedError
  | .moveToNeighbourDifferentKey => pure { st with layers := layers }

/-- `determine_locations` — navigation.py:548-682 -/
def determineLocations (sgh : Sgh) (lines : List AhbLine) : PyRes (List (AhbLine × AhbLocation)) := do
  let startingLayer ← AhbLocationLayer.new sgh.segmentGroup (some sgh.openingSegment) none
  let changes ← determineHierarchyChanges lines sgh
  let segs ← enhanceWithNextSegment lines
  let quals ← enhanceWithNextValuePoolEntry lines
  let st ← (zip3 changes (segs.map Prod.snd) (quals.map Prod.snd)).foldlM (locStep sgh)
    { layers := [startingLayer], result := [] }
  pure st.result

end Verif
