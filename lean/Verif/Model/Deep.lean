import Verif.Model.Ahb
/-!
# Model of the methods of `Segment`, `SegmentGroup` (`maus.models.edifact_components`) and of `DeepAnwendungshandbuch`
(`maus.models.anwendungshandbuch`)

Methods that modify `self` return the new value. The objects of a deep AHB are assumed to form a tree (no object is
referenced twice), which is what the constructors, the schemas and `to_deep_ahb` produce.
-/

namespace Verif

/-! ## reset_ahb_line_index -/

/-- `SegmentLevel.reset_ahb_line_index` for a segment — /repo/src/maus/models/edifact_components.py:381-386 -/
def Segment.resetAhbLineIndex (s : Segment) : Segment := { s with ahbLineIndex := none }

namespace SegmentGroup
mutual
/-- `SegmentGroup.reset_ahb_line_index` — edifact_components.py:469-476. The truthiness tests treat `None` and `[]` alike:
nothing happens. -/
def resetAhbLineIndex : SegmentGroup → SegmentGroup
  | mk d e _ s gs => mk d e none (s.map (List.map Segment.resetAhbLineIndex)) (resetOpt gs)
/-- `if self.segment_groups: for … in …` (serves edifact_components.py:469-476) -/
def resetOpt : Option (List SegmentGroup) → Option (List SegmentGroup)
  | none => none
  | some l => some (resetList l)
/-- the loop over the sub groups (serves edifact_components.py:469-476) -/
def resetList : List SegmentGroup → List SegmentGroup
  | [] => []
  | g :: l => resetAhbLineIndex g :: resetList l
end
end SegmentGroup

/-- `DeepAnwendungshandbuch.reset_ahb_line_index` — /repo/src/maus/models/anwendungshandbuch.py:446-452 -/
def DeepAhb.resetAhbLineIndex (a : DeepAhb) : DeepAhb :=
  { a with lines := a.lines.map SegmentGroup.resetAhbLineIndex }

/-! ## searching -/

namespace SegmentGroup
mutual
/-- `SegmentGroup.find_segments` — edifact_components.py:478-492 -/
def findSegments (predicate : Segment → Bool) (searchRecursively : Bool) : SegmentGroup → List Segment
  | mk _ _ _ s gs =>
    (match s with
      | none => []
      | some l => l.filter predicate) ++
    if searchRecursively then findSegmentsOpt predicate searchRecursively gs else []
/-- `self.segment_groups is not None` (serves edifact_components.py:478-492) -/
def findSegmentsOpt (predicate : Segment → Bool) (searchRecursively : Bool) : Option (List SegmentGroup) → List Segment
  | none => []
  | some l => findSegmentsList predicate searchRecursively l
/-- the loop over the sub groups (serves edifact_components.py:478-492) -/
def findSegmentsList (predicate : Segment → Bool) (searchRecursively : Bool) : List SegmentGroup → List Segment
  | [] => []
  | g :: l => findSegments predicate searchRecursively g ++ findSegmentsList predicate searchRecursively l
end

mutual
/-- `DeepAnwendungshandbuch._query_segment_group` — anwendungshandbuch.py:454-469 -/
def query (predicate : SegmentGroup → Bool) : SegmentGroup → List SegmentGroup
  | mk d e i s gs =>
    (if predicate (mk d e i s gs) then [mk d e i s gs] else []) ++ queryOpt predicate gs
/-- `segment_group.segment_groups is not None` (serves anwendungshandbuch.py:454-469) -/
def queryOpt (predicate : SegmentGroup → Bool) : Option (List SegmentGroup) → List SegmentGroup
  | none => []
  | some l => queryList predicate l
/-- the loop over the sub groups (serves anwendungshandbuch.py:454-469) -/
def queryList (predicate : SegmentGroup → Bool) : List SegmentGroup → List SegmentGroup
  | [] => []
  | g :: l => query predicate g ++ queryList predicate l
end
end SegmentGroup

/-- `for x in xs: if x not in result: result.append(x)` — anwendungshandbuch.py:481-483 -/
def appendNew {α : Type} [DecidableEq α] (result xs : List α) : List α :=
  xs.foldl (fun result x => if x ∈ result then result else result ++ [x]) result

/-- loop body of `find_segment_groups` — anwendungshandbuch.py:477-483 -/
def findSegmentGroupsStep (predicate : SegmentGroup → Bool) (result : List SegmentGroup) (line : SegmentGroup) :
    List SegmentGroup :=
  let result := match line.segmentGroups with
    | none => result
    | some gs => gs.foldl (fun result g => result ++ g.query predicate) result
  appendNew result (line.query predicate)

/-- `DeepAnwendungshandbuch.find_segment_groups` — anwendungshandbuch.py:471-484 -/
def DeepAhb.findSegmentGroups (a : DeepAhb) (predicate : SegmentGroup → Bool) : List SegmentGroup :=
  a.lines.foldl (findSegmentGroupsStep predicate) []

/-- `DeepAnwendungshandbuch.find_segments` — anwendungshandbuch.py:486-504 -/
def DeepAhb.findSegments (a : DeepAhb) (groupPredicate : SegmentGroup → Bool) (segmentPredicate : Segment → Bool) :
    List Segment :=
  let result := (a.findSegmentGroups groupPredicate).flatMap fun g => g.findSegments segmentPredicate true
  result ++ a.lines.flatMap fun line =>
    match line.segments with
    | none => []
    | some l => l.filter segmentPredicate

/-! ## replacing inputs -/

/-- `DeepAhbInputReplacement` — anwendungshandbuch.py:412-427 -/
structure InputReplacement where
  replacementFound : Bool
  inputReplacement : Option PyStr
  deriving DecidableEq

section replace
variable {m : Type → Type} [Monad m] (replacementFunc : PyStr → m InputReplacement)

/-- body of the innermost loop of `_replace_inputs_based_on_discriminator`; `replacement_func` is an arbitrary (possibly
effectful) function, `m` is the monad of its effects — anwendungshandbuch.py:573-576 -/
def replaceInputDataElement (de : DataElement) : m DataElement :=
  match de.discriminator with
  | none => pure de
  | some d => do
    let r ← replacementFunc d
    pure (if r.replacementFound then { de with enteredInput := r.inputReplacement } else de)

/-- the loop over the data elements of a segment — anwendungshandbuch.py:572 -/
def replaceInputSegment (s : Segment) : m Segment := do
  let des ← s.dataElements.mapM (replaceInputDataElement replacementFunc)
  pure { s with dataElements := des }

mutual
/-- body of the loop of `_replace_inputs_based_on_discriminator`: first the sub groups, then the segments
— anwendungshandbuch.py:566-576 -/
def replaceInputGroup : SegmentGroup → m SegmentGroup
  | .mk d e i s gs => do
    let gs' ← replaceInputOpt gs
    match s with
    | none => pure (.mk d e i none gs')
    | some ss => do
      let ss' ← ss.mapM (replaceInputSegment replacementFunc)
      pure (.mk d e i (some ss') gs')
/-- `if segment_group.segment_groups is not None` (serves anwendungshandbuch.py:566-576) -/
def replaceInputOpt : Option (List SegmentGroup) → m (Option (List SegmentGroup))
  | none => pure none
  | some l => do
    let l' ← replaceInputs l
    pure (some l')
/-- `_replace_inputs_based_on_discriminator` — anwendungshandbuch.py:560-576 -/
def replaceInputs : List SegmentGroup → m (List SegmentGroup)
  | [] => pure []
  | g :: l => do
    let g' ← replaceInputGroup g
    let l' ← replaceInputs l
    pure (g' :: l')
end

/-- `DeepAnwendungshandbuch.replace_inputs_based_on_discriminator` — anwendungshandbuch.py:506-511 -/
def DeepAhb.replaceInputsBasedOnDiscriminator (a : DeepAhb) : m DeepAhb := do
  let lines ← replaceInputs replacementFunc a.lines
  pure { a with lines := lines }

end replace

/-! ## value pools and expressions -/

/-- `Segment.get_all_value_pools` — edifact_components.py:422-427 -/
def Segment.getAllValuePools (s : Segment) : List DataElement := s.dataElements.filter DataElement.isValuePool

/-- `SegmentGroup.get_all_value_pools` — edifact_components.py:494-502 -/
def SegmentGroup.getAllValuePools (g : SegmentGroup) : List DataElement :=
  (g.findSegments (fun _ => true) true).flatMap Segment.getAllValuePools

/-- `result` and `added_discriminators` of `get_all_value_pools`; the set is represented by a list
— anwendungshandbuch.py:518-519 -/
structure ValuePoolAcc where
  result : List DataElement := []
  added : List (Option PyStr) := []

/-- `add_to_result` — anwendungshandbuch.py:522-528 -/
def addToResult (acc : ValuePoolAcc) (valuePool : DataElement) : ValuePoolAcc :=
  if valuePool.discriminator ∈ acc.added then acc
  else if valuePool ∉ acc.result then
    { result := acc.result ++ [valuePool], added := valuePool.discriminator :: acc.added }
  else acc

/-- `DeepAnwendungshandbuch.get_all_value_pools` — anwendungshandbuch.py:513-536 -/
def DeepAhb.getAllValuePools (a : DeepAhb) : List DataElement :=
  let acc := (a.findSegments (fun _ => true) (fun _ => true)).foldl
    (fun acc s => s.getAllValuePools.foldl addToResult acc) {}
  let acc := (a.findSegmentGroups (fun _ => true)).foldl (fun acc g => g.getAllValuePools.foldl addToResult acc) acc
  acc.result

/-- the expressions collected from a data element, `""` is skipped — anwendungshandbuch.py:546-553 -/
def DataElement.expressions (de : DataElement) : List PyStr :=
  match de.kind with
  | .freeText e => [e].filter fun e => !e.isEmpty
  | .valuePool es => (es.map ValuePoolEntry.ahbExpression).filter fun e => !e.isEmpty

/-- the expressions collected from a segment — anwendungshandbuch.py:543-553 -/
def Segment.expressions (s : Segment) : List PyStr :=
  ([s.ahbExpression].filter fun e => !e.isEmpty) ++ s.dataElements.flatMap DataElement.expressions

/-- `sorted(set(xs))`: strings compared by code points (serves anwendungshandbuch.py:557) -/
def sortedSet (xs : List PyStr) : List PyStr := (appendNew [] xs).mergeSort fun a b => decide (a ≤ b)

/-- `DeepAnwendungshandbuch.get_all_expressions` — anwendungshandbuch.py:538-557 -/
def DeepAhb.getAllExpressions (a : DeepAhb) : List PyStr :=
  sortedSet ((a.findSegments (fun _ => true) (fun _ => true)).flatMap Segment.expressions ++
    ((a.findSegmentGroups (fun _ => true)).map SegmentGroup.ahbExpression).filter fun e => !e.isEmpty)

end Verif
