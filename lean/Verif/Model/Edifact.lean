import Verif.Model.AhbLine
import Verif.Model.Navigation
/-!
# Model of `maus.models.edifact_components` (data classes; the schemas are in `Model/Schema.lean`)

Mutable attrs classes are modelled by values. A method that modifies `self` returns the new value.
-/

namespace Verif

/-- `DataElementDataType` — /repo/src/maus/models/edifact_components.py:19-27 -/
inductive DataElementDataType where
  | text
  | datetime
  | valuePool
  deriving DecidableEq, Repr

/-- `derive_data_type_from_segment_code` — edifact_components.py:30-37 (called with an `Optional[str]`) -/
def deriveDataTypeFromSegmentCode (segmentCode : Option PyStr) : Option DataElementDataType :=
  if segmentCode = some py!"DTM" then some .datetime else none

/-! ## value pool entries -/

/-- `^([A-Z\d]+)|(\d+\.\d+[a-z])$` — edifact_components.py:127 -/
def simpleQualifierRe : Re :=
  .alt (.seq .bol (.grp 1 (.plus (.cls fun c => isAZ c || isDigit c))))
    (.seq (.grp 2 (.seq (.plus (.cls isDigit)) (.seq (.chr '.') (.seq (.plus (.cls isDigit)) (.cls isaz))))) .eol)

/-- `^(?!MP-ID)(GABi)?[A-Z\d\-]+(RLM(o|m)T)?$` — edifact_components.py:130 -/
def gabiQualifierRe : Re :=
  .seq .bol (.seq (.nla (.str py!"MP-ID")) (.seq (.opt (.grp 1 (.str py!"GABi")))
    (.seq (.plus (.cls fun c => isAZ c || isDigit c || c == '-'))
      (.seq (.opt (.grp 2 (.seq (.str py!"RLM") (.seq (.grp 3 (.alt (.chr 'o') (.chr 'm'))) (.chr 'T'))))) .eol))))

/-- `_check_is_edifact_qualifier` — edifact_components.py:133-145; `true` iff no `ValueError` is raised -/
def isEdifactQualifier (q : Option PyStr) : Bool :=
  isNotBlank q && match q with
    | none => false
    | some s => (simpleQualifierRe.pyMatch s).isSome || (gabiQualifierRe.pyMatch s).isSome

/-- `ValuePoolEntry` — edifact_components.py:148-165 -/
structure ValuePoolEntry where
  qualifier : PyStr
  meaning : PyStr
  ahbExpression : PyStr
  deriving DecidableEq

/-- `ValuePoolEntry(...)` with its validators in field order — edifact_components.py:148-165 -/
def ValuePoolEntry.new (qualifier meaning ahbExpression : Option PyStr) : PyRes ValuePoolEntry :=
  if !isEdifactQualifier qualifier then .error .valueError
  else match meaning with
    | none => .error .typeError
    | some m =>
      if !isNotBlank ahbExpression then .error .valueError
      else .ok { qualifier := qualifier.getD [], meaning := m, ahbExpression := ahbExpression.getD [] }

/-! ## data elements -/

/-- what distinguishes `DataElementFreeText` (edifact_components.py:91-107) from `DataElementValuePool` (188-209) -/
inductive DataElementKind where
  | freeText (ahbExpression : PyStr)
  | valuePool (valuePool : List ValuePoolEntry)
  deriving DecidableEq

/-- `DataElementFreeText` / `DataElementValuePool` with the fields of the base class `DataElement`
— edifact_components.py:40-70, 91-107, 188-209 -/
structure DataElement where
  discriminator : Option PyStr
  dataElementId : PyStr
  enteredInput : Option PyStr
  valueType : Option DataElementDataType
  kind : DataElementKind
  deriving DecidableEq

namespace DataElement

/-- the validators of the base class: `discriminator` (edifact_components.py:48-50), `data_element_id` (edifact_components.py:57; `matches_re` of `None` is a
`TypeError`); those of `entered_input` and `value_type` are reflected by the types -/
def checkBase (discriminator dataElementId : Option PyStr) : PyRes PyStr :=
  if discriminator.isSome && !isNotBlank discriminator then .error .valueError
  else match dataElementId with
    | none => .error .typeError
    | some d => if (dataElement4Re.fullMatch d).isNone then .error .valueError else .ok d

/-- `DataElementFreeText(...)` — edifact_components.py:91-107; the default of `value_type` is `TEXT` -/
def newFreeText (discriminator dataElementId enteredInput ahbExpression : Option PyStr)
    (valueType : Option DataElementDataType := some .text) : PyRes DataElement := do
  let d ← checkBase discriminator dataElementId
  match ahbExpression with
  | none => .error .typeError
  | some e =>
    if !isNotBlank (some e) then .error .valueError
    else pure { discriminator := discriminator, dataElementId := d, enteredInput := enteredInput,
                valueType := valueType, kind := .freeText e }

/-- `DataElementValuePool(...)` — edifact_components.py:188-209; the default of `value_type` is `VALUE_POOL` -/
def newValuePool (discriminator dataElementId enteredInput : Option PyStr) (valuePool : List ValuePoolEntry)
    (valueType : Option DataElementDataType := some .valuePool) : PyRes DataElement := do
  let d ← checkBase discriminator dataElementId
  pure { discriminator := discriminator, dataElementId := d, enteredInput := enteredInput,
         valueType := valueType, kind := .valuePool valuePool }

/-- `isinstance(de, DataElementValuePool)` (serves anwendungshandbuch.py:550) -/
def isValuePool (de : DataElement) : Bool :=
  match de.kind with
  | .freeText _ => false
  | .valuePool _ => true

end DataElement

/-! ## segments and segment groups -/

/-- `Segment` — edifact_components.py:361-420; `discriminator` has no validator and may be `None` (367) -/
structure Segment where
  discriminator : Option PyStr
  ahbExpression : PyStr
  ahbLineIndex : Option Int
  dataElements : List DataElement
  sectionName : Option PyStr
  segmentId : Option PyStr
  deriving DecidableEq

/-- the validator of `SegmentLevel.ahb_expression`: `instance_of(str)` and not blank — edifact_components.py:368-372 -/
def checkSegmentLevelExpression (ahbExpression : Option PyStr) : PyRes PyStr :=
  match ahbExpression with
  | none => .error .typeError
  | some e => if !isNotBlank (some e) then .error .valueError else .ok e

/-- `^\d{5}$` — edifact_components.py:415 -/
def segmentId5Re : Re := .seq .bol (.seq (.rep 5 (.cls isDigit)) .eol)

/-- `Segment(...)` with its validators — edifact_components.py:399-427 -/
def Segment.new (discriminator ahbExpression : Option PyStr) (ahbLineIndex : Option Int)
    (dataElements : List DataElement) (sectionName segmentId : Option PyStr) : PyRes Segment := do
  let e ← checkSegmentLevelExpression ahbExpression
  if !optMatches segmentId5Re segmentId then .error .valueError
  else pure { discriminator := discriminator, ahbExpression := e, ahbLineIndex := ahbLineIndex,
              dataElements := dataElements, sectionName := sectionName, segmentId := segmentId }

/-- `SegmentGroup` — edifact_components.py:448-467 -/
inductive SegmentGroup where
  | mk (discriminator : Option PyStr) (ahbExpression : PyStr) (ahbLineIndex : Option Int)
      (segments : Option (List Segment)) (segmentGroups : Option (List SegmentGroup))

namespace SegmentGroup

/-- field `discriminator` — edifact_components.py:367 -/
def discriminator : SegmentGroup → Option PyStr
  | mk d _ _ _ _ => d
/-- field `ahb_expression` — edifact_components.py:368 -/
def ahbExpression : SegmentGroup → PyStr
  | mk _ e _ _ _ => e
/-- field `ahb_line_index` — edifact_components.py:373 -/
def ahbLineIndex : SegmentGroup → Option Int
  | mk _ _ i _ _ => i
/-- field `segments` — edifact_components.py:456 -/
def segments : SegmentGroup → Option (List Segment)
  | mk _ _ _ s _ => s
/-- field `segment_groups` — edifact_components.py:465 -/
def segmentGroups : SegmentGroup → Option (List SegmentGroup)
  | mk _ _ _ _ g => g

/-- assignment to `segments` / mutation of that list (serves edifact_components.py:448-468) -/
def setSegments (g : SegmentGroup) (s : Option (List Segment)) : SegmentGroup :=
  mk g.discriminator g.ahbExpression g.ahbLineIndex s g.segmentGroups
/-- assignment to `segment_groups` / mutation of that list (serves edifact_components.py:448-468) -/
def setSegmentGroups (g : SegmentGroup) (gs : Option (List SegmentGroup)) : SegmentGroup :=
  mk g.discriminator g.ahbExpression g.ahbLineIndex g.segments gs

mutual
/-- attrs' `__eq__` compares all fields (serves edifact_components.py:448-468) -/
def decEq : (a b : SegmentGroup) → Decidable (a = b)
  | mk d e i s g, mk d' e' i' s' g' =>
    match decEqOpt g g' with
    | isFalse h => isFalse (fun h' => h (by injection h'))
    | isTrue h =>
      if h2 : d = d' ∧ e = e' ∧ i = i' ∧ s = s' then
        isTrue (by obtain ⟨rfl, rfl, rfl, rfl⟩ := h2; rw [h])
      else isFalse (fun h' => h2 (by injection h' with h1 h2 h3 h4; exact ⟨h1, h2, h3, h4⟩))
/-- `==` of optional lists of groups (serves edifact_components.py:448-468) -/
def decEqOpt : (a b : Option (List SegmentGroup)) → Decidable (a = b)
  | none, none => isTrue rfl
  | none, some _ => isFalse (fun h => by injection h)
  | some _, none => isFalse (fun h => by injection h)
  | some a, some b =>
    match decEqList a b with
    | isTrue h => isTrue (by rw [h])
    | isFalse h => isFalse (fun h' => h (by injection h'))
/-- `==` of lists of groups (serves edifact_components.py:448-468) -/
def decEqList : (a b : List SegmentGroup) → Decidable (a = b)
  | [], [] => isTrue rfl
  | [], _ :: _ => isFalse (fun h => by injection h)
  | _ :: _, [] => isFalse (fun h => by injection h)
  | a :: as, b :: bs =>
    match decEq a b with
    | isFalse h => isFalse (fun h' => h (by injection h'))
    | isTrue h =>
      match decEqList as bs with
      | isTrue h2 => isTrue (by rw [h, h2])
      | isFalse h2 => isFalse (fun h' => h2 (by injection h'))
end

instance : DecidableEq SegmentGroup := decEq

/-- `SegmentGroup(...)` with its validators — edifact_components.py:448-467 -/
def new (discriminator ahbExpression : Option PyStr) (ahbLineIndex : Option Int)
    (segments : Option (List Segment)) (segmentGroups : Option (List SegmentGroup)) : PyRes SegmentGroup := do
  let e ← checkSegmentLevelExpression ahbExpression
  pure (mk discriminator e ahbLineIndex segments segmentGroups)

end SegmentGroup

/-! ## edifact stack -/

/-- `EdifactStackLevel` — edifact_components.py:527-540 -/
structure EdifactStackLevel where
  name : PyStr
  isGroupable : Bool
  index : Option Int := none
  deriving DecidableEq

/-- `EdifactStack` — edifact_components.py:547-560 -/
structure EdifactStack where
  levels : List EdifactStackLevel
  deriving DecidableEq

namespace EdifactStack

/-- what one level contributes to the json path — edifact_components.py:606-610 -/
def levelPath (l : EdifactStackLevel) : PyStr :=
  py!"[\"" ++ l.name ++ py!"\"]" ++
    match l.index with
    | some i => py!"[" ++ intToDec i ++ py!"]"
    | none => if l.isGroupable then py!"[0]" else []

/-- `EdifactStack.to_json_path` — edifact_components.py:598-611 -/
def toJsonPath (s : EdifactStack) : PyStr :=
  s.levels.foldl (fun result l => result ++ levelPath l) py!"$"

/-- `\[\"(?P<level_name>[^\[\]]+?)\"\](?:\[(?P<index>\d+)\])?` — edifact_components.py:544;
group 1 is `level_name`, group 2 is `index` -/
def levelRe : Re :=
  .seq (.str py!"[\"") (.seq (.grp 1 (.plusLazy (.cls fun c => c != '[' && c != ']')))
    (.seq (.str py!"\"]") (.opt (.seq (.chr '[') (.seq (.grp 2 (.plus (.cls isDigit))) (.chr ']'))))))

/-- loop body of `from_json_path` — edifact_components.py:569-572 -/
def levelOfMatch (m : MSt) : EdifactStackLevel :=
  match Re.group m 2 with
  | none => { name := (Re.group m 1).getD [], isGroupable := false }
  | some i => { name := (Re.group m 1).getD [], isGroupable := true, index := some (decToNat i) }

/-- `EdifactStack.from_json_path` — edifact_components.py:562-573 -/
def fromJsonPath (jsonPath : PyStr) : EdifactStack :=
  { levels := (Re.findIter levelRe jsonPath).map levelOfMatch }

/-- `EdifactStack.is_sub_stack_of` — edifact_components.py:575-590 -/
def isSubStackOf (self other : EdifactStack) : Bool :=
  if other.levels.length > self.levels.length then false
  else zipAllEq other.levels self.levels

/-- `EdifactStack.is_parent_of` — edifact_components.py:592-596 -/
def isParentOf (self other : EdifactStack) : Bool := other.isSubStackOf self

end EdifactStack
end Verif
