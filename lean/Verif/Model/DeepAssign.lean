import Verif.Model.Ahb
import Verif.Model.Deep
/-!
# Model: assigning to attributes of a deep AHB and its parts

The classes of a deep AHB are `attrs.define`d: an assignment to an attribute runs the validator of this attribute first and does not take
place if it raises. An attribute the class does not have cannot be assigned (the classes have slots). The objects refer to each other: an
object may be used at several places, and an assignment takes effect wherever the object is used. A change of a list in place is an
assignment of the changed list to the attributes that hold it, for which no validator is run; as only lists of objects of the right class
are considered, the validators of the lists would not object.

Simplification: the values are `None` or have the type of the attribute. (`instance_of` refuses others with a `TypeError`; the attributes
without validator, `discriminator` of segments and groups, `data_elements`, `segment_groups` and `pruefidentifikator`, take anything.)
-/

namespace Verif

/-- what distinguishes the two kinds of data elements; the value pool refers to entries — /repo/src/maus/models/edifact_components.py:102-107, 201-209 -/
inductive DataElementObjKind where
  | freeText (ahbExpression : PyStr)
  | valuePool (entries : List Nat)

/-- a `DataElementFreeText` or `DataElementValuePool` — edifact_components.py:40-70, 91-107, 188-209 -/
structure DataElementObj where
  discriminator : Option PyStr
  dataElementId : PyStr
  enteredInput : Option PyStr
  valueType : Option DataElementDataType
  kind : DataElementObjKind

/-- a `Segment` that refers to its data elements — edifact_components.py:361-375, 399-420 -/
structure SegmentObj where
  discriminator : Option PyStr
  ahbExpression : PyStr
  ahbLineIndex : Option Int
  dataElements : List Nat
  sectionName : Option PyStr
  segmentId : Option PyStr

/-- a `SegmentGroup` that refers to its segments and groups — edifact_components.py:361-375, 448-467 -/
structure GroupObj where
  discriminator : Option PyStr
  ahbExpression : PyStr
  ahbLineIndex : Option Int
  segments : Option (List Nat)
  segmentGroups : Option (List Nat)

/-- a `DeepAnwendungshandbuch` and all objects around (including those that are created later on), which are referred to by their numbers
— /repo/src/maus/models/anwendungshandbuch.py:430-444 -/
structure DeepObj where
  ahbMeta : AhbMetaInformation
  entries : Nat → ValuePoolEntry
  dataElements : Nat → DataElementObj
  segments : Nat → SegmentObj
  groups : Nat → GroupObj
  lines : List Nat

/-- what is seen when a data element is read (serves edifact_components.py:40-70, 91-107, 188-209) -/
def DeepObj.dataElement (o : DeepObj) (r : Nat) : DataElement :=
  let d := o.dataElements r
  { discriminator := d.discriminator, dataElementId := d.dataElementId, enteredInput := d.enteredInput, valueType := d.valueType,
    kind := match d.kind with
      | .freeText e => .freeText e
      | .valuePool p => .valuePool (p.map o.entries) }

/-- what is seen when a segment is read (serves edifact_components.py:399-420) -/
def DeepObj.segment (o : DeepObj) (r : Nat) : Segment :=
  let s := o.segments r
  { discriminator := s.discriminator, ahbExpression := s.ahbExpression, ahbLineIndex := s.ahbLineIndex,
    dataElements := s.dataElements.map o.dataElement, sectionName := s.sectionName, segmentId := s.segmentId }

/-- what is seen when a group is read to at most the given depth; nothing if it is nested deeper (serves edifact_components.py:448-467) -/
def DeepObj.group (o : DeepObj) : Nat → Nat → Option SegmentGroup
  | 0, _ => none
  | depth + 1, r =>
    let g := o.groups r
    let segments := g.segments.map fun l => l.map o.segment
    match g.segmentGroups with
    | none => some (.mk g.discriminator g.ahbExpression g.ahbLineIndex segments none)
    | some l => (l.mapM (o.group depth)).map fun gs => .mk g.discriminator g.ahbExpression g.ahbLineIndex segments (some gs)

/-- what is seen when the deep AHB is read to at most the given depth (serves anwendungshandbuch.py:430-444) -/
def DeepObj.value (o : DeepObj) (depth : Nat) : Option DeepAhb :=
  (o.lines.mapM (o.group depth)).map fun l => { ahbMeta := o.ahbMeta, lines := l }

/-- an assignment to an attribute of a `ValuePoolEntry` — edifact_components.py:160-165 -/
inductive EntryAttr where
  | qualifier (v : Option PyStr)
  | meaning (v : Option PyStr)
  | ahbExpression (v : Option PyStr)

/-- the entry after the assignment — edifact_components.py:133-165 -/
def ValuePoolEntry.assign (e : ValuePoolEntry) : EntryAttr → PyRes ValuePoolEntry
  | .qualifier v => if !isEdifactQualifier v then .error .valueError else .ok { e with qualifier := v.getD [] }
  | .meaning v => match v with
    | none => .error .typeError
    | some m => .ok { e with meaning := m }
  | .ahbExpression v => if !isNotBlank v then .error .valueError else .ok { e with ahbExpression := v.getD [] }

/-- an assignment to an attribute of a data element — edifact_components.py:48-70, 98-107, 197-209 -/
inductive DataElementAttr where
  | discriminator (v : Option PyStr)
  | dataElementId (v : Option PyStr)
  | enteredInput (v : Option PyStr)
  | valueType (v : Option DataElementDataType)
  | ahbExpression (v : Option PyStr)
  | valuePool (entries : List Nat)

/-- the data element after the assignment — edifact_components.py:48-70, 98-107, 197-209. A free text has no `value_pool`, a value pool no
`ahb_expression`. -/
def DataElementObj.assign (d : DataElementObj) : DataElementAttr → PyRes DataElementObj
  | .discriminator v => if v.isSome && !isNotBlank v then .error .valueError else .ok { d with discriminator := v }
  | .dataElementId v => match v with
    | none => .error .typeError
    | some s => if (dataElement4Re.fullMatch s).isNone then .error .valueError else .ok { d with dataElementId := s }
  | .enteredInput v => .ok { d with enteredInput := v }
  | .valueType v => .ok { d with valueType := v }
  | .ahbExpression v => match d.kind with
    | .valuePool _ => .error .attributeError
    | .freeText _ => match v with
      | none => .error .typeError
      | some e => if !isNotBlank (some e) then .error .valueError else .ok { d with kind := .freeText e }
  | .valuePool entries => match d.kind with
    | .freeText _ => .error .attributeError
    | .valuePool _ => .ok { d with kind := .valuePool entries }

/-- an assignment to an attribute of a `Segment` — edifact_components.py:367-375, 405-416 -/
inductive SegmentAttr where
  | discriminator (v : Option PyStr)
  | ahbExpression (v : Option PyStr)
  | ahbLineIndex (v : Option Int)
  | dataElements (v : List Nat)
  | sectionName (v : Option PyStr)
  | segmentId (v : Option PyStr)

/-- the segment after the assignment — edifact_components.py:367-375, 405-416 -/
def SegmentObj.assign (s : SegmentObj) : SegmentAttr → PyRes SegmentObj
  | .discriminator v => .ok { s with discriminator := v }
  | .ahbExpression v => do
    let e ← checkSegmentLevelExpression v
    pure { s with ahbExpression := e }
  | .ahbLineIndex v => .ok { s with ahbLineIndex := v }
  | .dataElements v => .ok { s with dataElements := v }
  | .sectionName v => .ok { s with sectionName := v }
  | .segmentId v => if !optMatches segmentId5Re v then .error .valueError else .ok { s with segmentId := v }

/-- an assignment to an attribute of a `SegmentGroup` — edifact_components.py:367-375, 456-467 -/
inductive GroupAttr where
  | discriminator (v : Option PyStr)
  | ahbExpression (v : Option PyStr)
  | ahbLineIndex (v : Option Int)
  | segments (v : Option (List Nat))
  | segmentGroups (v : Option (List Nat))

/-- the group after the assignment — edifact_components.py:367-375, 456-467 -/
def GroupObj.assign (g : GroupObj) : GroupAttr → PyRes GroupObj
  | .discriminator v => .ok { g with discriminator := v }
  | .ahbExpression v => do
    let e ← checkSegmentLevelExpression v
    pure { g with ahbExpression := e }
  | .ahbLineIndex v => .ok { g with ahbLineIndex := v }
  | .segments v => .ok { g with segments := v }
  | .segmentGroups v => .ok { g with segmentGroups := v }

/-- an assignment to an attribute of an `AhbMetaInformation` — anwendungshandbuch.py:169-204 -/
inductive MetaAttr where
  | pruefidentifikator (v : PyStr)
  | mausVersion (v : Option PyStr)
  | description (v : Option PyStr)
  | direction (v : Option PyStr)

/-- the meta information after the assignment — anwendungshandbuch.py:169-204 -/
def AhbMetaInformation.assign (m : AhbMetaInformation) : MetaAttr → PyRes AhbMetaInformation
  | .pruefidentifikator v => .ok { m with pruefidentifikator := v }
  | .mausVersion v => .ok { m with mausVersion := v }
  | .description v => if v.isSome && !isNotBlank v then .error .valueError else .ok { m with description := v }
  | .direction v => if v.isSome && !isNotBlank v then .error .valueError else .ok { m with direction := v }

/-- an assignment to an attribute of the deep AHB or of one of the objects around (serves edifact_components.py:40-467) -/
inductive DeepAssign where
  | info (a : MetaAttr)
  | entry (r : Nat) (a : EntryAttr)
  | dataElement (r : Nat) (a : DataElementAttr)
  | segment (r : Nat) (a : SegmentAttr)
  | group (r : Nat) (a : GroupAttr)
  /-- `deep.lines = [...]` -/
  | lines (v : List Nat)

/-- the object with number `r` is replaced (serves edifact_components.py:40-467) -/
def heapSet {α : Type} (heap : Nat → α) (r : Nat) (x : α) : Nat → α := fun i => if i = r then x else heap i

/-- the state after the assignment, and the exception if there is one (serves edifact_components.py:40-467 and anwendungshandbuch.py:163-204, 430-444) -/
def DeepObj.apply (o : DeepObj) : DeepAssign → DeepObj × Option Exc
  | .info a => match o.ahbMeta.assign a with
    | .ok m => ({ o with ahbMeta := m }, none)
    | .error e => (o, some e)
  | .entry r a => match (o.entries r).assign a with
    | .ok x => ({ o with entries := heapSet o.entries r x }, none)
    | .error e => (o, some e)
  | .dataElement r a => match (o.dataElements r).assign a with
    | .ok x => ({ o with dataElements := heapSet o.dataElements r x }, none)
    | .error e => (o, some e)
  | .segment r a => match (o.segments r).assign a with
    | .ok x => ({ o with segments := heapSet o.segments r x }, none)
    | .error e => (o, some e)
  | .group r a => match (o.groups r).assign a with
    | .ok x => ({ o with groups := heapSet o.groups r x }, none)
    | .error e => (o, some e)
  | .lines v => ({ o with lines := v }, none)

/-- the state after some assignments; exceptions are caught in between (serves edifact_components.py:40-467) -/
def DeepObj.run (o : DeepObj) (edits : List DeepAssign) : DeepObj := edits.foldl (fun o e => (o.apply e).1) o

end Verif
