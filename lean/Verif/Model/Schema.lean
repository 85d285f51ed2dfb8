import Verif.Py.Json
import Verif.Model.Flat
import Verif.Model.Deep
/-!
# Model of the marshmallow schemas: `dump` and `load`

`load` collects `ValidationError`s field by field; if there is none, the `post_load` hook calls the constructor, whose
exceptions are propagated. A missing keyword argument without default is a `TypeError`.
-/

namespace Verif

/-! ## flat AHBs -/

/-- the fields of `AhbLineSchema` — /repo/src/maus/models/anwendungshandbuch.py:142-152 -/
def ahbLineKeys : List PyStr :=
  [py!"guid", py!"segment_group_key", py!"segment_code", py!"segment_id", py!"data_element", py!"value_pool_entry",
   py!"name", py!"ahb_expression", py!"conditions", py!"section_name", py!"index"]

/-- `AhbLineSchema().dump` — anwendungshandbuch.py:137-152 -/
def AhbLine.dump (l : AhbLine) : Json :=
  .obj [(py!"guid", match l.guid with
          | none => .null
          | some g => .str (uuidToStr g)),
    (py!"segment_group_key", dumpStr l.segmentGroupKey), (py!"segment_code", dumpStr l.segmentCode),
    (py!"segment_id", dumpStr l.segmentId), (py!"data_element", dumpStr l.dataElement),
    (py!"value_pool_entry", dumpStr l.valuePoolEntry), (py!"name", dumpStr l.name),
    (py!"ahb_expression", dumpStr l.ahbExpression), (py!"conditions", dumpStr l.conditions),
    (py!"section_name", dumpStr l.sectionName),
    (py!"index", match l.index with
          | none => .null
          | some i => .num i)]

/-- `AhbLineSchema().load` — anwendungshandbuch.py:137-160 -/
def AhbLine.load : Json → PyRes AhbLine
  | .obj d =>
    let o : FieldOpts := { defaultNone := true }
    let guid := loadField o convUuid py!"guid" d
    let segmentGroupKey := strField o py!"segment_group_key" d
    let segmentCode := strField o py!"segment_code" d
    let segmentId := strField o py!"segment_id" d
    let dataElement := strField o py!"data_element" d
    let valuePoolEntry := strField o py!"value_pool_entry" d
    let name := strField o py!"name" d
    let ahbExpression := strField o py!"ahb_expression" d
    let conditions := strField o py!"conditions" d
    let sectionName := strField o py!"section_name" d
    let index := loadField o convInt py!"index" d
    if guid.isInvalid || segmentGroupKey.isInvalid || segmentCode.isInvalid || segmentId.isInvalid
        || dataElement.isInvalid || valuePoolEntry.isInvalid || name.isInvalid || ahbExpression.isInvalid
        || conditions.isInvalid || sectionName.isInvalid || index.isInvalid || hasUnknown ahbLineKeys d then
      .error .validationError
    else
      AhbLine.new { guid := guid.getD none, segmentGroupKey := segmentGroupKey.getD none, segmentCode := segmentCode.getD none,
                    dataElement := dataElement.getD none, segmentId := segmentId.getD none,
                    valuePoolEntry := valuePoolEntry.getD none, name := name.getD none,
                    ahbExpression := ahbExpression.getD none, conditions := conditions.getD none,
                    sectionName := sectionName.getD none, index := index.getD none }
  | _ => .error .validationError

/-- the fields of `AhbMetaInformationSchema` — anwendungshandbuch.py:212-215 -/
def ahbMetaKeys : List PyStr := [py!"pruefidentifikator", py!"maus_version", py!"description", py!"direction"]

/-- `AhbMetaInformationSchema().dump` — anwendungshandbuch.py:207-215 -/
def AhbMetaInformation.dump (m : AhbMetaInformation) : Json :=
  .obj [(py!"pruefidentifikator", .str m.pruefidentifikator), (py!"maus_version", dumpStr m.mausVersion),
    (py!"description", dumpStr m.description), (py!"direction", dumpStr m.direction)]

/-- `AhbMetaInformationSchema().load` — anwendungshandbuch.py:207-223 -/
def AhbMetaInformation.load : Json → PyRes AhbMetaInformation
  | .obj d =>
    let pruefi := strField { required := true } py!"pruefidentifikator" d
    let version := strField { allowNone := true } py!"maus_version" d
    let description := strField { allowNone := true } py!"description" d
    let direction := strField { allowNone := true } py!"direction" d
    if pruefi.isInvalid || version.isInvalid || description.isInvalid || direction.isInvalid
        || hasUnknown ahbMetaKeys d then .error .validationError
    else AhbMetaInformation.new { pruefidentifikator := (pruefi.getD none).getD [], mausVersion := version.getD (some Verif.mausVersion),
                                  description := description.getD none, direction := direction.getD none }
  | _ => .error .validationError

/-- `FlatAnwendungshandbuchSchema().dump` — anwendungshandbuch.py:395-401 -/
def FlatAhb.dump (f : FlatAhb) : Json := .obj [(py!"meta", f.ahbMeta.dump), (py!"lines", .arr (f.lines.map AhbLine.dump))]

/-- the common part of the two handbook schemas: `meta` and `lines` — anwendungshandbuch.py:400-401, 584-585 -/
def loadHandbook {α β : Type} (loadLine : Json → PyRes α) (make : AhbMetaInformation → List α → PyRes β) : Json → PyRes β
  | .obj d => do
    let info ← loadNestedField AhbMetaInformation.load py!"meta" d
    let lines ← loadListField {} loadLine py!"lines" d
    if info.isInvalid || lines.isInvalid || hasUnknown [py!"meta", py!"lines"] d then .error .validationError
    else match info, lines with
      | .value m, .value (some l) => make m l
      | _, _ => .error .typeError
  | _ => .error .validationError

/-- `FlatAnwendungshandbuchSchema().load` — anwendungshandbuch.py:395-409 -/
def FlatAhb.load (j : Json) : PyRes FlatAhb := loadHandbook AhbLine.load FlatAhb.new j

/-! ## data elements -/

/-- `DataElementDataType` by name — /repo/src/maus/models/edifact_components.py:19-27 -/
def DataElementDataType.name : DataElementDataType → PyStr
  | .text => py!"TEXT"
  | .datetime => py!"DATETIME"
  | .valuePool => py!"VALUE_POOL"

/-- the attributes of the class `DataElementDataType` that are neither members nor `None`: methods of `str`, of `Enum` and of
classes. These are the ones of Python 3.11; 3.12 has `__signature__` and `__type_params__` instead of `__getattr__`.
(serves edifact_components.py:19-27, 81) -/
def dataTypeAttributes : List PyStr :=
  [py!"__add__", py!"__annotations__", py!"__base__", py!"__bases__", py!"__basicsize__", py!"__bool__", py!"__call__",
    py!"__class__", py!"__contains__", py!"__copy__", py!"__deepcopy__", py!"__delattr__", py!"__dict__", py!"__dictoffset__",
    py!"__dir__", py!"__doc__", py!"__eq__", py!"__flags__", py!"__format__", py!"__ge__", py!"__getattr__",
    py!"__getattribute__", py!"__getitem__", py!"__getnewargs__", py!"__getstate__", py!"__gt__", py!"__hash__", py!"__init__",
    py!"__init_subclass__", py!"__instancecheck__", py!"__itemsize__", py!"__iter__", py!"__le__", py!"__len__", py!"__lt__",
    py!"__members__", py!"__mod__", py!"__module__", py!"__mro__", py!"__mul__", py!"__name__", py!"__ne__", py!"__new__",
    py!"__or__", py!"__prepare__", py!"__qualname__", py!"__reduce__", py!"__reduce_ex__", py!"__repr__", py!"__reversed__",
    py!"__rmod__", py!"__rmul__", py!"__ror__", py!"__setattr__", py!"__sizeof__", py!"__str__", py!"__subclasscheck__",
    py!"__subclasses__", py!"__subclasshook__", py!"__weakref__", py!"__weakrefoffset__", py!"_check_for_existing_members_",
    py!"_convert_", py!"_create_", py!"_find_data_repr_", py!"_find_data_type_", py!"_find_new_", py!"_generate_next_value_",
    py!"_get_mixins_", py!"_member_map_", py!"_member_names_", py!"_member_type_", py!"_missing_", py!"_new_member_",
    py!"_unhashable_values_", py!"_use_args_", py!"_value2member_map_", py!"_value_repr_", py!"capitalize", py!"casefold",
    py!"center", py!"count", py!"encode", py!"endswith", py!"expandtabs", py!"find", py!"format", py!"format_map", py!"index",
    py!"isalnum", py!"isalpha", py!"isascii", py!"isdecimal", py!"isdigit", py!"isidentifier", py!"islower", py!"isnumeric",
    py!"isprintable", py!"isspace", py!"istitle", py!"isupper", py!"join", py!"ljust", py!"lower", py!"lstrip", py!"maketrans",
    py!"mro", py!"partition", py!"removeprefix", py!"removesuffix", py!"replace", py!"rfind", py!"rindex", py!"rjust",
    py!"rpartition", py!"rsplit", py!"rstrip", py!"split", py!"splitlines", py!"startswith", py!"strip", py!"swapcase",
    py!"title", py!"translate", py!"upper", py!"zfill"]

/-- the argument `value_type` of the constructor of a data element (serves edifact_components.py:64-66, 81) -/
inductive TypeArg where
  /-- a data type or `None` -/
  | type (t : Option DataElementDataType)
  /-- something else -/
  | other
  deriving DecidableEq

/-- `MarshmallowEnum(DataElementDataType)` by name: `getattr(DataElementDataType, s)`, a `ValidationError` if there is no such
attribute. Other attributes than the members are found as well; `__text_signature__` is `None`. — edifact_components.py:81 -/
def convDataType : Json → Option TypeArg
  | .str s =>
    if s = py!"TEXT" then some (.type (some .text)) else if s = py!"DATETIME" then some (.type (some .datetime))
    else if s = py!"VALUE_POOL" then some (.type (some .valuePool))
    else if s = py!"__text_signature__" then some (.type none)
    else if s ∈ dataTypeAttributes then some .other else none
  | _ => none

/-- `ValuePoolEntrySchema().dump` — edifact_components.py:169-177 -/
def ValuePoolEntry.dump (e : ValuePoolEntry) : Json :=
  .obj [(py!"qualifier", .str e.qualifier), (py!"meaning", .str e.meaning), (py!"ahb_expression", .str e.ahbExpression)]

/-- `ValuePoolEntrySchema().load` — edifact_components.py:169-185 -/
def ValuePoolEntry.load : Json → PyRes ValuePoolEntry
  | .obj d =>
    let qualifier := strField { required := true } py!"qualifier" d
    let meaning := strField { required := true } py!"meaning" d
    let ahbExpression := strField { required := true } py!"ahb_expression" d
    if qualifier.isInvalid || meaning.isInvalid || ahbExpression.isInvalid
        || hasUnknown [py!"qualifier", py!"meaning", py!"ahb_expression"] d then .error .validationError
    else ValuePoolEntry.new (qualifier.getD none) (meaning.getD none) (ahbExpression.getD none)
  | _ => .error .validationError

/-- the field `entered_input`; `_remove_null_entered_input` drops the key if there is no input — edifact_components.py:80,
83-88 -/
def dumpInput : Option PyStr → List (PyStr × Json)
  | none => []
  | some s => [(py!"entered_input", .str s)]

/-- the field `value_type` — edifact_components.py:81 -/
def dumpDataType : Option DataElementDataType → Json
  | none => .null
  | some t => .str t.name

/-- the fields that are dumped for every data element;
— edifact_components.py:78-88 -/
def DataElement.dumpBase (de : DataElement) : List (PyStr × Json) :=
  [(py!"discriminator", dumpStr de.discriminator), (py!"data_element_id", .str de.dataElementId)] ++
  dumpInput de.enteredInput ++ [(py!"value_type", dumpDataType de.valueType)]

/-- `_FreeTextOrValuePoolSchema().dump`: the dump of the part that is present — edifact_components.py:110-115, 258-263,
317-327, 349-358 -/
def DataElement.dump (de : DataElement) : Json :=
  .obj (de.dumpBase ++ match de.kind with
    | .freeText e => [(py!"ahb_expression", .str e)]
    | .valuePool p => [(py!"value_pool", .arr (p.map ValuePoolEntry.dump))])

/-- the fields of `DataElementSchema` — edifact_components.py:78-81 -/
def dataElementKeys : List PyStr := [py!"discriminator", py!"data_element_id", py!"entered_input", py!"value_type"]

/-- the constructor of a data element with the argument `value_type`: what is no data type is refused by the validator of `value_type`,
after the validators of the discriminator and the id (serves edifact_components.py:48-66, 98-101, 197-200) -/
def DataElement.withType (arg : Option TypeArg) (discriminator dataElementId : Option PyStr)
    (construct : Option DataElementDataType → PyRes DataElement) : PyRes DataElement :=
  match arg with
  | some (.type t) => construct t
  | _ => do
    let _ ← DataElement.checkBase discriminator dataElementId
    .error .typeError

/-- `DataElementFreeTextSchema().load` — edifact_components.py:110-123. A missing `discriminator` is a missing keyword
argument, a missing `value_type` gets the default of the constructor. -/
def DataElement.loadFreeText : Json → PyRes DataElement
  | .obj d =>
    let discriminator := strField { allowNone := true } py!"discriminator" d
    let dataElementId := strField { required := true } py!"data_element_id" d
    let enteredInput := strField { defaultNone := true } py!"entered_input" d
    let valueType := loadField {} convDataType py!"value_type" d
    let ahbExpression := strField { allowNone := true, required := true } py!"ahb_expression" d
    if discriminator.isInvalid || dataElementId.isInvalid || enteredInput.isInvalid || valueType.isInvalid
        || ahbExpression.isInvalid || hasUnknown (dataElementKeys ++ [py!"ahb_expression"]) d then .error .validationError
    else if discriminator.isMissing then .error .typeError
    else DataElement.withType (valueType.getD (some (.type (some .text)))) (discriminator.getD none) (dataElementId.getD none)
      fun t => DataElement.newFreeText (discriminator.getD none) (dataElementId.getD none) (enteredInput.getD none)
        (ahbExpression.getD none) t
  | _ => .error .validationError

/-- `DataElementValuePoolSchema().load` — edifact_components.py:258-271 -/
def DataElement.loadValuePool : Json → PyRes DataElement
  | .obj d => do
    let discriminator := strField { allowNone := true } py!"discriminator" d
    let dataElementId := strField { required := true } py!"data_element_id" d
    let enteredInput := strField { defaultNone := true } py!"entered_input" d
    let valueType := loadField {} convDataType py!"value_type" d
    let valuePool ← loadListField { required := true } ValuePoolEntry.load py!"value_pool" d
    if discriminator.isInvalid || dataElementId.isInvalid || enteredInput.isInvalid || valueType.isInvalid
        || valuePool.isInvalid || hasUnknown (dataElementKeys ++ [py!"value_pool"]) d then .error .validationError
    else if discriminator.isMissing then .error .typeError
    else
      DataElement.withType (valueType.getD (some (.type (some .valuePool)))) (discriminator.getD none) (dataElementId.getD none)
        fun t => DataElement.newValuePool (discriminator.getD none) (dataElementId.getD none) (enteredInput.getD none)
          ((valuePool.getD none).getD []) t
  | _ => .error .validationError

/-- `_FreeTextOrValuePoolSchema().load` — edifact_components.py:305-346: the key `value_pool` decides. `"value_pool" in x`
raises a `TypeError` for numbers and booleans; strings and lists fail in the nested schema; `null` is rejected by the
surrounding list. -/
def DataElement.load : Json → PyRes DataElement
  | .obj d => if (dictGet py!"value_pool" d).isSome then loadValuePool (.obj d) else loadFreeText (.obj d)
  | .num _ => .error .typeError
  | .float _ => .error .typeError
  | .bool _ => .error .typeError
  | _ => .error .validationError

/-! ## segments -/

/-- `SegmentSchema().dump`; `ahb_line_index` has no field — edifact_components.py:389-396, 430-437 -/
def Segment.dump (s : Segment) : Json :=
  .obj [(py!"discriminator", dumpStr s.discriminator), (py!"ahb_expression", .str s.ahbExpression),
    (py!"data_elements", .arr (s.dataElements.map DataElement.dump)), (py!"section_name", dumpStr s.sectionName),
    (py!"segment_id", dumpStr s.segmentId)]

/-- `SegmentSchema().load` — edifact_components.py:430-445 -/
def Segment.load : Json → PyRes Segment
  | .obj d => do
    let discriminator := strField { required := true } py!"discriminator" d
    let ahbExpression := strField { allowNone := true, required := true } py!"ahb_expression" d
    let dataElements ← loadListField {} DataElement.load py!"data_elements" d
    let sectionName := strField {} py!"section_name" d
    let segmentId := strField { allowNone := true } py!"segment_id" d
    if discriminator.isInvalid || ahbExpression.isInvalid || dataElements.isInvalid || sectionName.isInvalid
        || segmentId.isInvalid || hasUnknown [py!"discriminator", py!"ahb_expression", py!"data_elements",
          py!"section_name", py!"segment_id"] d then .error .validationError
    else match dataElements with
      | .value (some l) =>
        Segment.new (discriminator.getD none) (ahbExpression.getD none) none l (sectionName.getD none) (segmentId.getD none)
      | _ => .error .typeError
  | _ => .error .validationError

/-! ## segment groups -/

/-- `fields.List(fields.Nested(SegmentSchema))` (serves edifact_components.py:510) -/
def dumpSegments : Option (List Segment) → Json
  | none => .null
  | some l => .arr (l.map Segment.dump)

namespace SegmentGroup
mutual
/-- `SegmentGroupSchema().dump` — edifact_components.py:389-396, 505-516 -/
def dump : SegmentGroup → Json
  | mk d e _ s gs =>
    .obj [(py!"discriminator", dumpStr d), (py!"ahb_expression", .str e), (py!"segments", dumpSegments s),
      (py!"segment_groups", dumpOpt gs)]
/-- the field `segment_groups` (serves edifact_components.py:511-516) -/
def dumpOpt : Option (List SegmentGroup) → Json
  | none => .null
  | some l => .arr (dumpList l)
/-- the items of the list (serves edifact_components.py:511-516) -/
def dumpList : List SegmentGroup → List Json
  | [] => []
  | g :: l => dump g :: dumpList l
end

/-- the fields of `SegmentGroupSchema` (serves edifact_components.py:505-524) -/
def keys : List PyStr := [py!"discriminator", py!"ahb_expression", py!"segments", py!"segment_groups"]

mutual
/-- `SegmentGroupSchema().load` — edifact_components.py:505-524 -/
def load : Json → PyRes SegmentGroup
  | .obj d => do
    let discriminator := strField { required := true } py!"discriminator" d
    let ahbExpression := strField { allowNone := true, required := true } py!"ahb_expression" d
    let segments ← loadListField { defaultNone := true } Segment.load py!"segments" d
    let segmentGroups ← loadGroupsField d
    if discriminator.isInvalid || ahbExpression.isInvalid || segments.isInvalid || segmentGroups.isInvalid
        || hasUnknown keys d then .error .validationError
    else
      SegmentGroup.new (discriminator.getD none) (ahbExpression.getD none) none (segments.getD none)
        (segmentGroups.getD none)
  | _ => .error .validationError
/-- the field `segment_groups` (`load_default=None`), found in the dictionary — edifact_components.py:511-516 -/
def loadGroupsField : List (PyStr × Json) → PyRes (Loaded (Option (List SegmentGroup)))
  | [] => .ok (.value none)
  | (k, v) :: d =>
    if k = py!"segment_groups" then
      match v with
      | .null => .ok (.value none)
      | .arr l => loadedItems (loadGroups l)
      | _ => .ok .invalid
    else loadGroupsField d
/-- the items of the list (serves edifact_components.py:511-516) -/
def loadGroups : List Json → PyRes (Option (List SegmentGroup))
  | [] => .ok (some [])
  | j :: l => collect (load j) (loadGroups l)
end
end SegmentGroup

/-- `DeepAnwendungshandbuchSchema().dump` — anwendungshandbuch.py:579-585 -/
def DeepAhb.dump (a : DeepAhb) : Json := .obj [(py!"meta", a.ahbMeta.dump), (py!"lines", .arr (a.lines.map SegmentGroup.dump))]

/-- `DeepAnwendungshandbuchSchema().load` — anwendungshandbuch.py:579-593 -/
def DeepAhb.load (j : Json) : PyRes DeepAhb :=
  loadHandbook SegmentGroup.load (fun m l => .ok { ahbMeta := m, lines := l }) j

/-! ## segment group hierarchies -/

namespace Sgh
mutual
/-- `SegmentGroupHierarchySchema().dump` — /repo/src/maus/models/message_implementation_guide.py:83-93 -/
def dump : Sgh → Json
  | mk k o sub =>
    .obj [(py!"segment_group", dumpStr k), (py!"opening_segment", .str o), (py!"sub_hierarchy", dumpOpt sub)]
/-- the field `sub_hierarchy` (serves message_implementation_guide.py:91-93) -/
def dumpOpt : Option (List Sgh) → Json
  | none => .null
  | some l => .arr (dumpList l)
/-- the items of the list (serves message_implementation_guide.py:91-93) -/
def dumpList : List Sgh → List Json
  | [] => []
  | s :: l => dump s :: dumpList l
end

mutual
/-- `SegmentGroupHierarchySchema().load` — message_implementation_guide.py:83-101; `sub_hierarchy` has no default -/
def load : Json → PyRes Sgh
  | .obj d => do
    let segmentGroup := strField { allowNone := true, required := true } py!"segment_group" d
    let openingSegment := strField { required := true } py!"opening_segment" d
    let sub ← loadSubField d
    if segmentGroup.isInvalid || openingSegment.isInvalid || sub.isInvalid
        || hasUnknown [py!"segment_group", py!"opening_segment", py!"sub_hierarchy"] d then .error .validationError
    else match sub with
      | .value s => .ok (mk (segmentGroup.getD none) ((openingSegment.getD none).getD []) s)
      | _ => .error .typeError
  | _ => .error .validationError
/-- the field `sub_hierarchy` (`allow_none=True`), found in the dictionary — message_implementation_guide.py:91-93 -/
def loadSubField : List (PyStr × Json) → PyRes (Loaded (Option (List Sgh)))
  | [] => .ok .missing
  | (k, v) :: d =>
    if k = py!"sub_hierarchy" then
      match v with
      | .null => .ok (.value none)
      | .arr l => loadedItems (loadSubs l)
      | _ => .ok .invalid
    else loadSubField d
/-- the items of the list (serves message_implementation_guide.py:91-93) -/
def loadSubs : List Json → PyRes (Option (List Sgh))
  | [] => .ok (some [])
  | j :: l => collect (load j) (loadSubs l)
end
end Sgh

end Verif
