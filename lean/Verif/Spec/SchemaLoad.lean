import Mathlib.Data.List.Forall2
import Verif.Spec.Schema
import Verif.Spec.Csv
import Verif.Spec.Float
import Verif.Spec.Uuid
/-!
# Specification vocabulary: which JSON documents describe which objects

The documents of the three schemas, key by key. `d` is always the dictionary of a JSON object, `dictGet key d` the value under a
key (`none`: there is no such key). `null` and "no such key" are told apart where the schemas do so.
-/

namespace Verif

/-- a JSON string -/
inductive IsText : Json → PyStr → Prop
  | mk (s : PyStr) : IsText (.str s) s

/-- the text of a UUID in a JSON string -/
inductive IsUuid : Json → Nat → Prop
  | mk (s : PyStr) (n : Nat) (h : UuidText s n) : IsUuid (.str s) n

/-- a JSON integer, the integer part of another JSON number, or the text of an integer in a JSON string -/
inductive IsInteger : Json → Int → Prop
  | number (i : Int) : IsInteger (.num i) i
  | float (f : PyFloat) (i : Int) (h : IntegerPart f i) : IsInteger (.float f) i
  | text (s : PyStr) (i : Int) (h : IntText s i) : IsInteger (.str s) i

/-- the name of a data type -/
inductive IsDataType : Json → DataElementDataType → Prop
  | text : IsDataType (.str py!"TEXT") .text
  | datetime : IsDataType (.str py!"DATETIME") .datetime
  | valuePool : IsDataType (.str py!"VALUE_POOL") .valuePool

/-- the value under the key `value_type`: the name of a data type. There may be no such key, which means `dflt`. It is not `null`, but
`None` can be written as `__text_signature__`, the name of an attribute of the enum that is `None`. -/
inductive ValueTypeGiven (dflt : DataElementDataType) : Option Json → Option DataElementDataType → Prop
  | missing : ValueTypeGiven dflt none (some dflt)
  | name {j : Json} {t : DataElementDataType} (h : IsDataType j t) : ValueTypeGiven dflt (some j) (some t)
  | signature : ValueTypeGiven dflt (some (.str py!"__text_signature__")) none

/-- a JSON array, item by item -/
inductive IsList {α : Type} (P : Json → α → Prop) : Json → List α → Prop
  | mk (js : List Json) (l : List α) (h : List.Forall₂ P js l) : IsList P (.arr js) l

/-- the key is there, with a value -/
inductive Given {α : Type} (P : Json → α → Prop) : Option Json → α → Prop
  | value {j : Json} {a : α} (h : P j a) : Given P (some j) a

/-- the key is there, possibly with `null` -/
inductive GivenOrNull {α : Type} (P : Json → α → Prop) : Option Json → Option α → Prop
  | null : GivenOrNull P (some .null) none
  | value {j : Json} {a : α} (h : P j a) : GivenOrNull P (some j) (some a)

/-- the key may be missing, which means `dflt`, but is not `null` -/
inductive GivenOrDefault {α : Type} (P : Json → α → Prop) (dflt : Option α) : Option Json → Option α → Prop
  | missing : GivenOrDefault P dflt none dflt
  | value {j : Json} {a : α} (h : P j a) : GivenOrDefault P dflt (some j) (some a)

/-- the key may be missing, which means `dflt`, or `null` -/
inductive Optional {α : Type} (P : Json → α → Prop) (dflt : Option α) : Option Json → Option α → Prop
  | missing : Optional P dflt none dflt
  | null : Optional P dflt (some .null) none
  | value {j : Json} {a : α} (h : P j a) : Optional P dflt (some j) (some a)

/-- there are no other keys -/
def OnlyKeys (keys : List PyStr) (d : List (PyStr × Json)) : Prop := ∀ k v, (k, v) ∈ d → k ∈ keys

/-- the document of a line -/
inductive DescribesLine : Json → AhbLine → Prop
  | mk (d : List (PyStr × Json)) (l : AhbLine)
      (keys : OnlyKeys [py!"guid", py!"segment_group_key", py!"segment_code", py!"segment_id", py!"data_element",
        py!"value_pool_entry", py!"name", py!"ahb_expression", py!"conditions", py!"section_name", py!"index"] d)
      (guid : Optional IsUuid none (dictGet py!"guid" d) l.guid)
      (segmentGroupKey : Optional IsText none (dictGet py!"segment_group_key" d) l.segmentGroupKey)
      (segmentCode : Optional IsText none (dictGet py!"segment_code" d) l.segmentCode)
      (segmentId : Optional IsText none (dictGet py!"segment_id" d) l.segmentId)
      (dataElement : Optional IsText none (dictGet py!"data_element" d) l.dataElement)
      (valuePoolEntry : Optional IsText none (dictGet py!"value_pool_entry" d) l.valuePoolEntry)
      (name : Optional IsText none (dictGet py!"name" d) l.name)
      (ahbExpression : Optional IsText none (dictGet py!"ahb_expression" d) l.ahbExpression)
      (conditions : Optional IsText none (dictGet py!"conditions" d) l.conditions)
      (sectionName : Optional IsText none (dictGet py!"section_name" d) l.sectionName)
      (index : Optional IsInteger none (dictGet py!"index" d) l.index)
      (valid : l.Constructed) : DescribesLine (.obj d) l

/-- the document of the meta information; the version is the current one if the key is missing -/
inductive DescribesMeta : Json → AhbMetaInformation → Prop
  | mk (d : List (PyStr × Json)) (m : AhbMetaInformation)
      (keys : OnlyKeys [py!"pruefidentifikator", py!"maus_version", py!"description", py!"direction"] d)
      (pruefidentifikator : Given IsText (dictGet py!"pruefidentifikator" d) m.pruefidentifikator)
      (version : Optional IsText (some py!"0.3.0") (dictGet py!"maus_version" d) m.mausVersion)
      (description : Optional IsText none (dictGet py!"description" d) m.description)
      (direction : Optional IsText none (dictGet py!"direction" d) m.direction)
      (valid : AhbMetaInformation.new m = .ok m) : DescribesMeta (.obj d) m

/-- the document of a flat AHB -/
inductive DescribesFlat : Json → FlatAhb → Prop
  | mk (d : List (PyStr × Json)) (f : FlatAhb) (keys : OnlyKeys [py!"meta", py!"lines"] d)
      (info : Given DescribesMeta (dictGet py!"meta" d) f.ahbMeta)
      (lines : Given (IsList DescribesLine) (dictGet py!"lines" d) f.lines)
      (valid : f.Constructed) : DescribesFlat (.obj d) f

/-- the document of a value pool entry -/
inductive DescribesEntry : Json → ValuePoolEntry → Prop
  | mk (d : List (PyStr × Json)) (e : ValuePoolEntry)
      (keys : OnlyKeys [py!"qualifier", py!"meaning", py!"ahb_expression"] d)
      (qualifier : Given IsText (dictGet py!"qualifier" d) e.qualifier)
      (meaning : Given IsText (dictGet py!"meaning" d) e.meaning)
      (ahbExpression : Given IsText (dictGet py!"ahb_expression" d) e.ahbExpression)
      (valid : e.Constructed) : DescribesEntry (.obj d) e

/-- the document of a data element: a value pool if there is the key `value_pool`, otherwise a free text -/
inductive DescribesDataElement : Json → DataElement → Prop
  | freeText (d : List (PyStr × Json)) (de : DataElement) (x : PyStr) (kind : de.kind = .freeText x)
      (keys : OnlyKeys [py!"discriminator", py!"data_element_id", py!"entered_input", py!"value_type", py!"ahb_expression"] d)
      (discriminator : GivenOrNull IsText (dictGet py!"discriminator" d) de.discriminator)
      (dataElementId : Given IsText (dictGet py!"data_element_id" d) de.dataElementId)
      (enteredInput : Optional IsText none (dictGet py!"entered_input" d) de.enteredInput)
      (valueType : ValueTypeGiven .text (dictGet py!"value_type" d) de.valueType)
      (ahbExpression : Given IsText (dictGet py!"ahb_expression" d) x)
      (valid : de.Constructed) : DescribesDataElement (.obj d) de
  | valuePool (d : List (PyStr × Json)) (de : DataElement) (p : List ValuePoolEntry) (kind : de.kind = .valuePool p)
      (keys : OnlyKeys [py!"discriminator", py!"data_element_id", py!"entered_input", py!"value_type", py!"value_pool"] d)
      (discriminator : GivenOrNull IsText (dictGet py!"discriminator" d) de.discriminator)
      (dataElementId : Given IsText (dictGet py!"data_element_id" d) de.dataElementId)
      (enteredInput : Optional IsText none (dictGet py!"entered_input" d) de.enteredInput)
      (valueType : ValueTypeGiven .valuePool (dictGet py!"value_type" d) de.valueType)
      (valuePool : Given (IsList DescribesEntry) (dictGet py!"value_pool" d) p)
      (valid : de.Constructed) : DescribesDataElement (.obj d) de

/-- the document of a segment; a loaded segment has no line index -/
inductive DescribesSegment : Json → Segment → Prop
  | mk (d : List (PyStr × Json)) (s : Segment)
      (keys : OnlyKeys [py!"discriminator", py!"ahb_expression", py!"data_elements", py!"section_name", py!"segment_id"] d)
      (discriminator : ∃ x, s.discriminator = some x ∧ Given IsText (dictGet py!"discriminator" d) x)
      (ahbExpression : Given IsText (dictGet py!"ahb_expression" d) s.ahbExpression)
      (dataElements : Given (IsList DescribesDataElement) (dictGet py!"data_elements" d) s.dataElements)
      (sectionName : GivenOrDefault IsText none (dictGet py!"section_name" d) s.sectionName)
      (segmentId : Optional IsText none (dictGet py!"segment_id" d) s.segmentId)
      (noIndex : s.ahbLineIndex = none) (valid : s.Constructed) : DescribesSegment (.obj d) s

/-- the document of a segment group, at every depth -/
inductive DescribesGroup : Json → SegmentGroup → Prop
  | leaf (d : List (PyStr × Json)) (g : SegmentGroup)
      (keys : OnlyKeys [py!"discriminator", py!"ahb_expression", py!"segments", py!"segment_groups"] d)
      (discriminator : ∃ x, g.discriminator = some x ∧ Given IsText (dictGet py!"discriminator" d) x)
      (ahbExpression : Given IsText (dictGet py!"ahb_expression" d) g.ahbExpression)
      (segments : Optional (IsList DescribesSegment) none (dictGet py!"segments" d) g.segments)
      (noGroups : dictGet py!"segment_groups" d = none ∨ dictGet py!"segment_groups" d = some .null)
      (groups : g.segmentGroups = none)
      (noIndex : g.ahbLineIndex = none) (valid : g.Constructed) : DescribesGroup (.obj d) g
  | node (d : List (PyStr × Json)) (g : SegmentGroup) (js : List Json) (gs : List SegmentGroup)
      (keys : OnlyKeys [py!"discriminator", py!"ahb_expression", py!"segments", py!"segment_groups"] d)
      (discriminator : ∃ x, g.discriminator = some x ∧ Given IsText (dictGet py!"discriminator" d) x)
      (ahbExpression : Given IsText (dictGet py!"ahb_expression" d) g.ahbExpression)
      (segments : Optional (IsList DescribesSegment) none (dictGet py!"segments" d) g.segments)
      (someGroups : dictGet py!"segment_groups" d = some (.arr js)) (groups : g.segmentGroups = some gs)
      (length : js.length = gs.length) (items : ∀ p ∈ js.zip gs, DescribesGroup p.1 p.2)
      (noIndex : g.ahbLineIndex = none) (valid : g.Constructed) : DescribesGroup (.obj d) g

/-- the document of a deep AHB -/
inductive DescribesDeep : Json → DeepAhb → Prop
  | mk (d : List (PyStr × Json)) (a : DeepAhb) (keys : OnlyKeys [py!"meta", py!"lines"] d)
      (info : Given DescribesMeta (dictGet py!"meta" d) a.ahbMeta)
      (lines : Given (IsList DescribesGroup) (dictGet py!"lines" d) a.lines) : DescribesDeep (.obj d) a

/-- the document of a segment group hierarchy, at every depth -/
inductive DescribesHierarchy : Json → Sgh → Prop
  | leaf (d : List (PyStr × Json)) (key : Option PyStr) (opening : PyStr)
      (keys : OnlyKeys [py!"segment_group", py!"opening_segment", py!"sub_hierarchy"] d)
      (segmentGroup : GivenOrNull IsText (dictGet py!"segment_group" d) key)
      (openingSegment : Given IsText (dictGet py!"opening_segment" d) opening)
      (noSub : dictGet py!"sub_hierarchy" d = some .null) : DescribesHierarchy (.obj d) (.mk key opening none)
  | node (d : List (PyStr × Json)) (key : Option PyStr) (opening : PyStr) (js : List Json) (sub : List Sgh)
      (keys : OnlyKeys [py!"segment_group", py!"opening_segment", py!"sub_hierarchy"] d)
      (segmentGroup : GivenOrNull IsText (dictGet py!"segment_group" d) key)
      (openingSegment : Given IsText (dictGet py!"opening_segment" d) opening)
      (someSub : dictGet py!"sub_hierarchy" d = some (.arr js))
      (length : js.length = sub.length) (items : ∀ p ∈ js.zip sub, DescribesHierarchy p.1 p.2) :
      DescribesHierarchy (.obj d) (.mk key opening (some sub))

end Verif
