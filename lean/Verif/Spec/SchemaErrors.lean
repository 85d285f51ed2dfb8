import Verif.Spec.SchemaLoad
/-!
# Specification vocabulary: the exceptions of `load`

The objects of a document are built one after the other, nested objects before the object they belong to. An object whose keys and
values are as documented (`Spec/SchemaLoad.lean`), nested objects included, may still be refused by its constructor.
-/

namespace Verif

/-- an object of a document, with the kind of object it is expected to be -/
inductive Part where
  | info (j : Json)
  | line (j : Json)
  | entry (j : Json)
  | dataElement (j : Json)
  | segment (j : Json)
  | group (j : Json)
  | flat (j : Json)
  | deep (j : Json)
  | hierarchy (j : Json)

/-- the key is missing or has a documented value -/
def MissingOr {α : Type} (P : Json → α → Prop) (o : Option Json) : Prop := o = none ∨ ∃ a, Given P o a

/-- the exception for a data element whose value type is no data type: `TypeError`, but if the key `discriminator` is there, the
exception that another data element with this discriminator and this id gives (`newValuePool` checks nothing else) -/
def RefusedBase (d : List (PyStr × Json)) (disc : Option PyStr) (i : PyStr) (e : Exc) : Prop :=
  e = .typeError ∧ (dictGet py!"discriminator" d = none ∨ ∃ de, DataElement.newValuePool disc (some i) none [] none = .ok de) ∨
    dictGet py!"discriminator" d ≠ none ∧ DataElement.newValuePool disc (some i) none [] none = .error e

/-- the keys and values of the object are as documented, but it cannot be built: the constructor raises the exception, or it is a
`TypeError` because an argument without default is missing -/
inductive Refused : Part → Exc → Prop
  | info (d : List (PyStr × Json)) (m : AhbMetaInformation) (e : Exc)
      (keys : OnlyKeys [py!"pruefidentifikator", py!"maus_version", py!"description", py!"direction"] d)
      (pruefidentifikator : Given IsText (dictGet py!"pruefidentifikator" d) m.pruefidentifikator)
      (version : Optional IsText (some py!"0.3.0") (dictGet py!"maus_version" d) m.mausVersion)
      (description : Optional IsText none (dictGet py!"description" d) m.description)
      (direction : Optional IsText none (dictGet py!"direction" d) m.direction)
      (raises : AhbMetaInformation.new m = .error e) : Refused (.info (.obj d)) e
  | line (d : List (PyStr × Json)) (l : AhbLine) (e : Exc)
      (keys : OnlyKeys [py!"guid", py!"segment_group_key", py!"segment_code", py!"segment_id", py!"data_element",
        py!"value_pool_entry", py!"name", py!"ahb_expression", py!"conditions", py!"section_name", py!"index"] d)
      (guid : Optional IsUuid none (dictGet py!"guid" d) l.guid)
      (segmentGroupKey : Optional IsText none (dictGet py!"segment_group_key" d) l.segmentGroupKey)
      (segmentCode : Optional IsText none (dictGet py!"segment_code" d) l.segmentCode)
      (segmentId : Optional IsText none (dictGet py!"segment_id" d) l.segmentId)
      (dataElement : Optional IsText none (dictGet py!"data_element" d) l.dataElement)
      (valuePoolEntry : Optional IsText none (dictGet py!"value_pool_entry" d) l.valuePoolEntry)
      (name : Optional IsText none (dictGet py!"name" d) l.name)
      (ahbExpression : Optional IsText none (dictGet py!"ahb_expression" d) l.ahbExpression)
      (conditions : Optional IsText none (dictGet py!"conditions" d) l.conditions)
      (sectionName : Optional IsText none (dictGet py!"section_name" d) l.sectionName)
      (index : Optional IsInteger none (dictGet py!"index" d) l.index)
      (raises : AhbLine.new l = .error e) : Refused (.line (.obj d)) e
  | entry (d : List (PyStr × Json)) (q m x : PyStr) (e : Exc)
      (keys : OnlyKeys [py!"qualifier", py!"meaning", py!"ahb_expression"] d)
      (qualifier : Given IsText (dictGet py!"qualifier" d) q) (meaning : Given IsText (dictGet py!"meaning" d) m)
      (ahbExpression : Given IsText (dictGet py!"ahb_expression" d) x)
      (raises : ValuePoolEntry.new (some q) (some m) (some x) = .error e) : Refused (.entry (.obj d)) e
  /-- a number or a boolean has no keys that could be looked at -/
  | number (i : Int) : Refused (.dataElement (.num i)) .typeError
  | float (f : PyFloat) : Refused (.dataElement (.float f)) .typeError
  | boolean (b : Bool) : Refused (.dataElement (.bool b)) .typeError
  | freeText (d : List (PyStr × Json)) (disc : Option PyStr) (i : PyStr) (inp : Option PyStr) (t : Option DataElementDataType)
      (x : Option PyStr) (e : Exc)
      (keys : OnlyKeys [py!"discriminator", py!"data_element_id", py!"entered_input", py!"value_type", py!"ahb_expression"] d)
      (discriminator : Optional IsText none (dictGet py!"discriminator" d) disc)
      (dataElementId : Given IsText (dictGet py!"data_element_id" d) i)
      (enteredInput : Optional IsText none (dictGet py!"entered_input" d) inp)
      (valueType : ValueTypeGiven .text (dictGet py!"value_type" d) t)
      (ahbExpression : GivenOrNull IsText (dictGet py!"ahb_expression" d) x)
      (raises : if dictGet py!"discriminator" d = none then e = .typeError else DataElement.newFreeText disc (some i) inp x t = .error e) :
      Refused (.dataElement (.obj d)) e
  /-- the value type is the name of something else in the enum: a `TypeError`, unless the discriminator or the id is refused before -/
  | freeTextAttribute (d : List (PyStr × Json)) (disc : Option PyStr) (i : PyStr) (inp : Option PyStr) (name : PyStr) (x : Option PyStr)
      (e : Exc)
      (keys : OnlyKeys [py!"discriminator", py!"data_element_id", py!"entered_input", py!"value_type", py!"ahb_expression"] d)
      (discriminator : Optional IsText none (dictGet py!"discriminator" d) disc)
      (dataElementId : Given IsText (dictGet py!"data_element_id" d) i)
      (enteredInput : Optional IsText none (dictGet py!"entered_input" d) inp)
      (valueType : dictGet py!"value_type" d = some (.str name)) (other : name ∈ dataTypeAttributes)
      (ahbExpression : GivenOrNull IsText (dictGet py!"ahb_expression" d) x)
      (raises : RefusedBase d disc i e) : Refused (.dataElement (.obj d)) e
  | valuePool (d : List (PyStr × Json)) (disc : Option PyStr) (i : PyStr) (inp : Option PyStr) (t : Option DataElementDataType)
      (p : List ValuePoolEntry) (e : Exc)
      (keys : OnlyKeys [py!"discriminator", py!"data_element_id", py!"entered_input", py!"value_type", py!"value_pool"] d)
      (discriminator : Optional IsText none (dictGet py!"discriminator" d) disc)
      (dataElementId : Given IsText (dictGet py!"data_element_id" d) i)
      (enteredInput : Optional IsText none (dictGet py!"entered_input" d) inp)
      (valueType : ValueTypeGiven .valuePool (dictGet py!"value_type" d) t)
      (valuePool : Given (IsList DescribesEntry) (dictGet py!"value_pool" d) p)
      (raises : if dictGet py!"discriminator" d = none then e = .typeError else DataElement.newValuePool disc (some i) inp p t = .error e) :
      Refused (.dataElement (.obj d)) e
  | valuePoolAttribute (d : List (PyStr × Json)) (disc : Option PyStr) (i : PyStr) (inp : Option PyStr) (name : PyStr)
      (p : List ValuePoolEntry) (e : Exc)
      (keys : OnlyKeys [py!"discriminator", py!"data_element_id", py!"entered_input", py!"value_type", py!"value_pool"] d)
      (discriminator : Optional IsText none (dictGet py!"discriminator" d) disc)
      (dataElementId : Given IsText (dictGet py!"data_element_id" d) i)
      (enteredInput : Optional IsText none (dictGet py!"entered_input" d) inp)
      (valueType : dictGet py!"value_type" d = some (.str name)) (other : name ∈ dataTypeAttributes)
      (valuePool : Given (IsList DescribesEntry) (dictGet py!"value_pool" d) p)
      (raises : RefusedBase d disc i e) : Refused (.dataElement (.obj d)) e
  | segment (d : List (PyStr × Json)) (disc : PyStr) (x : Option PyStr) (l : List DataElement) (sec sid : Option PyStr) (e : Exc)
      (keys : OnlyKeys [py!"discriminator", py!"ahb_expression", py!"data_elements", py!"section_name", py!"segment_id"] d)
      (discriminator : Given IsText (dictGet py!"discriminator" d) disc)
      (ahbExpression : GivenOrNull IsText (dictGet py!"ahb_expression" d) x)
      (dataElements : Given (IsList DescribesDataElement) (dictGet py!"data_elements" d) l)
      (sectionName : GivenOrDefault IsText none (dictGet py!"section_name" d) sec)
      (segmentId : Optional IsText none (dictGet py!"segment_id" d) sid)
      (raises : Segment.new (some disc) x none l sec sid = .error e) : Refused (.segment (.obj d)) e
  | noDataElements (d : List (PyStr × Json)) (disc : PyStr) (x sec sid : Option PyStr)
      (keys : OnlyKeys [py!"discriminator", py!"ahb_expression", py!"data_elements", py!"section_name", py!"segment_id"] d)
      (discriminator : Given IsText (dictGet py!"discriminator" d) disc)
      (ahbExpression : GivenOrNull IsText (dictGet py!"ahb_expression" d) x)
      (dataElements : dictGet py!"data_elements" d = none)
      (sectionName : GivenOrDefault IsText none (dictGet py!"section_name" d) sec)
      (segmentId : Optional IsText none (dictGet py!"segment_id" d) sid) : Refused (.segment (.obj d)) .typeError
  | group (d : List (PyStr × Json)) (disc : PyStr) (x : Option PyStr) (segs : Option (List Segment)) (gs : Option (List SegmentGroup))
      (e : Exc) (keys : OnlyKeys [py!"discriminator", py!"ahb_expression", py!"segments", py!"segment_groups"] d)
      (discriminator : Given IsText (dictGet py!"discriminator" d) disc)
      (ahbExpression : GivenOrNull IsText (dictGet py!"ahb_expression" d) x)
      (segments : Optional (IsList DescribesSegment) none (dictGet py!"segments" d) segs)
      (groups : Optional (IsList DescribesGroup) none (dictGet py!"segment_groups" d) gs)
      (raises : SegmentGroup.new (some disc) x none segs gs = .error e) : Refused (.group (.obj d)) e
  | flat (d : List (PyStr × Json)) (m : AhbMetaInformation) (l : List AhbLine) (e : Exc) (keys : OnlyKeys [py!"meta", py!"lines"] d)
      (info : Given DescribesMeta (dictGet py!"meta" d) m) (lines : Given (IsList DescribesLine) (dictGet py!"lines" d) l)
      (raises : FlatAhb.new m l = .error e) : Refused (.flat (.obj d)) e
  | flatIncomplete (d : List (PyStr × Json)) (keys : OnlyKeys [py!"meta", py!"lines"] d)
      (info : MissingOr DescribesMeta (dictGet py!"meta" d)) (lines : MissingOr (IsList DescribesLine) (dictGet py!"lines" d))
      (missing : dictGet py!"meta" d = none ∨ dictGet py!"lines" d = none) : Refused (.flat (.obj d)) .typeError
  | deepIncomplete (d : List (PyStr × Json)) (keys : OnlyKeys [py!"meta", py!"lines"] d)
      (info : MissingOr DescribesMeta (dictGet py!"meta" d)) (lines : MissingOr (IsList DescribesGroup) (dictGet py!"lines" d))
      (missing : dictGet py!"meta" d = none ∨ dictGet py!"lines" d = none) : Refused (.deep (.obj d)) .typeError
  | noSubHierarchy (d : List (PyStr × Json)) (key : Option PyStr) (opening : PyStr)
      (keys : OnlyKeys [py!"segment_group", py!"opening_segment", py!"sub_hierarchy"] d)
      (segmentGroup : GivenOrNull IsText (dictGet py!"segment_group" d) key)
      (openingSegment : Given IsText (dictGet py!"opening_segment" d) opening)
      (sub : dictGet py!"sub_hierarchy" d = none) : Refused (.hierarchy (.obj d)) .typeError

/-- the items of the array under a key, none if there is no array -/
def arrayAt (key : PyStr) : Json → List Json
  | .obj d => match dictGet key d with
    | some (.arr js) => js
    | _ => []
  | _ => []

/-- the value under a key -/
def memberAt (key : PyStr) : Json → List Json
  | .obj d => (dictGet key d).toList
  | _ => []

/-- a data element: the entries of its value pool, then the data element -/
def dataElementParts (j : Json) : List Part := (arrayAt py!"value_pool" j).map .entry ++ [.dataElement j]

/-- a segment: its data elements, then the segment -/
def segmentParts (j : Json) : List Part := (arrayAt py!"data_elements" j).flatMap dataElementParts ++ [.segment j]

/-- the items of an array are smaller than the object that contains it -/
theorem arrayAt_lt (key : PyStr) (j i : Json) (h : i ∈ arrayAt key j) : sizeOf i < sizeOf j := by
  have mem : ∀ (d : List (PyStr × Json)) (v : Json), dictGet key d = some v → (key, v) ∈ d := by
    intro d v
    induction d with
    | nil => intro h; cases h
    | cons p d ih =>
      obtain ⟨k, w⟩ := p
      intro h
      rw [dictGet] at h
      split at h
      · next hk => cases h; subst hk; exact List.mem_cons_self ..
      · exact List.mem_cons_of_mem _ (ih h)
  unfold arrayAt at h
  split at h
  · rename_i d
    split at h
    · next js hg =>
      have h1 := List.sizeOf_lt_of_mem (mem d _ hg)
      have h2 := List.sizeOf_lt_of_mem h
      simp only [Prod.mk.sizeOf_spec, Json.arr.sizeOf_spec, Json.obj.sizeOf_spec] at h1 ⊢
      omega
    · cases h
  · cases h

/-- a group: its segments, the groups in it, then the group -/
def groupParts (j : Json) : List Part :=
  (arrayAt py!"segments" j).flatMap segmentParts ++
    ((arrayAt py!"segment_groups" j).attach.flatMap fun i => groupParts i.1) ++ [.group j]
termination_by sizeOf j
decreasing_by exact arrayAt_lt _ _ _ i.2

/-- a hierarchy: the hierarchies in it, then the hierarchy -/
def hierarchyParts (j : Json) : List Part :=
  ((arrayAt py!"sub_hierarchy" j).attach.flatMap fun i => hierarchyParts i.1) ++ [.hierarchy j]
termination_by sizeOf j
decreasing_by exact arrayAt_lt _ _ _ i.2

/-- a flat AHB: the meta information, the lines, then the AHB -/
def flatParts (j : Json) : List Part := (memberAt py!"meta" j).map .info ++ (arrayAt py!"lines" j).map .line ++ [.flat j]

/-- a deep AHB: the meta information, the groups, then the AHB -/
def deepParts (j : Json) : List Part := (memberAt py!"meta" j).map .info ++ (arrayAt py!"lines" j).flatMap groupParts ++ [.deep j]

/-- the first part that is refused is refused with the exception -/
def FirstRefused (ps : List Part) (e : Exc) : Prop :=
  ∃ before p after, ps = before ++ p :: after ∧ Refused p e ∧ ∀ q ∈ before, ∀ e', ¬ Refused q e'

/-- no part is refused -/
def NoneRefused (ps : List Part) : Prop := ∀ p ∈ ps, ∀ e, ¬ Refused p e

end Verif
