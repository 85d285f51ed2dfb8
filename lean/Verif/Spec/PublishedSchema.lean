import Verif.Model.Deep
import Verif.Py.Json
/-!
# Specification vocabulary: the documents that the published JSON Schema describes

`d` is the dictionary of a JSON object. Each object has a table of its fields: the key and what the value looks like.
-/

namespace Verif

/-- a JSON string -/
def IsString (j : Json) : Prop := ∃ s, j = .str s

/-- a JSON array with such items -/
def IsArrayOf (P : Json → Prop) (j : Json) : Prop := ∃ l, j = .arr l ∧ ∀ x ∈ l, P x

/-- the key is there -/
def HasKey (k : PyStr) (d : List (PyStr × Json)) : Prop := ∃ v, (k, v) ∈ d

/-- the name of a data type -/
def IsTypeName (j : Json) : Prop := j = .str py!"TEXT" ∨ j = .str py!"DATETIME" ∨ j = .str py!"VALUE_POOL"

/-- an entry of a value pool -/
inductive PublishedEntry : Json → Prop
  | mk {d : List (PyStr × Json)}
      (fields : ∀ k v, (k, v) ∈ d → (k = py!"ahb_expression" ∧ IsString v) ∨ (k = py!"meaning" ∧ IsString v) ∨ (k = py!"qualifier" ∧ IsString v))
      (required : HasKey py!"ahb_expression" d ∧ HasKey py!"meaning" d ∧ HasKey py!"qualifier" d) : PublishedEntry (.obj d)

/-- a free text -/
inductive PublishedFreeText : Json → Prop
  | mk {d : List (PyStr × Json)}
      (fields : ∀ k v, (k, v) ∈ d → (k = py!"ahb_expression" ∧ IsString v) ∨ (k = py!"data_element_id" ∧ IsString v) ∨
        (k = py!"discriminator" ∧ IsString v) ∨ (k = py!"entered_input" ∧ (IsString v ∨ v = .null)) ∨ (k = py!"value_type" ∧ IsTypeName v))
      (required : HasKey py!"ahb_expression" d ∧ HasKey py!"data_element_id" d ∧ HasKey py!"discriminator" d) : PublishedFreeText (.obj d)

/-- a value pool: it has no entered input -/
inductive PublishedPool : Json → Prop
  | mk {d : List (PyStr × Json)}
      (fields : ∀ k v, (k, v) ∈ d → (k = py!"data_element_id" ∧ IsString v) ∨ (k = py!"discriminator" ∧ IsString v) ∨
        (k = py!"value_pool" ∧ IsArrayOf PublishedEntry v) ∨ (k = py!"value_type" ∧ IsTypeName v))
      (required : HasKey py!"data_element_id" d ∧ HasKey py!"discriminator" d ∧ HasKey py!"value_pool" d) : PublishedPool (.obj d)

/-- a data element: a free text or a value pool (or none, or both), each one below a key of its own -/
inductive PublishedDataElement : Json → Prop
  | mk {d : List (PyStr × Json)}
      (fields : ∀ k v, (k, v) ∈ d → (k = py!"free_text" ∧ PublishedFreeText v) ∨ (k = py!"value_pool" ∧ PublishedPool v)) :
      PublishedDataElement (.obj d)

/-- a segment: it has no id -/
inductive PublishedSegment : Json → Prop
  | mk {d : List (PyStr × Json)}
      (fields : ∀ k v, (k, v) ∈ d → (k = py!"ahb_expression" ∧ IsString v) ∨ (k = py!"data_elements" ∧ IsArrayOf PublishedDataElement v) ∨
        (k = py!"discriminator" ∧ IsString v) ∨ (k = py!"section_name" ∧ IsString v))
      (required : HasKey py!"ahb_expression" d ∧ HasKey py!"discriminator" d) : PublishedSegment (.obj d)

/-- a segment group -/
inductive PublishedGroup : Json → Prop
  | mk {d : List (PyStr × Json)}
      (fields : ∀ k v, (k, v) ∈ d → (k = py!"ahb_expression" ∧ IsString v) ∨ (k = py!"discriminator" ∧ IsString v) ∨
        (k = py!"segment_groups" ∧ (v = .null ∨ ∃ l, v = .arr l)) ∨ (k = py!"segments" ∧ (v = .null ∨ IsArrayOf PublishedSegment v)))
      (groups : ∀ l, (py!"segment_groups", .arr l) ∈ d → ∀ x ∈ l, PublishedGroup x)
      (required : HasKey py!"ahb_expression" d ∧ HasKey py!"discriminator" d) : PublishedGroup (.obj d)

/-- the meta information: nothing but the pruefidentifikator -/
inductive PublishedMeta : Json → Prop
  | mk {d : List (PyStr × Json)} (fields : ∀ k v, (k, v) ∈ d → k = py!"pruefidentifikator" ∧ IsString v)
      (required : HasKey py!"pruefidentifikator" d) : PublishedMeta (.obj d)

/-- a deep AHB -/
inductive PublishedDeep : Json → Prop
  | mk {d : List (PyStr × Json)}
      (fields : ∀ k v, (k, v) ∈ d → (k = py!"lines" ∧ IsArrayOf PublishedGroup v) ∨ (k = py!"meta" ∧ PublishedMeta v)) : PublishedDeep (.obj d)

/-- the segment belongs to the group or to a group below it -/
inductive SegmentOf (s : Segment) : SegmentGroup → Prop
  | here {g : SegmentGroup} {ss : List Segment} (h : g.segments = some ss) (hs : s ∈ ss) : SegmentOf s g
  | deeper {g g' : SegmentGroup} {gs : List SegmentGroup} (h : g.segmentGroups = some gs) (hg : g' ∈ gs) (hs : SegmentOf s g') : SegmentOf s g

end Verif
