import Verif.Model.PublishedSchema
import Verif.Model.Schema
import Verif.Spec.JsonSchema
/-!
# C70 dumped deep AHBs and the published JSON Schema
-/

namespace Verif

/-- **C70 (negation)** no deep AHB at all is dumped to something that conforms to the published schema: the schema neither knows
the key `maus_version` nor allows other keys. -/
theorem C70_never_conforms (a : DeepAhb) : ¬ Conforms publishedSchema publishedSchema a.dump := by
  rintro ⟨n, h⟩
  match n, h with
  | 0, h => simp [conformsWithin] at h
  | 1, h => simp [conformsWithin, publishedSchema, refTarget, dictGet, keywordDict, DeepAhb.dump] at h
  | 2, h => simp [conformsWithin, publishedSchema, refTarget, dictGet, keywordDict, DeepAhb.dump] at h
  | 3, h => simp [conformsWithin, publishedSchema, refTarget, dictGet, keywordDict, DeepAhb.dump] at h
  | n + 4, h =>
    simp [conformsWithin, publishedSchema, refTarget, dictGet, keywordDict, DeepAhb.dump, AhbMetaInformation.dump] at h

/-- **C70 (negation)** the same holds for every segment: the schema does not know the key `segment_id`. -/
theorem C70_no_segment_conforms (s : Segment) : ¬ ConformsTo publishedSchema py!"SegmentSchema" s.dump := by
  rintro ⟨schema, hs, n, h⟩
  have hs' : schema = ((keywordDict (dictGet py!"definitions" (keywordDict (some publishedSchema)))).find? fun p =>
      p.1 = py!"SegmentSchema").elim .null (·.2) := by
    simp [refTarget, publishedSchema, dictGet, keywordDict] at hs
    rw [← hs]
    rfl
  subst hs'
  cases n with
  | zero => simp [conformsWithin] at h
  | succ n => simp [conformsWithin, publishedSchema, dictGet, keywordDict, Segment.dump] at h

/-- **C70 (negation)** and for every data element: the schema expects it to be wrapped in `free_text` or `value_pool`. -/
theorem C70_no_data_element_conforms (e : DataElement) :
    ¬ ConformsTo publishedSchema py!"_FreeTextOrValuePoolSchema" e.dump := by
  rintro ⟨schema, hs, n, h⟩
  have hs' : schema = ((keywordDict (dictGet py!"definitions" (keywordDict (some publishedSchema)))).find? fun p =>
      p.1 = py!"_FreeTextOrValuePoolSchema").elim .null (·.2) := by
    simp [refTarget, publishedSchema, dictGet, keywordDict] at hs
    rw [← hs]
    rfl
  subst hs'
  cases n with
  | zero => simp [conformsWithin] at h
  | succ n => simp [conformsWithin, publishedSchema, dictGet, keywordDict, DataElement.dump, DataElement.dumpBase] at h

/-- **C70 (partial)** every value pool entry conforms. Missing: everything else, as it is false of the code. -/
theorem C70_entries_partial (e : ValuePoolEntry) : ConformsTo publishedSchema py!"ValuePoolEntrySchema" e.dump := by
  refine ⟨_, rfl, 2, ?_⟩
  simp [conformsWithin, dictGet, keywordDict, ValuePoolEntry.dump, typeHolds, enumHolds, requiredHolds, Json.hasType]

/-- the schema is not void: a document that conforms -/
def exConforming : Json :=
  .obj [(py!"meta", .obj [(py!"pruefidentifikator", .str py!"11042")]),
    (py!"lines", .arr [.obj [(py!"discriminator", .str py!"d"), (py!"ahb_expression", .str py!"X"),
      (py!"segments", .arr [.obj [(py!"discriminator", .str py!"s"), (py!"ahb_expression", .str py!"X"),
        (py!"data_elements", .arr [.obj [(py!"free_text", .obj [(py!"discriminator", .str py!"e"),
          (py!"data_element_id", .str py!"1234"), (py!"ahb_expression", .str py!"X")])]])]])]])]

example : Conforms publishedSchema publishedSchema exConforming := ⟨20, by decide +kernel⟩

/-- **C70 (negation)** conversely a document that conforms to the published schema need not be accepted by the loader. -/
theorem C70_conforming_not_loadable :
    ∃ j, Conforms publishedSchema publishedSchema j ∧ DeepAhb.load j = .error .validationError :=
  ⟨exConforming, ⟨20, by decide +kernel⟩, by rfl⟩

end Verif
