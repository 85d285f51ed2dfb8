import Verif.Proofs.Schema
import Verif.Props.Deep
import Verif.Props.Changes
/-!
# Properties C38–C40: dumping and loading
-/

namespace Verif

/-! ## C38 -/

/-- **C38** loading the dump of a flat AHB gives back the same flat AHB. -/
theorem C38_flat_round_trip (f : FlatAhb) (h : f.Constructed) : FlatAhb.load f.dump = .ok f := by
  obtain ⟨hf, hm, hl⟩ := h
  unfold FlatAhb.load FlatAhb.dump
  rw [loadHandbook_dump AhbLine.load FlatAhb.new AhbLine.dump (fun _ => true) (fun x => x) f.ahbMeta f.lines hm
    (fun l hl' => by simpa using AhbLine.load_dump l (hl l hl'))]
  simpa using hf

/-- an example with a UUID -/
def exFlatSchema : FlatAhb :=
  { ahbMeta := { pruefidentifikator := py!"11042", description := some py!"Anmeldung" },
    lines := exLines.map fun l => { l with guid := some 0x6fd1a3b2c4d5e6f708192a3b4c5d6e7f } }

example : exFlatSchema.Constructed := by
  refine ⟨by decide +kernel, by decide +kernel, ?_⟩
  have h : ∀ l ∈ exFlatSchema.lines, AhbLine.new l = .ok l ∧ l.guid = some 0x6fd1a3b2c4d5e6f708192a3b4c5d6e7f := by
    decide +kernel
  intro l hl
  obtain ⟨h1, h2⟩ := h l hl
  refine ⟨h1, fun g hg => ?_⟩
  rw [h2] at hg
  cases hg
  decide
example : FlatAhb.load exFlatSchema.dump = .ok exFlatSchema := by decide +kernel
example : uuidToStr 0x6fd1a3b2c4d5e6f708192a3b4c5d6e7f = py!"6fd1a3b2-c4d5-e6f7-0819-2a3b4c5d6e7f" := by decide +kernel

/-! ## C39 -/

/-- **C39 (exact)** loading the dump of a deep AHB gives the same deep AHB without line indices if none of the fields whose
schema rejects `null` is `None`; otherwise it fails with a `ValidationError`. -/
theorem C39_deep_round_trip_exact (a : DeepAhb) (h : a.Constructed) :
    (a.Complete → DeepAhb.load a.dump = .ok a.resetAhbLineIndex) ∧
    (¬ a.Complete → DeepAhb.load a.dump = .error .validationError) := by
  have hall : AllConstructed a.lines := ⟨h.groups, h.segments, h.dataElements⟩
  have key : DeepAhb.load a.dump = if a.lines.all SegmentGroup.complete then .ok a.resetAhbLineIndex
      else .error .validationError := by
    unfold DeepAhb.load DeepAhb.dump
    rw [loadHandbook_dump SegmentGroup.load _ SegmentGroup.dump SegmentGroup.complete SegmentGroup.resetAhbLineIndex
      a.ahbMeta a.lines h.info (fun g hg => SegmentGroup.load_dump g (hall.mono (by simpa using hg)))]
    rfl
  have hc : a.lines.all SegmentGroup.complete = true ↔ a.Complete := by
    rw [all_complete_iff]
    exact ⟨fun ⟨h1, h2, h3⟩ => ⟨h1, h2, h3⟩, fun ⟨h1, h2, h3⟩ => ⟨h1, h2, h3⟩⟩
  rw [key]
  exact ⟨fun h => by rw [if_pos (hc.2 h)], fun h => by rw [if_neg (fun h' => h (hc.1 h'))]⟩

/-- **C39 (partial: only complete deep AHBs)** loading the dump of a deep AHB gives back the same deep AHB without line
indices, provided that no discriminator of a group or segment, no section name and no value type is `None`. The full
statement is false, see `C39_round_trip_fails`. -/
theorem C39_deep_round_trip_partial (a : DeepAhb) (h : a.Constructed) (hc : a.Complete) :
    ∃ b, DeepAhb.load a.dump = .ok b ∧ b.ahbMeta = a.ahbMeta ∧ SegmentGroup.SameButIndexList b.lines a.lines ∧
      ∀ x ∈ documentOrder b.lines, ∀ i, x.lineIndex = some i → i = none :=
  ⟨a.resetAhbLineIndex, (C39_deep_round_trip_exact a h).1 hc, rfl, (C27_idempotent a).2.2, C27_no_index a⟩

/-- `exDeep` with a section name everywhere -/
def exDeepComplete : DeepAhb :=
  { ahbMeta := { pruefidentifikator := py!"11042" },
    lines := [.mk (some py!"root") py!"X" (some 0) (some [exSeg1]) (some [.mk (some py!"SG2") py!"Muss" (some 2) none
      (some [.mk (some py!"SG3") py!"Kann" (some 3) (some [{ exSeg2 with sectionName := some py!"Partner" }]) none])])] }

theorem constructed_of_lists (a : DeepAhb) (h0 : AhbMetaInformation.new a.ahbMeta = .ok a.ahbMeta)
    (h1 : ∀ g ∈ a.findSegmentGroups (fun _ => true), g.Constructed)
    (h2 : ∀ s ∈ a.findSegments (fun _ => true) (fun _ => true), s.Constructed ∧ ∀ de ∈ s.dataElements, de.Constructed) :
    a.Constructed where
  info := h0
  groups g hg := h1 g ((mem_allGroups a g).2 hg)
  segments s hs := (h2 s ((mem_allSegments a s).2 hs)).1
  dataElements de := fun ⟨s, hs, hde⟩ => (h2 s ((mem_allSegments a s).2 hs)).2 de hde

theorem complete_of_lists (a : DeepAhb)
    (h1 : ∀ g ∈ a.findSegmentGroups (fun _ => true), g.discriminator ≠ none)
    (h2 : ∀ s ∈ a.findSegments (fun _ => true) (fun _ => true), (s.discriminator ≠ none ∧ s.sectionName ≠ none) ∧
      ∀ de ∈ s.dataElements, de.valueType ≠ none) : a.Complete where
  groups g hg := h1 g ((mem_allGroups a g).2 hg)
  segments s hs := (h2 s ((mem_allSegments a s).2 hs)).1
  dataElements de := fun ⟨s, hs, hde⟩ => (h2 s ((mem_allSegments a s).2 hs)).2 de hde

instance (de : DataElement) : Decidable de.Constructed := by
  unfold DataElement.Constructed ValuePoolEntry.Constructed
  split <;> infer_instance
instance (s : Segment) : Decidable s.Constructed := by unfold Segment.Constructed; infer_instance
instance (g : SegmentGroup) : Decidable g.Constructed := by unfold SegmentGroup.Constructed; infer_instance

theorem exDeepComplete_constructed : exDeepComplete.Constructed :=
  constructed_of_lists _ (by decide +kernel) (by decide +kernel) (by decide +kernel)
example : exDeepComplete.Complete := complete_of_lists _ (by decide +kernel) (by decide +kernel)
example : DeepAhb.load exDeepComplete.dump = .ok exDeepComplete.resetAhbLineIndex := by decide +kernel

/-- **C39 is false in general**: a deep AHB whose second segment has no section name (this is what `to_deep_ahb` produces
from lines without section name) cannot be loaded from its own dump. -/
theorem C39_round_trip_fails :
    ∃ a : DeepAhb, a.Constructed ∧ DeepAhb.load a.dump = .error .validationError :=
  ⟨exDeep, constructed_of_lists _ (by decide +kernel) (by decide +kernel) (by decide +kernel), by decide +kernel⟩

/-- **C39 is false in general**: the same for a value type `None` and for the discriminator `None`. -/
theorem C39_round_trip_fails' :
    (∃ de : DataElement, de.Constructed ∧ de.valueType = none ∧ DataElement.load de.dump = .error .validationError) ∧
    ∃ g : SegmentGroup, g.Constructed ∧ g.discriminator = none ∧ SegmentGroup.load g.dump = .error .validationError :=
  ⟨⟨{ exTextDe with valueType := none }, by decide +kernel, rfl, by decide +kernel⟩,
    ⟨.mk none py!"Muss" none none none, by decide +kernel, rfl, by decide +kernel⟩⟩

/-- a document whose only data element has the value type `__text_signature__` -/
def exSignatureDocument : Json :=
  .obj [(py!"meta", .obj [(py!"pruefidentifikator", .str py!"11042")]),
    (py!"lines", .arr [.obj [(py!"discriminator", .str py!"root"), (py!"ahb_expression", .str py!"Muss"),
      (py!"segments", .arr [.obj [(py!"discriminator", .str py!"UNH"), (py!"ahb_expression", .str py!"Muss"),
        (py!"section_name", .str py!"Kopf"),
        (py!"data_elements", .arr [.obj [(py!"discriminator", .null), (py!"data_element_id", .str py!"0062"),
          (py!"value_type", .str py!"__text_signature__"), (py!"ahb_expression", .str py!"X")]])]])]])]

/-- **C39 is false in general** even for deep AHBs that have just been loaded: the value type may be written as the name of an
attribute of the enum that is `None`, but `None` is dumped as `null`, which is not accepted. -/
theorem C39_loaded_fails :
    ∃ a : DeepAhb, DeepAhb.load exSignatureDocument = .ok a ∧ (∃ de, DataElementOccurs a.lines de ∧ de.valueType = none) ∧
      (∀ s, SegmentOccurs a.lines s → s.sectionName ≠ none) ∧ DeepAhb.load a.dump = .error .validationError := by
  obtain ⟨a, ha⟩ : ∃ a, DeepAhb.load exSignatureDocument = .ok a := ⟨_, rfl⟩
  have hl : ∀ s ∈ a.findSegments (fun _ => true) (fun _ => true), s.sectionName ≠ none := by cases ha; decide +kernel
  refine ⟨a, ha, ?_, fun s hs => hl s ((mem_allSegments a s).2 hs), ?_⟩
  · have : ∃ s ∈ a.findSegments (fun _ => true) (fun _ => true), ∃ de ∈ s.dataElements, de.valueType = none := by
      cases ha; decide +kernel
    obtain ⟨s, hs, de, hde, h⟩ := this
    exact ⟨de, ⟨s, (mem_allSegments a s).1 hs, hde⟩, h⟩
  · cases ha; decide +kernel

/-! ## C40 -/

/-- **C40** loading the dump of a segment group hierarchy gives back the same hierarchy. -/
theorem C40_sgh_round_trip (s : Sgh) : Sgh.load s.dump = .ok s := Sgh.load_dump s

example : ∃ s, Sgh.load exSgh.dump = .ok s ∧ s.flattened = exSgh.flattened ∧ s.flattened.length = 7 :=
  ⟨exSgh, C40_sgh_round_trip exSgh, rfl, by decide⟩

/-! ## C63 -/

/-- **C63** whatever `FlatAnwendungshandbuchSchema().load` returns has passed all validators. -/
theorem C63_loaded_flat_is_valid (j : Json) (f : FlatAhb) (h : FlatAhb.load j = .ok f) : f.Constructed :=
  flat_load_constructed j f h

/-- **C63** whatever `DeepAnwendungshandbuchSchema().load` returns has passed all validators at every depth, carries no line
index, and all its groups and segments have a discriminator. -/
theorem C63_loaded_deep_is_valid (j : Json) (a : DeepAhb) (h : DeepAhb.load j = .ok a) :
    a.Constructed ∧ (∀ x ∈ documentOrder a.lines, ∀ i, x.lineIndex = some i → i = none) ∧
    (∀ g, GroupOccurs a.lines g → g.discriminator ≠ none) ∧ ∀ s, SegmentOccurs a.lines s → s.discriminator ≠ none := by
  obtain ⟨hm, hg⟩ := deep_load_valid j a h
  refine ⟨⟨hm, fun g h => (hg g h).1, fun s ⟨g, h, hs⟩ => ((hg g h).2.2.2 s hs).1,
    fun de ⟨s, ⟨g, h, hs⟩, hde⟩ => ((hg g h).2.2.2 s hs).2.2.2 de hde⟩, ?_, fun g h => (hg g h).2.1,
    fun s ⟨g, h, hs⟩ => ((hg g h).2.2.2 s hs).2.1⟩
  intro x hx i hi
  obtain ⟨g, hgo, hx | ⟨s, hs, hx⟩⟩ := (mem_documentOrder_iff _ _).1 hx
  · rw [hx] at hi
    simp only [SegmentGroup.header, DocItem.lineIndex, Option.some.injEq] at hi
    rw [← hi]; exact (hg g hgo).2.2.1
  · simp only [Segment.docItems, Segment.header, List.mem_cons, List.mem_map] at hx
    rcases hx with hx | ⟨de, _, hx⟩
    · rw [hx] at hi
      simp only [DocItem.lineIndex, Option.some.injEq] at hi
      rw [← hi]; exact ((hg g hgo).2.2.2 s hs).2.2.1
    · rw [← hx] at hi
      simp [DocItem.lineIndex] at hi

/-- there is something to load -/
example : ∃ j a, DeepAhb.load j = .ok a ∧ a.lines ≠ [] := 
  ⟨exDeepComplete.dump, exDeepComplete.resetAhbLineIndex, by decide +kernel, by decide +kernel⟩

end Verif
