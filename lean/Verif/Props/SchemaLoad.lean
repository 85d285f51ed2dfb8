import Verif.Proofs.SchemaLoad
/-!
# C82: exactly the documented JSON objects are loaded

`Spec/SchemaLoad.lean` says key by key which document describes which object: which keys may be missing, which may be `null`, which
conversions are made (UUIDs, integers given as strings, names of data types), that no other keys are allowed and that the
constructors accept the result.
-/

namespace Verif

/-- **C82** `FlatAnwendungshandbuchSchema().load` returns a flat AHB iff the document describes it. -/
theorem C82_flat_ahb (j : Json) (f : FlatAhb) : FlatAhb.load j = .ok f ↔ DescribesFlat j f := FlatAhb.load_iff j f

/-- **C82** `DeepAnwendungshandbuchSchema().load` returns a deep AHB iff the document describes it, at every depth. -/
theorem C82_deep_ahb (j : Json) (a : DeepAhb) : DeepAhb.load j = .ok a ↔ DescribesDeep j a := DeepAhb.load_iff j a

/-- **C82** `SegmentGroupHierarchySchema().load` returns a hierarchy iff the document describes it, at every depth. -/
theorem C82_hierarchy (j : Json) (s : Sgh) : Sgh.load j = .ok s ↔ DescribesHierarchy j s := Sgh.load_iff j s

/-- a document that none of the dumps produces: keys in another order and missing keys, `null`, a UUID in braces and an index given
as a string -/
def exForeignFlat : Json :=
  .obj [(py!"lines", .arr [.obj [(py!"index", .str py!" 7 "), (py!"guid", .str py!"{12345678123456781234567812345678}"),
      (py!"name", .null), (py!"segment_group_key", .str py!"SG4"), (py!"ahb_expression", .str py!"Muss")]]),
    (py!"meta", .obj [(py!"pruefidentifikator", .str py!"11042")])]

example : DescribesFlat exForeignFlat
    { ahbMeta := { pruefidentifikator := py!"11042" },
      lines := [{ index := some 7, guid := some 0x12345678123456781234567812345678, segmentGroupKey := some py!"SG4",
                  ahbExpression := some py!"Muss" }] } :=
  (C82_flat_ahb _ _).1 (by decide +kernel)

/-- the integer part of a number is the index; infinity has none -/
example : DescribesFlat (.obj [(py!"lines", .arr [.obj [(py!"index", .float (.finite false 7 (-1)))]]),
      (py!"meta", .obj [(py!"pruefidentifikator", .str py!"11042")])])
    { ahbMeta := { pruefidentifikator := py!"11042" }, lines := [{ index := some 3 }] } :=
  (C82_flat_ahb _ _).1 (by decide +kernel)
example : FlatAhb.load (.obj [(py!"lines", .arr [.obj [(py!"index", .float (.inf false))]]),
      (py!"meta", .obj [(py!"pruefidentifikator", .str py!"11042")])]) = .error .validationError := by decide +kernel

/-- with one more key, or with a boolean as index, the same document is refused -/
example : (∀ f, ¬ DescribesFlat (.obj [(py!"lines", .arr []), (py!"meta", .obj [(py!"pruefidentifikator", .str py!"11042")]),
      (py!"version", .null)]) f) ∧
    ∀ f, ¬ DescribesFlat (.obj [(py!"lines", .arr [.obj [(py!"index", .bool true)]]),
      (py!"meta", .obj [(py!"pruefidentifikator", .str py!"11042")])]) f := by
  have h1 : FlatAhb.load (.obj [(py!"lines", .arr []), (py!"meta", .obj [(py!"pruefidentifikator", .str py!"11042")]),
      (py!"version", .null)]) = .error .validationError := by decide +kernel
  have h2 : FlatAhb.load (.obj [(py!"lines", .arr [.obj [(py!"index", .bool true)]]),
      (py!"meta", .obj [(py!"pruefidentifikator", .str py!"11042")])]) = .error .validationError := by decide +kernel
  refine ⟨fun f h => ?_, fun f h => ?_⟩
  · have := (C82_flat_ahb _ _).2 h
    rw [h1] at this
    cases this
  · have := (C82_flat_ahb _ _).2 h
    rw [h2] at this
    cases this

/-- a group in a group; `segments` and the inner `segment_groups` are missing, the version is `null` -/
def exForeignDeep : Json :=
  .obj [(py!"meta", .obj [(py!"pruefidentifikator", .str py!"11042"), (py!"maus_version", .null)]),
    (py!"lines", .arr [.obj [(py!"discriminator", .str py!"SG4"), (py!"ahb_expression", .str py!"Muss"),
      (py!"segment_groups", .arr [.obj [(py!"ahb_expression", .str py!"Kann"), (py!"discriminator", .str py!"SG5"),
        (py!"segments", .null)]])]])]

example : DescribesDeep exForeignDeep
    { ahbMeta := { pruefidentifikator := py!"11042", mausVersion := none },
      lines := [.mk (some py!"SG4") py!"Muss" none none (some [.mk (some py!"SG5") py!"Kann" none none none])] } :=
  (C82_deep_ahb _ _).1 (by decide +kernel)

example : DescribesHierarchy (.obj [(py!"sub_hierarchy", .arr [.obj [(py!"segment_group", .str py!"SG1"), (py!"sub_hierarchy", .null),
      (py!"opening_segment", .str py!"RFF")]]), (py!"opening_segment", .str py!"UNH"), (py!"segment_group", .null)])
    (.mk none py!"UNH" (some [.mk (some py!"SG1") py!"RFF" none])) :=
  (C82_hierarchy _ _).1 rfl

end Verif
