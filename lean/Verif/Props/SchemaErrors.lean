import Verif.Proofs.SchemaErrors
/-!
# C87: the exceptions of loading, exactly

`Spec/SchemaErrors.lean` lists the objects of a document in the order in which they are built (`flatParts`, `deepParts`,
`hierarchyParts`: nested objects first) and says which of them are refused although their keys and values are as documented
(`Refused`).
-/

namespace Verif

/-- **C87** `FlatAnwendungshandbuchSchema().load`: the first object that is refused determines the exception, even if something else
in the document is not as documented; otherwise a document that describes no flat AHB gives a `ValidationError`. -/
theorem C87_flat_ahb (j : Json) :
    (∀ e, e ≠ .validationError → (FlatAhb.load j = .error e ↔ FirstRefused (flatParts j) e)) ∧
    (FlatAhb.load j = .error .validationError ↔ (∀ f, ¬ DescribesFlat j f) ∧ NoneRefused (flatParts j)) :=
  ⟨fun e he => by rw [← FlatAhb.raises j e]; exact ⟨fun h => ⟨h, he⟩, fun h => h.1⟩,
    RaisesFirst.validationError FlatAhb.raises FlatAhb.load_iff j⟩

/-- **C87** `DeepAnwendungshandbuchSchema().load`, at every depth -/
theorem C87_deep_ahb (j : Json) :
    (∀ e, e ≠ .validationError → (DeepAhb.load j = .error e ↔ FirstRefused (deepParts j) e)) ∧
    (DeepAhb.load j = .error .validationError ↔ (∀ a, ¬ DescribesDeep j a) ∧ NoneRefused (deepParts j)) :=
  ⟨fun e he => by rw [← DeepAhb.raises j e]; exact ⟨fun h => ⟨h, he⟩, fun h => h.1⟩,
    RaisesFirst.validationError DeepAhb.raises DeepAhb.load_iff j⟩

/-- **C87** `SegmentGroupHierarchySchema().load`, at every depth -/
theorem C87_hierarchy (j : Json) :
    (∀ e, e ≠ .validationError → (Sgh.load j = .error e ↔ FirstRefused (hierarchyParts j) e)) ∧
    (Sgh.load j = .error .validationError ↔ (∀ s, ¬ DescribesHierarchy j s) ∧ NoneRefused (hierarchyParts j)) :=
  ⟨fun e he => by rw [← Sgh.raises j e]; exact ⟨fun h => ⟨h, he⟩, fun h => h.1⟩,
    RaisesFirst.validationError Sgh.raises Sgh.load_iff j⟩

/-- a hierarchy is only ever refused because a key `sub_hierarchy` is missing -/
theorem C87_hierarchy_only_missing (j : Json) (e : Exc) (h : Sgh.load j = .error e) (he : e ≠ .validationError) :
    e = .typeError ∧ ∃ d, .hierarchy (.obj d) ∈ hierarchyParts j ∧ dictGet py!"sub_hierarchy" d = none := by
  obtain ⟨before, p, after, hps, hr, _⟩ := ((C87_hierarchy j).1 e he).1 h
  have hall : ∀ n, ∀ j : Json, sizeOf j < n → ∀ q ∈ hierarchyParts j, ∃ i, q = .hierarchy i := by
    intro n
    induction n with
    | zero => intro j h; omega
    | succ n ih =>
      intro j hn q hq
      rw [hierarchyParts_eq, List.mem_append, List.mem_singleton] at hq
      rcases hq with hq | rfl
      · obtain ⟨i, hi, hq⟩ := List.mem_flatMap.1 hq
        exact ih i (by have := arrayAt_lt _ _ _ hi; omega) q hq
      · exact ⟨j, rfl⟩
  have hp : p ∈ hierarchyParts j := by rw [hps]; simp
  obtain ⟨i, rfl⟩ := hall _ j (Nat.lt_succ_self _) p hp
  cases hr with
  | noSubHierarchy d key opening keys f1 f2 f3 => exact ⟨rfl, d, hp, f3⟩

/-- a blank direction in the meta information of a deep AHB -/
def exBlankDirection : Json :=
  .obj [(py!"pruefidentifikator", .str py!"11042"), (py!"direction", .str py!" ")]

/-- meta information without `pruefidentifikator` -/
def exNoPruefi : Json := .obj [(py!"direction", .str py!"MSB an NB")]

/-- a group whose only segment has a number instead of a data element -/
def exNumberGroup : Json :=
  .obj [(py!"discriminator", .str py!"SG4"), (py!"ahb_expression", .str py!"Muss"),
    (py!"segments", .arr [.obj [(py!"discriminator", .str py!"SG4->DTM"), (py!"ahb_expression", .str py!"Muss"),
      (py!"data_elements", .arr [.num 2380])]])]

/-- the meta information is not as documented, but the `TypeError` of the data element that is a number comes first -/
example : FirstRefused (deepParts (.obj [(py!"meta", exNoPruefi), (py!"lines", .arr [exNumberGroup])])) .typeError :=
  ((C87_deep_ahb _).1 _ (by rintro ⟨⟩)).1 (by decide +kernel)

/-- here the meta information is refused before the group is looked at -/
example : FirstRefused (deepParts (.obj [(py!"meta", exBlankDirection), (py!"lines", .arr [exNumberGroup])])) .valueError :=
  ((C87_deep_ahb _).1 _ (by rintro ⟨⟩)).1 (by decide +kernel)

/-- `null` is not a documented value of `meta` (`ValidationError`), while a missing key is a `TypeError` -/
example : NoneRefused (flatParts (.obj [(py!"meta", .null), (py!"lines", .arr [])])) ∧
    FirstRefused (flatParts (.obj [(py!"lines", .arr [])])) .typeError :=
  ⟨((C87_flat_ahb _).2.1 (by decide +kernel)).2, ((C87_flat_ahb _).1 _ (by rintro ⟨⟩)).1 (by decide +kernel)⟩

/-- a group whose only segment has a data element with another value type -/
def exTypeGroup (valueType : PyStr) : Json :=
  .obj [(py!"discriminator", .str py!"SG4"), (py!"ahb_expression", .str py!"Muss"),
    (py!"segments", .arr [.obj [(py!"discriminator", .str py!"SG4->DTM"), (py!"ahb_expression", .str py!"Muss"),
      (py!"data_elements", .arr [.obj [(py!"discriminator", .null), (py!"data_element_id", .str py!"2380"),
        (py!"value_type", .str valueType), (py!"ahb_expression", .str py!"X")]])]])]

/-- a value type that is not known is a `ValidationError`, but the name of a method of `str` is a `TypeError` -/
example : NoneRefused (deepParts (.obj [(py!"meta", exNoPruefi), (py!"lines", .arr [exTypeGroup py!"UPPER"])])) ∧
    FirstRefused (deepParts (.obj [(py!"meta", exNoPruefi), (py!"lines", .arr [exTypeGroup py!"upper"])])) .typeError :=
  ⟨((C87_deep_ahb _).2.1 (by decide +kernel)).2, ((C87_deep_ahb _).1 _ (by rintro ⟨⟩)).1 (by decide +kernel)⟩

/-- the inner hierarchy is built first and has no key `sub_hierarchy`; the outer one has an unknown key -/
example : FirstRefused (hierarchyParts (.obj [(py!"segment_group", .null), (py!"opening_segment", .str py!"UNH"), (py!"comment", .null),
      (py!"sub_hierarchy", .arr [.obj [(py!"segment_group", .str py!"SG1"), (py!"opening_segment", .str py!"RFF")]])])) .typeError :=
  ((C87_hierarchy _).1 _ (by rintro ⟨⟩)).1 rfl

end Verif
