import Verif.Spec.PublishedSchema
import Verif.Props.JsonSchema
import Verif.Props.SchemaLoad
/-!
# C70 what the published JSON Schema describes
-/

namespace Verif

/-! ## the equations of conformance -/

/-- the keywords other than `$ref` -/
private def keywordsHold (root : Json) (n : Nat) (s : List (PyStr × Json)) (x : Json) : Bool :=
  typeHolds (dictGet py!"type" s) x && enumHolds (dictGet py!"enum" s) x &&
    match x with
    | .obj d =>
      requiredHolds (dictGet py!"required" s) d &&
      d.all fun p => match dictGet p.1 (keywordDict (dictGet py!"properties" s)) with
        | some t => conformsWithin root n t p.2
        | none => match dictGet py!"additionalProperties" s with
          | some (.bool false) => false
          | _ => true
    | .arr l => match dictGet py!"items" s with
      | some t => l.all fun y => conformsWithin root n t y
      | none => true
    | _ => true

private theorem within_ref {root : Json} {n : Nat} {s : List (PyStr × Json)} {x : Json} {r : PyStr} (hr : dictGet py!"$ref" s = some (.str r)) :
    conformsWithin root (n + 1) (.obj s) x = match refTarget root r with
      | some t => conformsWithin root n t x
      | none => false := by
  cases x <;> simp only [conformsWithin, hr] <;> rfl

private theorem within_other {root : Json} {n : Nat} {s : List (PyStr × Json)} {x : Json} (hr : ∀ r, dictGet py!"$ref" s ≠ some (.str r)) :
    conformsWithin root (n + 1) (.obj s) x = keywordsHold root n s x := by
  cases x <;> simp only [conformsWithin] <;> rfl

private theorem conformsWithin_mono (root : Json) : ∀ (n : Nat) (s x : Json), conformsWithin root n s x = true → conformsWithin root (n + 1) s x = true
  | 0, _, _, h => by simp [conformsWithin] at h
  | n + 1, s, x, h => by
    have ih := conformsWithin_mono root n
    cases s with
    | obj s =>
      by_cases hr : ∃ r, dictGet py!"$ref" s = some (.str r)
      · obtain ⟨r, hr⟩ := hr
        rw [within_ref hr] at h ⊢
        cases ht : refTarget root r with
        | none => rw [ht] at h; cases h
        | some t => rw [ht] at h; exact ih _ _ h
      · have hr' : ∀ r, dictGet py!"$ref" s ≠ some (.str r) := fun r h => hr ⟨r, h⟩
        rw [within_other hr'] at h ⊢
        unfold keywordsHold at h ⊢
        · rw [Bool.and_eq_true] at h ⊢
          refine ⟨h.1, ?_⟩
          have h2 := h.2
          cases x with
          | obj d =>
            dsimp only at h2 ⊢
            rw [Bool.and_eq_true] at h2 ⊢
            refine ⟨h2.1, ?_⟩
            rw [List.all_eq_true] at *
            intro p hp
            have := h2.2 p hp
            revert this
            cases dictGet p.1 (keywordDict (dictGet py!"properties" s)) with
            | none => exact id
            | some t => exact ih _ _
          | arr l =>
            dsimp only at h2 ⊢
            revert h2
            cases dictGet py!"items" s with
            | none => exact id
            | some t =>
              dsimp only
              intro h2
              rw [List.all_eq_true] at *
              exact fun y hy => ih _ _ (h2 y hy)
          | _ => rfl
    | bool b => simpa [conformsWithin] using h
    | _ => simp [conformsWithin] at h

private theorem conformsWithin_le (root : Json) {n m : Nat} (hnm : n ≤ m) {s x : Json} (h : conformsWithin root n s x = true) :
    conformsWithin root m s x = true := by
  induction hnm with
  | refl => exact h
  | step _ ih => exact conformsWithin_mono root _ _ _ ih

private theorem conforms_all (root : Json) {α : Type} (s : α → Option Json) (f : α → Json) (l : List α)
    (h : ∀ y ∈ l, ∃ t, s y = some t ∧ Conforms root t (f y)) :
    ∃ n, ∀ y ∈ l, ∃ t, s y = some t ∧ conformsWithin root n t (f y) = true := by
  induction l with
  | nil => exact ⟨0, by simp⟩
  | cons a l ih =>
    obtain ⟨n, hn⟩ := ih fun y hy => h y (by simp [hy])
    obtain ⟨t, ht, m, hm⟩ := h a (by simp)
    refine ⟨max n m, fun y hy => ?_⟩
    rcases List.mem_cons.1 hy with rfl | hy
    · exact ⟨t, ht, conformsWithin_le root (Nat.le_max_right _ _) hm⟩
    · obtain ⟨t, ht, hc⟩ := hn y hy
      exact ⟨t, ht, conformsWithin_le root (Nat.le_max_left _ _) hc⟩

/-- a reference -/
private theorem conforms_ref {root : Json} {s : List (PyStr × Json)} {r : PyStr} {t : Json} (hr : dictGet py!"$ref" s = some (.str r))
    (ht : refTarget root r = some t) (x : Json) : Conforms root (.obj s) x ↔ Conforms root t x := by
  constructor
  · rintro ⟨n, h⟩
    cases n with
    | zero => simp [conformsWithin] at h
    | succ n =>
      rw [within_ref hr, ht] at h
      exact ⟨n, h⟩
  · rintro ⟨n, h⟩
    refine ⟨n + 1, ?_⟩
    rw [within_ref hr, ht]
    exact h

/-- an object with fixed keys -/
private theorem conforms_object {root : Json} {s : List (PyStr × Json)} {ps : List (PyStr × Json)} (hr : dictGet py!"$ref" s = none)
    (ht : dictGet py!"type" s = some (.str py!"object")) (he : dictGet py!"enum" s = none)
    (ha : dictGet py!"additionalProperties" s = some (.bool false)) (hp : dictGet py!"properties" s = some (.obj ps))
    (hn : (ps.map Prod.fst).Nodup) (x : Json) :
    Conforms root (.obj s) x ↔ ∃ d, x = .obj d ∧ (∀ k v, (k, v) ∈ d → ∃ q ∈ ps, k = q.1 ∧ Conforms root q.2 v) ∧
      requiredHolds (dictGet py!"required" s) d = true := by
  have hget : ∀ (k : PyStr) (t : Json), dictGet k ps = some t ↔ (k, t) ∈ ps := by
    intro k t
    clear hp
    induction ps with
    | nil => simp [dictGet]
    | cons q ps ih =>
      obtain ⟨k', t'⟩ := q
      simp only [List.map_cons, List.nodup_cons] at hn
      rw [dictGet]
      split
      · rename_i hk
        subst hk
        simp only [List.mem_cons, Prod.mk.injEq, true_and, Option.some.injEq]
        refine ⟨fun h => .inl h.symm, ?_⟩
        rintro (h | h)
        · exact h.symm
        · exact absurd (List.mem_map.2 ⟨_, h, rfl⟩) hn.1
      · rename_i hk
        rw [ih hn.2, List.mem_cons]
        refine ⟨.inr, ?_⟩
        rintro (h | h)
        · exact absurd (congrArg Prod.fst h).symm hk
        · exact h
  constructor
  · rintro ⟨n, h⟩
    cases n with
    | zero => simp [conformsWithin] at h
    | succ n =>
      rw [within_other (by simp [hr])] at h
      unfold keywordsHold at h
      rw [ht, he, Bool.and_eq_true, Bool.and_eq_true] at h
      cases x with
      | obj d =>
        have h2 := h.2
        dsimp only at h2
        rw [Bool.and_eq_true, List.all_eq_true] at h2
        refine ⟨d, rfl, fun k v hkv => ?_, h2.1⟩
        have h3 := h2.2 _ hkv
        rw [hp] at h3
        change (match dictGet k ps with | some t => _ | none => _) = _ at h3
        cases hk : dictGet k ps with
        | none => rw [hk, ha] at h3; cases h3
        | some t => rw [hk] at h3; exact ⟨_, (hget k t).1 hk, rfl, n, h3⟩
      | _ => simp [typeHolds, Json.hasType] at h
  · rintro ⟨d, rfl, h, hreq⟩
    obtain ⟨n, hn'⟩ := conforms_all root (fun p : PyStr × Json => dictGet p.1 ps) Prod.snd d fun p hp => by
      obtain ⟨q, hq, hk, hc⟩ := h p.1 p.2 hp
      exact ⟨q.2, (hget _ _).2 (by rw [hk]; exact hq), hc⟩
    refine ⟨n + 1, ?_⟩
    rw [within_other (by simp [hr])]
    unfold keywordsHold
    rw [ht, he, Bool.and_eq_true, Bool.and_eq_true, Bool.and_eq_true, List.all_eq_true]
    refine ⟨⟨by simp [typeHolds, Json.hasType], rfl⟩, hreq, fun p hp' => ?_⟩
    obtain ⟨t, ht, hc⟩ := hn' p hp'
    rw [hp]
    change (match dictGet p.1 ps with | some t => _ | none => _) = _
    rw [ht]
    exact hc

/-- a type other than that of objects -/
private theorem conforms_type {root : Json} {s : List (PyStr × Json)} (hr : dictGet py!"$ref" s = none) (x : Json)
    (hobj : typeHolds (dictGet py!"type" s) (.obj []) = false) :
    Conforms root (.obj s) x ↔ typeHolds (dictGet py!"type" s) x = true ∧ enumHolds (dictGet py!"enum" s) x = true ∧
      ∀ l, x = .arr l → ∀ t, dictGet py!"items" s = some t → ∀ y ∈ l, Conforms root t y := by
  have hd : ∀ d, typeHolds (dictGet py!"type" s) (.obj d) = false := by
    intro d
    rw [← hobj]
    cases dictGet py!"type" s with
    | none => rfl
    | some j => cases j <;> rfl
  constructor
  · rintro ⟨n, h⟩
    cases n with
    | zero => simp [conformsWithin] at h
    | succ n =>
      rw [within_other (by simp [hr])] at h
      unfold keywordsHold at h
      rw [Bool.and_eq_true, Bool.and_eq_true] at h
      refine ⟨h.1.1, h.1.2, ?_⟩
      rintro l rfl t ht y hy
      have h2 := h.2
      dsimp only at h2
      rw [ht] at h2
      exact ⟨n, List.all_eq_true.1 h2 y hy⟩
  · rintro ⟨h1, h2, h3⟩
    cases x with
    | arr l =>
      cases ht : dictGet py!"items" s with
      | none =>
        refine ⟨1, ?_⟩
        rw [within_other (by simp [hr])]
        unfold keywordsHold
        rw [ht, h1, h2]
        rfl
      | some t =>
        obtain ⟨n, hn⟩ := conforms_all root (fun _ : Json => some t) id l fun y hy => ⟨t, rfl, h3 l rfl t ht y hy⟩
        refine ⟨n + 1, ?_⟩
        rw [within_other (by simp [hr])]
        unfold keywordsHold
        rw [ht, h1, h2, Bool.and_eq_true]
        refine ⟨rfl, List.all_eq_true.2 fun y hy => ?_⟩
        obtain ⟨t', ht', hc⟩ := hn y hy
        cases ht'
        exact hc
    | obj d => rw [hd] at h1; cases h1
    | _ =>
      refine ⟨1, ?_⟩
      rw [within_other (by simp [hr])]
      unfold keywordsHold
      rw [h1, h2]
      rfl

/-! ## the kinds of fields -/

private theorem conforms_string {root : Json} {t : PyStr} (x : Json) :
    Conforms root (.obj [(py!"title", .str t), (py!"type", .str py!"string")]) x ↔ IsString x := by
  rw [conforms_type (by simp [dictGet]) x (by simp [dictGet, typeHolds, Json.hasType])]
  cases x <;> simp [dictGet, typeHolds, enumHolds, Json.hasType, IsString]

private theorem conforms_string_null {root : Json} {t : PyStr} (x : Json) :
    Conforms root (.obj [(py!"title", .str t), (py!"type", .arr [.str py!"string", .str py!"null"])]) x ↔ IsString x ∨ x = .null := by
  rw [conforms_type (by simp [dictGet]) x (by simp [dictGet, typeHolds, Json.hasType])]
  cases x <;> simp [dictGet, typeHolds, enumHolds, Json.hasType, IsString]

private theorem conforms_type_name {root : Json} {t : PyStr} (x : Json) :
    Conforms root (.obj [(py!"enum", .arr [.str py!"TEXT", .str py!"DATETIME", .str py!"VALUE_POOL"]), (py!"title", .str t),
      (py!"type", .str py!"string")]) x ↔ IsTypeName x := by
  rw [conforms_type (by simp [dictGet]) x (by simp [dictGet, typeHolds, Json.hasType])]
  cases x with
  | str s =>
    simp [dictGet, typeHolds, enumHolds, Json.hasType, IsTypeName]
    constructor <;> rintro (h | h | h) <;> simp [← h]
  | _ => simp [dictGet, typeHolds, enumHolds, Json.hasType, IsTypeName]

private theorem conforms_array {root i : Json} {t : PyStr} (x : Json) :
    Conforms root (.obj [(py!"items", i), (py!"title", .str t), (py!"type", .str py!"array")]) x ↔ IsArrayOf (Conforms root i) x := by
  rw [conforms_type (by simp [dictGet]) x (by simp [dictGet, typeHolds, Json.hasType])]
  cases x <;> simp [dictGet, typeHolds, enumHolds, Json.hasType, IsArrayOf]

private theorem conforms_array_null {root i : Json} {t : PyStr} (x : Json) :
    Conforms root (.obj [(py!"items", i), (py!"title", .str t), (py!"type", .arr [.str py!"array", .str py!"null"])]) x ↔
      x = .null ∨ IsArrayOf (Conforms root i) x := by
  rw [conforms_type (by simp [dictGet]) x (by simp [dictGet, typeHolds, Json.hasType])]
  cases x <;> simp [dictGet, typeHolds, enumHolds, Json.hasType, IsArrayOf]

private theorem dictGet_hasKey {k : PyStr} {d : List (PyStr × Json)} : (dictGet k d).isSome = true ↔ HasKey k d := by
  induction d with
  | nil => simp [dictGet, HasKey]
  | cons p d ih =>
    obtain ⟨k', v⟩ := p
    rw [dictGet]
    split
    · rename_i h; subst h; simp [HasKey]
    · rename_i h
      rw [ih]
      simp [HasKey, Ne.symm h]

/-- the definition with the given name -/
def publishedDefinition (name : PyStr) : Json := (refTarget publishedSchema (py!"#/definitions/" ++ name)).getD .null

private theorem isArrayOf_congr {P Q : Json → Prop} (h : ∀ x, P x ↔ Q x) (x : Json) : IsArrayOf P x ↔ IsArrayOf Q x := by
  simp only [IsArrayOf, h]

/-! ## the definitions -/

private theorem conforms_entry (x : Json) :
    Conforms publishedSchema (publishedDefinition py!"ValuePoolEntrySchema") x ↔ PublishedEntry x := by
  change Conforms publishedSchema (.obj _) x ↔ _
  rw [conforms_object rfl rfl rfl rfl rfl (by decide)]
  constructor
  · rintro ⟨d, rfl, h, hr⟩
    simp only [List.mem_cons, List.not_mem_nil, or_false, exists_eq_or_imp, exists_eq_left, conforms_string] at h
    exact ⟨h, by simpa [requiredHolds, dictGet, dictGet_hasKey] using hr⟩
  · rintro ⟨h, hr⟩
    refine ⟨_, rfl, ?_, by simpa [requiredHolds, dictGet, dictGet_hasKey] using hr⟩
    simp only [List.mem_cons, List.not_mem_nil, or_false, exists_eq_or_imp, exists_eq_left, conforms_string]
    exact h

private theorem ref_entry (x : Json) :
    Conforms publishedSchema (.obj [(py!"$ref", .str py!"#/definitions/ValuePoolEntrySchema"), (py!"type", .str py!"object")]) x ↔ PublishedEntry x :=
  (conforms_ref rfl (t := publishedDefinition py!"ValuePoolEntrySchema") rfl x).trans (conforms_entry x)

private theorem refs_entry (x : Json) :
    IsArrayOf (Conforms publishedSchema (.obj [(py!"$ref", .str py!"#/definitions/ValuePoolEntrySchema"), (py!"type", .str py!"object")])) x ↔
      IsArrayOf PublishedEntry x := isArrayOf_congr ref_entry x

private theorem conforms_freeText (x : Json) :
    Conforms publishedSchema (publishedDefinition py!"DataElementFreeTextSchema") x ↔ PublishedFreeText x := by
  change Conforms publishedSchema (.obj _) x ↔ _
  rw [conforms_object rfl rfl rfl rfl rfl (by decide)]
  constructor
  · rintro ⟨d, rfl, h, hr⟩
    simp only [List.mem_cons, List.not_mem_nil, or_false, exists_eq_or_imp, exists_eq_left, conforms_string, conforms_string_null, conforms_type_name] at h
    exact ⟨h, by simpa [requiredHolds, dictGet, dictGet_hasKey] using hr⟩
  · rintro ⟨h, hr⟩
    refine ⟨_, rfl, ?_, by simpa [requiredHolds, dictGet, dictGet_hasKey] using hr⟩
    simp only [List.mem_cons, List.not_mem_nil, or_false, exists_eq_or_imp, exists_eq_left, conforms_string, conforms_string_null, conforms_type_name]
    exact h

private theorem ref_freeText (x : Json) :
    Conforms publishedSchema (.obj [(py!"$ref", .str py!"#/definitions/DataElementFreeTextSchema"), (py!"type", .str py!"object")]) x ↔ PublishedFreeText x :=
  (conforms_ref rfl (t := publishedDefinition py!"DataElementFreeTextSchema") rfl x).trans (conforms_freeText x)

private theorem refs_freeText (x : Json) :
    IsArrayOf (Conforms publishedSchema (.obj [(py!"$ref", .str py!"#/definitions/DataElementFreeTextSchema"), (py!"type", .str py!"object")])) x ↔
      IsArrayOf PublishedFreeText x := isArrayOf_congr ref_freeText x

private theorem conforms_pool (x : Json) :
    Conforms publishedSchema (publishedDefinition py!"DataElementValuePoolSchema") x ↔ PublishedPool x := by
  change Conforms publishedSchema (.obj _) x ↔ _
  rw [conforms_object rfl rfl rfl rfl rfl (by decide)]
  constructor
  · rintro ⟨d, rfl, h, hr⟩
    simp only [List.mem_cons, List.not_mem_nil, or_false, exists_eq_or_imp, exists_eq_left, conforms_string, conforms_array, refs_entry, conforms_type_name] at h
    exact ⟨h, by simpa [requiredHolds, dictGet, dictGet_hasKey] using hr⟩
  · rintro ⟨h, hr⟩
    refine ⟨_, rfl, ?_, by simpa [requiredHolds, dictGet, dictGet_hasKey] using hr⟩
    simp only [List.mem_cons, List.not_mem_nil, or_false, exists_eq_or_imp, exists_eq_left, conforms_string, conforms_array, refs_entry, conforms_type_name]
    exact h

private theorem ref_pool (x : Json) :
    Conforms publishedSchema (.obj [(py!"$ref", .str py!"#/definitions/DataElementValuePoolSchema"), (py!"type", .str py!"object")]) x ↔ PublishedPool x :=
  (conforms_ref rfl (t := publishedDefinition py!"DataElementValuePoolSchema") rfl x).trans (conforms_pool x)

private theorem refs_pool (x : Json) :
    IsArrayOf (Conforms publishedSchema (.obj [(py!"$ref", .str py!"#/definitions/DataElementValuePoolSchema"), (py!"type", .str py!"object")])) x ↔
      IsArrayOf PublishedPool x := isArrayOf_congr ref_pool x

private theorem conforms_dataElement (x : Json) :
    Conforms publishedSchema (publishedDefinition py!"_FreeTextOrValuePoolSchema") x ↔ PublishedDataElement x := by
  change Conforms publishedSchema (.obj _) x ↔ _
  rw [conforms_object rfl rfl rfl rfl rfl (by decide)]
  constructor
  · rintro ⟨d, rfl, h, -⟩
    simp only [List.mem_cons, List.not_mem_nil, or_false, exists_eq_or_imp, exists_eq_left, ref_freeText, ref_pool] at h
    exact ⟨h⟩
  · rintro ⟨h⟩
    refine ⟨_, rfl, ?_, rfl⟩
    simp only [List.mem_cons, List.not_mem_nil, or_false, exists_eq_or_imp, exists_eq_left, ref_freeText, ref_pool]
    exact h

private theorem ref_dataElement (x : Json) :
    Conforms publishedSchema (.obj [(py!"$ref", .str py!"#/definitions/_FreeTextOrValuePoolSchema"), (py!"type", .str py!"object")]) x ↔ PublishedDataElement x :=
  (conforms_ref rfl (t := publishedDefinition py!"_FreeTextOrValuePoolSchema") rfl x).trans (conforms_dataElement x)

private theorem refs_dataElement (x : Json) :
    IsArrayOf (Conforms publishedSchema (.obj [(py!"$ref", .str py!"#/definitions/_FreeTextOrValuePoolSchema"), (py!"type", .str py!"object")])) x ↔
      IsArrayOf PublishedDataElement x := isArrayOf_congr ref_dataElement x

private theorem conforms_segment (x : Json) :
    Conforms publishedSchema (publishedDefinition py!"SegmentSchema") x ↔ PublishedSegment x := by
  change Conforms publishedSchema (.obj _) x ↔ _
  rw [conforms_object rfl rfl rfl rfl rfl (by decide)]
  constructor
  · rintro ⟨d, rfl, h, hr⟩
    simp only [List.mem_cons, List.not_mem_nil, or_false, exists_eq_or_imp, exists_eq_left, conforms_string, conforms_array, refs_dataElement] at h
    exact ⟨h, by simpa [requiredHolds, dictGet, dictGet_hasKey] using hr⟩
  · rintro ⟨h, hr⟩
    refine ⟨_, rfl, ?_, by simpa [requiredHolds, dictGet, dictGet_hasKey] using hr⟩
    simp only [List.mem_cons, List.not_mem_nil, or_false, exists_eq_or_imp, exists_eq_left, conforms_string, conforms_array, refs_dataElement]
    exact h

private theorem ref_segment (x : Json) :
    Conforms publishedSchema (.obj [(py!"$ref", .str py!"#/definitions/SegmentSchema"), (py!"type", .str py!"object")]) x ↔ PublishedSegment x :=
  (conforms_ref rfl (t := publishedDefinition py!"SegmentSchema") rfl x).trans (conforms_segment x)

private theorem refs_segment (x : Json) :
    IsArrayOf (Conforms publishedSchema (.obj [(py!"$ref", .str py!"#/definitions/SegmentSchema"), (py!"type", .str py!"object")])) x ↔
      IsArrayOf PublishedSegment x := isArrayOf_congr ref_segment x

private theorem conforms_meta (x : Json) :
    Conforms publishedSchema (publishedDefinition py!"AhbMetaInformationSchema") x ↔ PublishedMeta x := by
  change Conforms publishedSchema (.obj _) x ↔ _
  rw [conforms_object rfl rfl rfl rfl rfl (by decide)]
  constructor
  · rintro ⟨d, rfl, h, hr⟩
    simp only [List.mem_cons, List.not_mem_nil, or_false, exists_eq_or_imp, exists_eq_left, conforms_string] at h
    exact ⟨h, by simpa [requiredHolds, dictGet, dictGet_hasKey] using hr⟩
  · rintro ⟨h, hr⟩
    refine ⟨_, rfl, ?_, by simpa [requiredHolds, dictGet, dictGet_hasKey] using hr⟩
    simp only [List.mem_cons, List.not_mem_nil, or_false, exists_eq_or_imp, exists_eq_left, conforms_string]
    exact h

private theorem ref_meta (x : Json) :
    Conforms publishedSchema (.obj [(py!"$ref", .str py!"#/definitions/AhbMetaInformationSchema"), (py!"type", .str py!"object")]) x ↔ PublishedMeta x :=
  (conforms_ref rfl (t := publishedDefinition py!"AhbMetaInformationSchema") rfl x).trans (conforms_meta x)

private theorem refs_meta (x : Json) :
    IsArrayOf (Conforms publishedSchema (.obj [(py!"$ref", .str py!"#/definitions/AhbMetaInformationSchema"), (py!"type", .str py!"object")])) x ↔
      IsArrayOf PublishedMeta x := isArrayOf_congr ref_meta x

private theorem conforms_group : ∀ (x : Json),
    Conforms publishedSchema (publishedDefinition py!"SegmentGroupSchema") x ↔ PublishedGroup x := by
  intro x
  induction hn : sizeOf x using Nat.strongRecOn generalizing x with
  | _ n ih =>
    have href : ∀ y, Conforms publishedSchema (.obj [(py!"$ref", .str py!"#/definitions/SegmentGroupSchema"), (py!"type", .str py!"object")]) y ↔
        Conforms publishedSchema (publishedDefinition py!"SegmentGroupSchema") y :=
      fun y => conforms_ref rfl (t := publishedDefinition py!"SegmentGroupSchema") rfl y
    have hsub : ∀ {d : List (PyStr × Json)} {l : List Json}, x = .obj d → (py!"segment_groups", .arr l) ∈ d → ∀ y ∈ l, sizeOf y < n := by
      rintro d l rfl hd y hy
      have h1 := List.sizeOf_lt_of_mem hd
      have h2 := List.sizeOf_lt_of_mem hy
      rw [← hn]
      simp only [Prod.mk.sizeOf_spec, Json.arr.sizeOf_spec, Json.obj.sizeOf_spec] at h1 ⊢
      omega
    have hunfold : Conforms publishedSchema (publishedDefinition py!"SegmentGroupSchema") x ↔ ∃ d, x = .obj d ∧
        (∀ k v, (k, v) ∈ d → (k = py!"ahb_expression" ∧ IsString v) ∨ (k = py!"discriminator" ∧ IsString v) ∨
          (k = py!"segment_groups" ∧ (v = .null ∨ IsArrayOf (Conforms publishedSchema (publishedDefinition py!"SegmentGroupSchema")) v)) ∨
          (k = py!"segments" ∧ (v = .null ∨ IsArrayOf PublishedSegment v))) ∧
        HasKey py!"ahb_expression" d ∧ HasKey py!"discriminator" d := by
      change Conforms publishedSchema (.obj _) x ↔ _
      rw [conforms_object rfl rfl rfl rfl rfl (by decide)]
      simp only [List.mem_cons, List.not_mem_nil, or_false, exists_eq_or_imp, exists_eq_left, conforms_string, conforms_array_null, refs_segment,
        isArrayOf_congr href]
      simp [requiredHolds, dictGet, dictGet_hasKey]
    rw [hunfold]
    constructor
    · rintro ⟨d, rfl, h, hr⟩
      refine .mk (fun k v hkv => ?_) (fun l hl y hy => ?_) hr
      · rcases h k v hkv with h | h | ⟨hk, h⟩ | h
        · exact .inl h
        · exact .inr (.inl h)
        · refine .inr (.inr (.inl ⟨hk, h.imp id ?_⟩))
          rintro ⟨l, hl, -⟩
          exact ⟨l, hl⟩
        · exact .inr (.inr (.inr h))
      · refine (ih _ (hsub rfl hl y hy) y rfl).1 ?_
        rcases h _ _ hl with h | h | ⟨-, h | ⟨l', hl', h⟩⟩ | h
        · exact absurd h.1 (by decide)
        · exact absurd h.1 (by decide)
        · cases h
        · cases hl'
          exact h y hy
        · exact absurd h.1 (by decide)
    · intro h
      cases h with
      | @mk d hf hg hr =>
        refine ⟨d, rfl, fun k v hkv => ?_, hr⟩
        rcases hf k v hkv with h | h | ⟨hk, h⟩ | h
        · exact .inl h
        · exact .inr (.inl h)
        · refine .inr (.inr (.inl ⟨hk, h.imp id ?_⟩))
          rintro ⟨l, rfl⟩
          subst hk
          exact ⟨l, rfl, fun y hy => (ih _ (hsub rfl hkv y hy) y rfl).2 (hg l hkv y hy)⟩
        · exact .inr (.inr (.inr h))

private theorem refs_group (x : Json) :
    IsArrayOf (Conforms publishedSchema (.obj [(py!"$ref", .str py!"#/definitions/SegmentGroupSchema"), (py!"type", .str py!"object")])) x ↔
      IsArrayOf PublishedGroup x :=
  isArrayOf_congr (fun y => (conforms_ref rfl (t := publishedDefinition py!"SegmentGroupSchema") rfl y).trans (conforms_group y)) x

private theorem conforms_deep (x : Json) :
    Conforms publishedSchema (publishedDefinition py!"DeepAnwendungshandbuchSchema") x ↔ PublishedDeep x := by
  change Conforms publishedSchema (.obj _) x ↔ _
  rw [conforms_object rfl rfl rfl rfl rfl (by decide)]
  constructor
  · rintro ⟨d, rfl, h, -⟩
    simp only [List.mem_cons, List.not_mem_nil, or_false, exists_eq_or_imp, exists_eq_left, conforms_array, refs_group, ref_meta] at h
    exact ⟨h⟩
  · rintro ⟨h⟩
    refine ⟨_, rfl, ?_, rfl⟩
    simp only [List.mem_cons, List.not_mem_nil, or_false, exists_eq_or_imp, exists_eq_left, conforms_array, refs_group, ref_meta]
    exact h

/-! ## C70 -/

/-- **C70** the documents that conform to the published schema are exactly those of the given shape: no version and no other meta
information than the pruefidentifikator, no segment ids, data elements below the key `free_text` or `value_pool`; `meta`, `lines`,
`segments`, `segment_groups` and `data_elements` may be missing. -/
theorem C70_documents (j : Json) : Conforms publishedSchema publishedSchema j ↔ PublishedDeep j :=
  (conforms_ref rfl (t := publishedDefinition py!"DeepAnwendungshandbuchSchema") rfl j).trans (conforms_deep j)

private theorem mem_of_dictGet {k : PyStr} {v : Json} : ∀ {d : List (PyStr × Json)}, dictGet k d = some v → (k, v) ∈ d
  | [], h => by cases h
  | (k', v') :: d, h => by
    rw [dictGet] at h
    split at h
    · rename_i hk; cases h; rw [hk]; simp
    · exact List.mem_cons_of_mem _ (mem_of_dictGet h)

private theorem no_dataElement {j : Json} {e : DataElement} (h : PublishedDataElement j) (h' : DescribesDataElement j e) : False := by
  obtain ⟨hf⟩ := h
  have key : ∀ {d : List (PyStr × Json)}, (∀ k v, (k, v) ∈ d → (k = py!"free_text" ∧ PublishedFreeText v) ∨ (k = py!"value_pool" ∧ PublishedPool v)) →
      Given IsText (dictGet py!"data_element_id" d) e.dataElementId → False := by
    intro d hf hg
    generalize hx : dictGet py!"data_element_id" d = x at hg
    cases hg with
    | value _ =>
      rcases hf _ _ (mem_of_dictGet hx) with h | h
      · exact absurd h.1 (by decide)
      · exact absurd h.1 (by decide)
  cases h' with
  | freeText => exact key hf (by assumption)
  | valuePool => exact key hf (by assumption)

private theorem segment_empty {j : Json} {s : Segment} (h : PublishedSegment j) (h' : DescribesSegment j s) :
    s.dataElements = [] ∧ s.segmentId = none := by
  obtain @⟨d, hf, -⟩ := h
  cases h' with
  | mk _ s keys disc expr des sn sid ni valid =>
    constructor
    · generalize hx : dictGet py!"data_elements" d = x at des
      generalize s.dataElements = es at des
      cases des with
      | value hl =>
        cases hl with
        | mk js l hall =>
          cases hall with
          | nil => rfl
          | cons h1 h2 =>
            rcases hf _ _ (mem_of_dictGet hx) with h | ⟨-, l, hl, hi⟩ | h | h
            · exact absurd h.1 (by decide)
            · cases hl
              exact absurd (no_dataElement (hi _ (by simp)) h1) id
            · exact absurd h.1 (by decide)
            · exact absurd h.1 (by decide)
    · generalize hx : dictGet py!"segment_id" d = x at sid
      generalize s.segmentId = i at sid
      cases sid with
      | missing => rfl
      | null => rfl
      | value _ =>
        rcases hf _ _ (mem_of_dictGet hx) with h | h | h | h <;> exact absurd h.1 (by decide)

private theorem forall₂_mem {α β : Type} {R : α → β → Prop} {l : List α} {m : List β} (h : List.Forall₂ R l m) : ∀ b ∈ m, ∃ a ∈ l, R a b := by
  induction h with
  | nil => simp
  | cons h1 _ ih =>
    intro b hb
    rcases List.mem_cons.1 hb with rfl | hb
    · exact ⟨_, by simp, h1⟩
    · obtain ⟨a, ha, hr⟩ := ih b hb
      exact ⟨a, by simp [ha], hr⟩

private theorem segments_published {d : List (PyStr × Json)} {l : Option (List Segment)}
    (hf : ∀ k v, (k, v) ∈ d → (k = py!"ahb_expression" ∧ IsString v) ∨ (k = py!"discriminator" ∧ IsString v) ∨
        (k = py!"segment_groups" ∧ (v = .null ∨ ∃ l, v = .arr l)) ∨ (k = py!"segments" ∧ (v = .null ∨ IsArrayOf PublishedSegment v)))
    (h : Optional (IsList DescribesSegment) none (dictGet py!"segments" d) l) {ss : List Segment} (hl : l = some ss) {s : Segment} (hs : s ∈ ss) :
    s.dataElements = [] ∧ s.segmentId = none := by
  generalize hx : dictGet py!"segments" d = x at h
  cases h with
  | missing => cases hl
  | null => cases hl
  | value hv =>
    cases hl
    cases hv with
    | mk js l hall =>
      obtain ⟨j, hj, hd⟩ := forall₂_mem hall s hs
      rcases hf _ _ (mem_of_dictGet hx) with h | h | h | ⟨-, h | ⟨l, hl, hi⟩⟩
      · exact absurd h.1 (by decide)
      · exact absurd h.1 (by decide)
      · exact absurd h.1 (by decide)
      · cases h
      · cases hl
        exact segment_empty (hi j hj) hd

private theorem group_empty {g : SegmentGroup} {s : Segment} (hs : SegmentOf s g) : ∀ {j : Json}, PublishedGroup j → DescribesGroup j g →
    s.dataElements = [] ∧ s.segmentId = none := by
  induction hs with
  | here h hs =>
    intro j hp hd
    cases hp with
    | mk hf hg hr =>
      cases hd with
      | leaf => exact segments_published hf (by assumption) h hs
      | node => exact segments_published hf (by assumption) h hs
  | @deeper g g' gs h hg _ ih =>
    intro j hp hd
    cases hp with
    | mk hf hgs hr =>
      cases hd with
      | leaf _ _ _ _ _ _ _ groups => rw [h] at groups; cases groups
      | node _ _ js gs' _ _ _ _ hget groups hlen items =>
        rw [h] at groups
        injection groups with groups
        subst groups
        obtain ⟨i, hi, rfl⟩ := List.mem_iff_getElem.1 hg
        have hz : (js[i]'(by omega), gs[i]) ∈ js.zip gs := by
          rw [List.mem_iff_getElem]
          exact ⟨i, by simp; omega, by simp⟩
        exact ih (hgs js (mem_of_dictGet hget) _ (List.getElem_mem _)) (items _ hz)

/-- **C70** what is loaded from a document that conforms to the published schema has no data elements and no segment ids: no
document with a data element, at any depth, both conforms and can be loaded. -/
theorem C70_loaded {j : Json} {maus : DeepAhb} (hc : Conforms publishedSchema publishedSchema j) (hl : DeepAhb.load j = .ok maus) :
    ∀ g ∈ maus.lines, ∀ s, SegmentOf s g → s.dataElements = [] ∧ s.segmentId = none := by
  have hp := (C70_documents j).1 hc
  have hd := (C82_deep_ahb j maus).1 hl
  obtain @⟨d, hf⟩ := hp
  cases hd with
  | mk _ a keys info lines =>
    intro g hg s hs
    generalize hx : dictGet py!"lines" d = x at lines
    cases lines with
    | value hv =>
      generalize maus.lines = gs at hv hg
      cases hv with
      | mk js l hall =>
        obtain ⟨k, hk, hd⟩ := forall₂_mem hall g hg
        rcases hf _ _ (mem_of_dictGet hx) with ⟨-, l, hl, hi⟩ | h
        · cases hl
          exact group_empty hs (hi k hk) hd
        · exact absurd h.1 (by decide)

/-- a document that conforms and can be loaded -/
def exConformingLoadable : Json :=
  .obj [(py!"meta", .obj [(py!"pruefidentifikator", .str py!"11042")]),
    (py!"lines", .arr [.obj [(py!"discriminator", .str py!"d"), (py!"ahb_expression", .str py!"Muss"),
      (py!"segments", .arr [.obj [(py!"discriminator", .str py!"s"), (py!"ahb_expression", .str py!"Muss"),
        (py!"data_elements", .arr [])]])]])]

example : Conforms publishedSchema publishedSchema exConformingLoadable ∧ ∃ maus, DeepAhb.load exConformingLoadable = .ok maus ∧
    ∃ g ∈ maus.lines, ∃ s, SegmentOf s g :=
  ⟨⟨20, by decide +kernel⟩, _, rfl, _, List.mem_singleton.2 rfl, _, .here rfl (List.mem_singleton.2 rfl)⟩

end Verif
