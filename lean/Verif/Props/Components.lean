import Verif.Proofs.ValuePool
import Verif.Proofs.JsonPath
/-!
# Properties C34–C37: value pools and edifact stacks
-/

namespace Verif

/-! ## C34 -/

def exReplacePool : List ValuePoolEntry :=
  [⟨py!"E01", py!"Einzug", py!"X"⟩, ⟨py!"E03", py!"Wechsel", py!"X [1]"⟩, ⟨py!"Z33", py!"Auszug", py!"X"⟩]
def exReplaceDe : DataElement :=
  { discriminator := some py!"$[\"A\"]", dataElementId := py!"3035", enteredInput := none,
    valueType := some .valuePool, kind := .valuePool exReplacePool }
/-- swaps `E01` and `E03` -/
def exSwap : PyStr → Option (Option PyStr) := fun q =>
  if q = py!"E01" then some (some py!"E03") else if q = py!"E03" then some (some py!"E01") else none

/-- the qualifiers that can be assigned to a value pool entry are exactly the acceptable ones; `None` is none of them -/
theorem C34_acceptable_qualifiers (q : PyStr) :
    (isEdifactQualifier (some q) = true ↔ AcceptableQualifier q) ∧ isEdifactQualifier none = false :=
  ⟨isEdifactQualifier_iff q, rfl⟩

example : AcceptableQualifier py!"E01" := ⟨'E', py!"01", rfl, .inl (by decide)⟩
example : ¬ AcceptableQualifier py!"foo" := by rw [← isEdifactQualifier_iff]; decide +kernel

/-- **C34** if the qualifiers of the pool are distinct and the values of the mapping are acceptable, exactly the entries
with mapped qualifiers are replaced, simultaneously; order, expressions and everything else stay as they are. -/
theorem C34_replace_value_pool (de : DataElement) (pool : List ValuePoolEntry) (hk : de.kind = .valuePool pool)
    (mapping : PyStr → Option (Option PyStr)) (merger : Option (PyStr → PyStr → PyStr))
    (distinct : (pool.map ValuePoolEntry.qualifier).Nodup)
    (acceptable : ∀ e ∈ pool, ∀ new, mapping e.qualifier = some new → ∃ q, new = some q ∧ AcceptableQualifier q) :
    de.replaceValuePool mapping merger = ({ de with kind := .valuePool (pool.map fun e =>
      match mapping e.qualifier with
      | some (some new) => e.replacedBy merger new
      | _ => e) }, .ok ()) := by
  have hacc : ∀ p ∈ existingEntries pool, ∀ new, mapping p.1 = some new → isEdifactQualifier new = true := by
    rintro ⟨q, i⟩ hp new hm
    obtain ⟨e, he, rfl, _⟩ := mem_existingEntries.1 hp
    obtain ⟨q, rfl, hq⟩ := acceptable e (List.mem_of_getElem? he) new hm
    exact (isEdifactQualifier_iff q).2 hq
  obtain ⟨h1, h2, h3, h4⟩ := replaceLoop_ok mapping merger (existingEntries pool) pool (nodup_existingEntries pool) hacc
  unfold DataElement.replaceValuePool
  rw [hk]
  simp only [h1, Prod.mk.injEq, and_true, DataElement.mk.injEq, true_and, DataElementKind.valuePool.injEq]
  apply List.ext_getElem?
  intro i
  cases he : pool[i]? with
  | none =>
    rw [List.getElem?_eq_none_iff] at he
    rw [List.getElem?_eq_none (by omega), List.getElem?_eq_none (by simpa using he)]
  | some e =>
    have hmem : (e.qualifier, i) ∈ existingEntries pool := by
      refine mem_existingEntries.2 ⟨e, he, rfl, ?_⟩
      intro j e' hij he' heq
      have hj : (pool.map ValuePoolEntry.qualifier)[j]? = some e.qualifier := by rw [List.getElem?_map, he']; simp [heq]
      have hi : (pool.map ValuePoolEntry.qualifier)[i]? = some e.qualifier := by rw [List.getElem?_map, he]; rfl
      obtain ⟨hil, _⟩ := List.getElem?_eq_some_iff.1 hi
      have := (List.getElem?_inj hil distinct).1 (hi.trans hj.symm)
      omega
    rw [h3 _ _ hmem, he, List.getElem?_map, he]
    simp only [Option.map_some, Option.some.injEq]
    cases hm : mapping e.qualifier with
    | none => simp [loopEntry, hm]
    | some new =>
      obtain ⟨q, rfl, _⟩ := acceptable e (List.mem_of_getElem? he) new hm
      rw [loopEntry_some hm]
      cases merger <;> simp [ValuePoolEntry.replacedBy, mergedMeaning]

/-- **C34** with repeated qualifiers only the last entry of each qualifier is replaced. -/
theorem C34_repeated_qualifiers (de : DataElement) (pool : List ValuePoolEntry) (hk : de.kind = .valuePool pool)
    (mapping : PyStr → Option (Option PyStr)) (merger : Option (PyStr → PyStr → PyStr))
    (acceptable : ∀ e ∈ pool, ∀ new, mapping e.qualifier = some new → ∃ q, new = some q ∧ AcceptableQualifier q) :
    ∃ pool', de.replaceValuePool mapping merger = ({ de with kind := .valuePool pool' }, .ok ()) ∧
      pool'.length = pool.length ∧
      ∀ (i : Nat) (e : ValuePoolEntry), pool[i]? = some e →
        ((∃ (j : Nat) (e' : ValuePoolEntry), i < j ∧ pool[j]? = some e' ∧ e'.qualifier = e.qualifier) → pool'[i]? = some e) ∧
        ((∀ (j : Nat) (e' : ValuePoolEntry), i < j → pool[j]? = some e' → e'.qualifier ≠ e.qualifier) →
          pool'[i]? = some (match mapping e.qualifier with
            | some (some new) => e.replacedBy merger new
            | _ => e)) := by
  have hacc : ∀ p ∈ existingEntries pool, ∀ new, mapping p.1 = some new → isEdifactQualifier new = true := by
    rintro ⟨q, i⟩ hp new hm
    obtain ⟨e, he, rfl, _⟩ := mem_existingEntries.1 hp
    obtain ⟨q, rfl, hq⟩ := acceptable e (List.mem_of_getElem? he) new hm
    exact (isEdifactQualifier_iff q).2 hq
  obtain ⟨h1, h2, h3, h4⟩ := replaceLoop_ok mapping merger (existingEntries pool) pool (nodup_existingEntries pool) hacc
  refine ⟨_, ?_, h2, ?_⟩
  · unfold DataElement.replaceValuePool
    rw [hk]
    simp only [h1]
  · intro i e he
    constructor
    · rintro ⟨j, e', hij, he', heq⟩
      rw [h4, he]
      intro hm
      obtain ⟨⟨q, i'⟩, hp, rfl⟩ := List.mem_map.1 hm
      obtain ⟨e2, he2, rfl, hlast⟩ := mem_existingEntries.1 hp
      simp only at he hij
      rw [he] at he2
      cases he2
      exact hlast j e' hij he' heq
    · intro hlast
      rw [h3 e.qualifier i (mem_existingEntries.2 ⟨e, he, rfl, hlast⟩), he]
      simp only [Option.map_some, Option.some.injEq]
      cases hm : mapping e.qualifier with
      | none => simp [loopEntry, hm]
      | some new =>
        obtain ⟨q, rfl, _⟩ := acceptable e (List.mem_of_getElem? he) new hm
        rw [loopEntry_some hm]
        cases merger <;> simp [ValuePoolEntry.replacedBy, mergedMeaning]

/-- **C34** a replacement that is no acceptable qualifier (or `None`) raises a `ValueError`; also then, number and order of
the entries and their expressions, and everything apart from the pool, are unchanged. -/
theorem C34_unacceptable (de : DataElement) (pool : List ValuePoolEntry) (hk : de.kind = .valuePool pool)
    (mapping : PyStr → Option (Option PyStr)) (merger : Option (PyStr → PyStr → PyStr)) :
    ((de.replaceValuePool mapping merger).2 = .error .valueError ↔
      ∃ e ∈ pool, ∃ new, mapping e.qualifier = some new ∧ ∀ q, new = some q → ¬ AcceptableQualifier q) ∧
    ∃ pool', (de.replaceValuePool mapping merger).1 = { de with kind := .valuePool pool' } ∧
      pool'.map ValuePoolEntry.ahbExpression = pool.map ValuePoolEntry.ahbExpression := by
  have hnew : ∀ new : Option PyStr, isEdifactQualifier new = true ↔ ∃ q, new = some q ∧ AcceptableQualifier q := by
    intro new
    cases new with
    | none => simp [isEdifactQualifier, isNotBlank]
    | some q => simp [isEdifactQualifier_iff]
  have hex : ∀ e ∈ pool, ∃ i, (e.qualifier, i) ∈ existingEntries pool := by
    intro e he
    have hk : e.qualifier ∈ (existingEntries pool).map Prod.fst := by
      have hmem : ∀ (ps d : List (PyStr × Nat)), e.qualifier ∈ (d ++ ps).map Prod.fst → e.qualifier ∈ (dictUpdate d ps).map Prod.fst := by
        intro ps
        induction ps with
        | nil => intro d h; simpa [dictUpdate] using h
        | cons p ps ih =>
          intro d h
          refine ih (dictSet p.1 p.2 d) ?_
          rw [List.map_append, List.mem_append, mem_keys_dictSet]
          rw [List.map_append, List.mem_append, List.map_cons, List.mem_cons] at h
          tauto
      refine hmem _ [] ?_
      rw [List.nil_append, List.map_map]
      obtain ⟨i, hi⟩ := List.mem_iff_getElem?.1 he
      refine List.mem_map.2 ⟨(e, i), ?_, rfl⟩
      exact List.mem_iff_getElem?.2 ⟨i, by rw [List.getElem?_zipIdx, hi]; simp⟩
    obtain ⟨⟨q, i⟩, h, rfl⟩ := List.mem_map.1 hk
    exact ⟨i, h⟩
  unfold DataElement.replaceValuePool
  rw [hk]
  simp only
  refine ⟨⟨?_, ?_⟩, _, rfl, replaceLoop_expressions _ _ _ _⟩
  · intro h
    by_contra hno
    push Not at hno
    have hacc : ∀ p ∈ existingEntries pool, ∀ new, mapping p.1 = some new → isEdifactQualifier new = true := by
      rintro ⟨q, i⟩ hp new hm
      obtain ⟨e, he, rfl, _⟩ := mem_existingEntries.1 hp
      exact (hnew new).2 (hno e (List.mem_of_getElem? he) new hm)
    rw [(replaceLoop_ok mapping merger _ pool (nodup_existingEntries pool) hacc).1] at h
    cases h
  · rintro ⟨e, he, new, hm, hq⟩
    obtain ⟨i, hi⟩ := hex e he
    refine replaceLoop_error _ _ _ _ ⟨_, hi, new, hm, ?_⟩
    rw [← Bool.not_eq_true, hnew]
    rintro ⟨q, rfl, h⟩
    exact hq q rfl h

/-- swapping works; the hypotheses of `C34_replace_value_pool` hold -/
example : (exReplaceDe.replaceValuePool exSwap (some fun m q => m ++ py!" " ++ q)) =
    ({ exReplaceDe with kind := .valuePool [⟨py!"E03", py!"Einzug E01", py!"X"⟩, ⟨py!"E01", py!"Wechsel E03", py!"X [1]"⟩,
      ⟨py!"Z33", py!"Auszug", py!"X"⟩] }, .ok ()) := by decide +kernel
example : (exReplacePool.map ValuePoolEntry.qualifier).Nodup := by decide +kernel
example : (exReplaceDe.replaceValuePool (fun _ => some (some py!"foo")) none).2 = .error .valueError := by decide +kernel

/-! ## C35 -/

/-- **C35 (partial)** for containers the subset relation is decided. Missing: one-shot iterators, for which it is false
(`C35_iterator_false`, `C35_iterator`). -/
theorem C35_container_partial (de : DataElement) (pool : List ValuePoolEntry) (hk : de.kind = .valuePool pool)
    (items : List PyStr) :
    ∃ b, de.hasValuePoolWhichIsSubsetOf (.container items) = .ok b ∧
      (b = true ↔ ∀ e ∈ pool, e.qualifier ∈ items) := by
  refine ⟨allIn pool (.container items), ?_, allIn_container pool items⟩
  simp [DataElement.hasValuePoolWhichIsSubsetOf, hk]

/-- **C35** for a one-shot iterator the answer is yes iff the qualifiers are a *subsequence* of the remaining items. -/
theorem C35_iterator (de : DataElement) (pool : List ValuePoolEntry) (hk : de.kind = .valuePool pool)
    (items : List PyStr) :
    ∃ b, de.hasValuePoolWhichIsSubsetOf (.iterator items) = .ok b ∧
      (b = true ↔ (pool.map ValuePoolEntry.qualifier).Sublist items) := by
  refine ⟨allIn pool (.iterator items), ?_, allIn_iterator pool items⟩
  simp [DataElement.hasValuePoolWhichIsSubsetOf, hk]

/-- **C35 (the claim is false)** all qualifiers are among the items of the iterator, but the answer is no. -/
theorem C35_iterator_false : ∃ (de : DataElement) (pool : List ValuePoolEntry) (items : List PyStr),
    de.kind = .valuePool pool ∧ (∀ e ∈ pool, e.qualifier ∈ items) ∧
    de.hasValuePoolWhichIsSubsetOf (.iterator items) = .ok false :=
  ⟨exReplaceDe, exReplacePool, [py!"Z33", py!"E03", py!"E01"], rfl, by decide +kernel, by decide +kernel⟩

/-- **C35** a free text is no value pool: it has no such method, the call is an `AttributeError` whatever the entries. -/
theorem C35_free_text (de : DataElement) (e : PyStr) (hk : de.kind = .freeText e) (entries : PyIterable) :
    de.hasValuePoolWhichIsSubsetOf entries = .error .attributeError := by
  simp [DataElement.hasValuePoolWhichIsSubsetOf, hk]

example : DataElement.hasValuePoolWhichIsSubsetOf { exReplaceDe with valueType := some .text, kind := .freeText py!"X" } (.container []) =
    .error .attributeError := by decide +kernel
example : exReplaceDe.hasValuePoolWhichIsSubsetOf (.container [py!"Z33", py!"E03", py!"E01", py!"E02"]) = .ok true := by
  decide +kernel
example : exReplaceDe.hasValuePoolWhichIsSubsetOf (.container [py!"Z33", py!"E03"]) = .ok false := by decide +kernel

/-! ## C36 -/

/-- a name that can be read back: non-empty, without square brackets -/
def EdifactStackLevel.NameOk (l : EdifactStackLevel) : Prop := l.name ≠ [] ∧ ∀ c ∈ l.name, c ≠ '[' ∧ c ≠ ']'

theorem nameOk_iff {l : EdifactStackLevel} (h : l.NameOk) : l.name ≠ [] ∧ l.name.all noBracket = true := by
  refine ⟨h.1, ?_⟩
  rw [List.all_eq_true]
  intro c hc
  have := h.2 c hc
  simp [noBracket, this.1, this.2]

/-- **C36** the json path of a stack is read back as the same stack. -/
theorem C36_round_trip (s : EdifactStack)
    (h : ∀ l ∈ s.levels, l.NameOk ∧ (l.isGroupable = true ↔ l.index ≠ none) ∧ ∀ i, l.index = some i → 0 ≤ i) :
    EdifactStack.fromJsonPath s.toJsonPath = s := by
  rw [fromJsonPath_toJsonPath s fun l hl => ⟨(nameOk_iff (h l hl).1).1, (nameOk_iff (h l hl).1).2, (h l hl).2.2⟩]
  have : s.levels.map readBack = s.levels := by
    conv => rhs; rw [← List.map_id s.levels]
    refine List.map_congr_left fun l hl => ?_
    obtain ⟨_, hg, _⟩ := h l hl
    obtain ⟨n, g, i⟩ := l
    cases i <;> cases g <;> simp_all [readBack]
  rw [this]

/-- **C36** without relation between groupable and index: an index makes a level groupable, a groupable level without index
gets the index 0, everything else is kept. -/
theorem C36_normalisation (s : EdifactStack)
    (h : ∀ l ∈ s.levels, l.NameOk ∧ ∀ i, l.index = some i → 0 ≤ i) :
    EdifactStack.fromJsonPath s.toJsonPath = { levels := s.levels.map fun l =>
      match l.index, l.isGroupable with
      | some i, _ => { name := l.name, isGroupable := true, index := some i }
      | none, true => { name := l.name, isGroupable := true, index := some 0 }
      | none, false => { name := l.name, isGroupable := false, index := none } } := by
  rw [fromJsonPath_toJsonPath s fun l hl => ⟨(nameOk_iff (h l hl).1).1, (nameOk_iff (h l hl).1).2, (h l hl).2⟩]
  congr 1
  refine List.map_congr_left fun l _ => ?_
  obtain ⟨n, g, i⟩ := l
  cases i <;> cases g <;> simp [readBack]

/-- **C36** in particular different stacks have different paths. -/
theorem C36_injective (s t : EdifactStack)
    (hs : ∀ l ∈ s.levels, l.NameOk ∧ (l.isGroupable = true ↔ l.index ≠ none) ∧ ∀ i, l.index = some i → 0 ≤ i)
    (ht : ∀ l ∈ t.levels, l.NameOk ∧ (l.isGroupable = true ↔ l.index ≠ none) ∧ ∀ i, l.index = some i → 0 ≤ i)
    (h : s.toJsonPath = t.toJsonPath) : s = t := by
  rw [← C36_round_trip s hs, ← C36_round_trip t ht, h]

def exStack : EdifactStack :=
  ⟨[⟨py!"Dokument", true, some 0⟩, ⟨py!"Nach\"richt", true, some 217⟩, ⟨py!"Datum", false, none⟩]⟩

example : ∀ l ∈ exStack.levels, l.NameOk ∧ (l.isGroupable = true ↔ l.index ≠ none) ∧ ∀ i, l.index = some i → 0 ≤ i := by
  simp only [exStack, EdifactStackLevel.NameOk, List.forall_mem_cons]
  refine ⟨⟨⟨by decide, by decide⟩, by decide, ?_⟩, ⟨⟨by decide, by decide⟩, by decide, ?_⟩, ⟨⟨by decide, by decide⟩, by decide, ?_⟩, by simp⟩ <;>
    rintro i h <;> cases h <;> decide
example : exStack.toJsonPath = py!"$[\"Dokument\"][0][\"Nach\"richt\"][217][\"Datum\"]" := by decide +kernel

/-! ## C37 -/

/-- **C37** a stack is a sub stack of another iff the levels of the other are a prefix of its levels; `is_parent_of` is the
converse. -/
theorem C37_prefix (a b : EdifactStack) :
    (a.isSubStackOf b = true ↔ b.levels <+: a.levels) ∧ b.isParentOf a = a.isSubStackOf b := by
  refine ⟨?_, rfl⟩
  unfold EdifactStack.isSubStackOf
  split
  · next h =>
    simp only [Bool.false_eq_true, false_iff]
    intro hp
    have := hp.length_le
    omega
  · next h => exact zipAllEq_iff (by omega)

/-- **C37** the json path of a stack is a prefix of the json paths of its sub stacks. -/
theorem C37_path_prefix (a b : EdifactStack) (h : a.isSubStackOf b = true) : b.toJsonPath <+: a.toJsonPath := by
  obtain ⟨t, ht⟩ := (C37_prefix a b).1.1 h
  rw [toJsonPath_eq, toJsonPath_eq, ← ht, List.flatMap_append, ← List.append_assoc]
  exact List.prefix_append _ _

example : exStack.isSubStackOf ⟨exStack.levels.take 2⟩ = true ∧ (EdifactStack.mk (exStack.levels.take 2)).isSubStackOf exStack = false := by
  decide +kernel

end Verif
