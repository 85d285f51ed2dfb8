import Verif.Proofs.CsvReader
import Verif.Proofs.Flat
import Verif.Spec.Flat
import Verif.Props.Flat
/-!
# Properties C42 to C47 and C64: the CSV reader
-/

namespace Verif

/-! ## C42 merging headings -/

/-- **C42** rows that are no headings are kept, a maximal run of headings in front of such a row becomes one heading row with
the joined text, a run at the very end is dropped. -/
theorem C42_merge {rows out : List RawRow} (h : mergeSectionOnlyLines rows = .ok out) : Merged rows out :=
  mergeLoop_merged rows [] [] .nil out h

/-- **C42** merging succeeds whenever there is a result (i.e. whenever each row below a heading has an integer in the unnamed
column). -/
theorem C42_merge_succeeds (rows : List RawRow) :
    (∃ out, mergeSectionOnlyLines rows = .ok out) ↔ ∃ out, Merged rows out :=
  ⟨fun ⟨out, h⟩ => ⟨out, C42_merge h⟩, fun ⟨_, h⟩ => merged_exists h⟩

/-- **C42** the rows that are no headings come out unchanged and in order, and the result is not longer than the input. -/
theorem C42_rows_kept {rows out : List RawRow} (h : mergeSectionOnlyLines rows = .ok out) :
    (rows.filter fun r => decide (¬ ∃ g, SectionOnly r g)).Sublist out ∧ out.length ≤ rows.length := by
  have hm := C42_merge h
  clear h
  induction hm with
  | @nil hs h =>
    have : hs.filter (fun r => decide (¬ ∃ g, SectionOnly r g)) = [] := by
      rw [List.filter_eq_nil_iff]
      intro r hr
      simpa using h r hr
    rw [this]
    exact ⟨.slnil, by simp⟩
  | row h _ ih =>
    rw [List.filter_cons_of_pos (by simpa using h)]
    exact ⟨ih.1.cons_cons _, by simpa using ih.2⟩
  | @headings hs gs r hd rows out ne hg hr _ _ ih =>
    have hnil : hs.filter (fun r => decide (¬ ∃ g, SectionOnly r g)) = [] := by
      rw [List.filter_eq_nil_iff]
      intro r hr
      have : ∃ g, SectionOnly r g := by
        obtain ⟨g, _, h⟩ := forall₂_mem hg hr
        exact ⟨g, h⟩
      simpa using this
    rw [List.filter_append, hnil, List.filter_cons_of_pos (by simpa using hr)]
    refine ⟨(ih.1.cons_cons _).cons _, ?_⟩
    have : 0 < hs.length := List.length_pos_of_ne_nil ne
    simp only [List.length_append, List.length_cons]
    omega

/-- **C42** for headings without surrounding whitespace and without double spaces the joined text is what one expects. -/
theorem C42_joined_text (gs : List PyStr) (h : ∀ g ∈ gs, g ≠ [] ∧ trim g = g ∧ ¬ py!"  " <:+: g) :
    joinedHeading gs = pyJoin py!" " gs := joinedHeading_eq gs (by simpa only [trim_eq] using h)

/-- a row of a CSV file with the columns "", "Segment Gruppe", "Segment", "Datenelement", "Codes und Qualifier",
"Beschreibung", "11042", "Bedingung" -/
def csvRow (cells : List PyStr) : RawRow :=
  dictReaderRow [[], py!"Segment Gruppe", py!"Segment", py!"Datenelement", py!"Codes und Qualifier", py!"Beschreibung",
    py!"11042", py!"Bedingung"] cells

def exCsvRows : List RawRow :=
  [csvRow [py!"0", py!"Nachrichten-", [], [], [], [], [], []],
   csvRow [py!"1", py!"Kopfsegment", [], [], [], [], [], []],
   csvRow [py!"2", [], py!"UNH", [], [], [], [], []],
   csvRow [py!"3", [], py!"UNH", py!"0065", py!"UTILMD", py!"Stammdaten", py!"X [1]", py!"[1] Wenn A [2] Wenn B"],
   csvRow [py!"4", py!"SG2", py!"NAD", py!"3035", py!"Absender", py!"MS", py!"X", []],
   csvRow [py!"5", py!"Ende", [], [], [], [], [], []]]

example : mergeSectionOnlyLines exCsvRows = .ok [
   [([], some py!"1"), (py!"Segment Gruppe", some py!"Nachrichten- Kopfsegment"), (py!"Segment", some []),
    (py!"Datenelement", some []), (py!"Codes und Qualifier", some []), (py!"Beschreibung", some []), (py!"Bedingung", some [])],
   csvRow [py!"2", [], py!"UNH", [], [], [], [], []],
   csvRow [py!"3", [], py!"UNH", py!"0065", py!"UTILMD", py!"Stammdaten", py!"X [1]", py!"[1] Wenn A [2] Wenn B"],
   csvRow [py!"4", py!"SG2", py!"NAD", py!"3035", py!"Absender", py!"MS", py!"X", []]] := by decide +kernel

example : joinedHeading [py!"Nachrichten-", py!"Kopfsegment", py!"der Nachricht"] = py!"Nachrichten- Kopfsegment der Nachricht" :=
  C42_joined_text _ (by decide +kernel)

/-! ## C46 the expression column -/

/-- **C46 (exact)** the first column that consists of five digits, possibly followed by a newline. -/
theorem C46_expression_column_exact (names : Option (List PyStr)) (n : PyStr) :
    getNameOfExpressionColumn names = some n ↔
      ∃ before after, names = some (before ++ n :: after) ∧ UpToNewline IsFiveDigits n ∧
        ∀ m ∈ before, ¬ UpToNewline IsFiveDigits m := by
  cases names with
  | none => simp [getNameOfExpressionColumn]
  | some names =>
    simp only [getNameOfExpressionColumn, List.find?_eq_some_iff_append, pruefiRe_iff, Option.some.injEq,
      Bool.not_eq_true', ← Bool.not_eq_true]
    constructor
    · rintro ⟨h1, a, b, h2, h3⟩; exact ⟨a, b, h2, h1, h3⟩
    · rintro ⟨a, b, h2, h1, h3⟩; exact ⟨h1, a, b, h2, h3⟩

/-! ## C43 lines -/

/-- **C43** the reader succeeds iff there is a Prüfidentifikator, the headings can be merged and all rows can be read. -/
theorem C43_reader_succeeds (guid : Nat → Fin (2 ^ 128)) (records : List (List PyStr)) (pruefi : Option PyStr) :
    (∃ r, CsvReader.new guid records pruefi = .ok r) ↔
      ∃ p merged, choosePruefidentifikator pruefi (dictReaderFields records) = .ok p ∧
        mergeSectionOnlyLines (dictReaderRows records) = .ok merged ∧ ∀ row ∈ merged, ReadableRow p row := by
  constructor
  · rintro ⟨r, h⟩
    obtain ⟨p, merged, st, lines, h1, h2, h3, rfl⟩ := reader_ok h
    exact ⟨p, merged, h1, h2, (readLoop_ok merged 0 {} st [] (.inl ⟨by simp, rfl⟩) lines h3).1⟩
  · rintro ⟨p, merged, h1, h2, h3⟩
    obtain ⟨⟨st, lines⟩, h4⟩ := readLoop_exists (p := p) (guid := guid) merged 0 {} [] (.inl ⟨by simp, rfl⟩) h3
    exact ⟨_, by simp only [CsvReader.new, h1, h2, h4, Bind.bind, Except.bind]; rfl⟩

/-- the assignments that make up a row -/
theorem rowAssignments (header record : List PyStr) : ∃ ps : RawRow, dictReaderRow header record = dictUpdate [] ps ∧
    ps.map Prod.fst = header ∧ ∀ before name after, header = before ++ name :: after →
      ∃ a b, ps = a ++ (name, record[before.length]?) :: b ∧ b.map Prod.fst = after := by
  refine ⟨List.zipWith (fun f c => (f, some c)) header record ++ (header.drop record.length).map fun f => (f, none),
    by rw [dictUpdate_append]; rfl, ?_, ?_⟩
  · induction header generalizing record with
    | nil => simp
    | cons f fs ih =>
      cases record with
      | nil => simp [Function.comp_def]
      | cons c cs => simpa using ih cs
  · intro before
    induction before generalizing header record with
    | nil =>
      rintro name after rfl
      cases record with
      | nil => exact ⟨[], after.map fun f => (f, none), by simp, by simp [Function.comp_def]⟩
      | cons c cs =>
        refine ⟨[], List.zipWith (fun f c => (f, some c)) after cs ++ (after.drop cs.length).map fun f => (f, none), by simp, ?_⟩
        clear c
        induction after generalizing cs with
        | nil => simp
        | cons f fs ih =>
          cases cs with
          | nil => simp [Function.comp_def]
          | cons c cs => simpa using ih cs
    | cons x before ih =>
      rintro name after rfl
      cases record with
      | nil => exact ⟨(x :: before).map fun f => (f, none), after.map fun f => (f, none), by simp, by simp [Function.comp_def]⟩
      | cons c cs =>
        obtain ⟨a, b, h1, h2⟩ := ih (before ++ name :: after) cs name after rfl
        exact ⟨(x, some c) :: a, b, by simpa using h1, h2⟩

/-- **C43** The rows are the records after the first one that are not empty; the first one contains the names of the columns. -/
theorem C43_rows (header : List PyStr) (records : List (List PyStr)) :
    List.Forall₂ (RowOf header) (records.filter (· ≠ [])) (dictReaderRows (header :: records)) := by
  have row : ∀ record, RowOf header record (dictReaderRow header record) := by
    intro record
    obtain ⟨ps, h1, h2, h3⟩ := rowAssignments header record
    have key : ∀ name v, dictGet name (dictReaderRow header record) = some v ↔
        ∃ a b, ps = a ++ (name, v) :: b ∧ name ∉ b.map Prod.fst := fun name v => by
      rw [h1, dictGet_eq_some (nodup_dictUpdate (by simp)), mem_dictUpdate]
    refine ⟨?_, ?_⟩
    · rintro name ⟨v, hv⟩
      obtain ⟨a, b, hab, _⟩ := (key name v).1 hv
      rw [← h2, hab]
      simp
    · intro before name after hh hn
      obtain ⟨a, b, h4, h5⟩ := h3 before name after hh
      have := (key name _).2 ⟨a, b, h4, by rw [h5]; exact hn⟩
      exact ⟨⟨_, this⟩, by simp [RawRow.cell, this]⟩
  have e : records.filter (fun r => !r.isEmpty) = records.filter (· ≠ []) := by
    congr 1
    funext r
    cases r <;> simp
  simp only [dictReaderRows]
  rw [e]
  generalize records.filter (· ≠ []) = l
  induction l with
  | nil => exact .nil
  | cons r l ih => exact .cons (row r) ih

/-- **C43** The Prüfidentifikator is the one that is given to the reader; if none is given, it is the name of the first column
that looks like one; if there is no such column either, the reader fails. -/
theorem C43_identifier (header : Option (List PyStr)) (given : Option PyStr) :
    (∀ c s, given = some (c :: s) → choosePruefidentifikator given header = .ok (c :: s)) ∧
    (given = none ∨ given = some [] → ∀ p, getNameOfExpressionColumn header = some p →
      choosePruefidentifikator given header = .ok p) ∧
    (given = none ∨ given = some [] → getNameOfExpressionColumn header = none →
      choosePruefidentifikator given header = .error .valueError) := by
  refine ⟨?_, ?_, ?_⟩
  · rintro c s rfl
    rfl
  · intro hg p hp
    have hne : p ≠ [] := by
      obtain ⟨_, _, _, h, _⟩ := (C46_expression_column_exact header p).1 hp
      rcases h with h | ⟨t, h, rfl⟩
      · rintro rfl; exact absurd h.1 (by decide)
      · simp
    obtain ⟨c, s, rfl⟩ := List.exists_cons_of_ne_nil hne
    rcases hg with rfl | rfl <;> simp [choosePruefidentifikator, hp, truthy]
  · intro hg hp
    rcases hg with rfl | rfl <;> simp [choosePruefidentifikator, hp, truthy]

example : dictReaderRows [[py!"a", py!"b", py!"a", py!"c"], [], [py!"1", py!"2", py!"3"], [py!"4"]] =
    [[(py!"a", some py!"3"), (py!"b", some py!"2"), (py!"c", none)], [(py!"a", none), (py!"b", none), (py!"c", none)]] := by
  decide +kernel

/-- **C43** The lines have strictly ascending indices; there is exactly one line for each row (after merging the headings) that
is no heading, it has the index of the row, the fields of the row, and the section name of the last heading above the row. -/
theorem C43_lines {guid : Nat → Fin (2 ^ 128)} {records : List (List PyStr)} {pruefi : Option PyStr} {r : CsvReader}
    (h : CsvReader.new guid records pruefi = .ok r) :
    ∃ merged, Merged (dictReaderRows records) merged ∧
      r.rows.Pairwise (fun a b => ∃ x y : Int, a.index = some x ∧ b.index = some y ∧ x < y) ∧
      (∀ l ∈ r.rows, ∃ (j : Nat) (row : RawRow), merged[j]? = some row ∧ l.index = some (j : Int) ∧
        (¬ ∃ g, IsHeadingRow row g) ∧ LineOfRow r.pruefidentifikator (merged.take j) row l) ∧
      ∀ (j : Nat) (row : RawRow), merged[j]? = some row → (¬ ∃ g, IsHeadingRow row g) →
        ∃ l ∈ r.rows, l.index = some (j : Int) := by
  obtain ⟨p, merged, st, lines, h1, h2, h3, rfl⟩ := reader_ok h
  obtain ⟨_, _, h4⟩ := readLoop_ok merged 0 {} st [] (.inl ⟨by simp, rfl⟩) lines h3
  obtain ⟨e1, e2, e3⟩ := linesOf_lines merged [] 0 lines h4
  simp only [Nat.zero_add, List.nil_append] at e1 e2
  exact ⟨merged, C42_merge h2, e3, e1, e2⟩

/-- **C43** `to_flat_ahb` keeps exactly the lines that hold information, in order, and the Prüfidentifikator. -/
theorem C43_to_flat_ahb {r : CsvReader} {f : FlatAhb} (h : r.toFlatAhb = .ok f) :
    f.ahbMeta.pruefidentifikator = r.pruefidentifikator ∧
    ∃ keep : AhbLine → Bool, f.lines = r.rows.filter keep ∧
      ∀ l, keep l = false ↔
        ∀ field ∈ [l.segmentGroupKey, l.segmentCode, l.dataElement, l.valuePoolEntry, l.name, l.ahbExpression],
          ∀ s, field = some s → ∀ c ∈ s, c ∈ whiteSpace := by
  unfold CsvReader.toFlatAhb AhbMetaInformation.new at h
  simp only [Option.isSome_none, Bool.false_and, Bool.false_eq_true, if_false, Bind.bind, Except.bind, FlatAhb.new] at h
  split at h
  · cases h
  · cases h
    exact ⟨rfl, _, rfl, C26_holds_any_information⟩

/-- **C43** `to_flat_ahb` gives the flat AHB or raises a `ValueError` (when it does is the subject of
`C24_exact_acceptance`). -/
theorem C43_to_flat_ahb_succeeds (r : CsvReader) :
    r.toFlatAhb = .ok (FlatAhb.mk { pruefidentifikator := r.pruefidentifikator }
        (r.rows.filter AhbLine.holdsAnyInformation)) ∨ r.toFlatAhb = .error .valueError := by
  have h : r.toFlatAhb = FlatAhb.new { pruefidentifikator := r.pruefidentifikator }
      (r.rows.filter AhbLine.holdsAnyInformation) := rfl
  rw [h]
  rcases C24_exact_acceptance { pruefidentifikator := r.pruefidentifikator } (r.rows.filter AhbLine.holdsAnyInformation)
    with h | h
  · exact .inl h.1
  · exact .inr h.1

def exCsvRecords : List (List PyStr) :=
  [[[], py!"Segment Gruppe", py!"Segment", py!"Datenelement", py!"Codes und Qualifier", py!"Beschreibung", py!"11042",
    py!"Bedingung"],
   [py!"0", py!"Nachrichten-", [], [], [], [], [], []],
   [py!"1", py!"Kopfsegment", [], [], [], [], [], []],
   [py!"2", [], py!"UNH", [], [], [], [], []],
   [py!"3", [], py!"UNH", py!"0065", py!"UTILMD", py!"Stammdaten", py!"X [1]", py!"[1] Wenn A [2] Wenn B"],
   [],
   [py!"4", py!"SG2", py!"NAD", py!"3035", py!"Absender", py!"MS", py!"X", []],
   [py!"5", py!"Ende", [], [], [], [], [], []]]

example : ((CsvReader.new (fun n => Fin.ofNat _ n) exCsvRecords none).toOption.map fun r =>
    (r.pruefidentifikator, r.bedingungen, r.rows)) = some (py!"11042", [(py!"1", py!"Wenn A"), (py!"2", py!"Wenn B")],
  [{ guid := some 1, segmentCode := some py!"UNH", sectionName := some py!"Nachrichten- Kopfsegment", index := some 1 },
   { guid := some 2, segmentCode := some py!"UNH", dataElement := some py!"0065", valuePoolEntry := some py!"UTILMD",
     name := some py!"Stammdaten", ahbExpression := some py!"X [1]", sectionName := some py!"Nachrichten- Kopfsegment",
     index := some 2 },
   { guid := some 3, segmentGroupKey := some py!"SG2", segmentCode := some py!"NAD", dataElement := some py!"3035",
     valuePoolEntry := some py!"MS", name := some py!"Absender", ahbExpression := some py!"X",
     sectionName := some py!"Nachrichten- Kopfsegment", index := some 3 }]) := by decide +kernel

/-! ## C44 entry and name -/

/-- **C44** the results are the two stripped inputs (blank ones as `None`); the order is kept iff the first input looks like a
value pool entry. -/
theorem C44_separate (x y : Option PyStr) :
    Separated x y (separateValuePoolEntryAndName x y).1 (separateValuePoolEntryAndName x y).2 := separate_spec x y

/-- **C44** if either input looks like a value pool entry, the first result does. -/
theorem C44_entry_first (x y : Option PyStr)
    (h : (∃ s, nonBlank x = some s ∧ LooksLikeEntry s) ∨ ∃ s, nonBlank y = some s ∧ LooksLikeEntry s) :
    ∃ s, (separateValuePoolEntryAndName x y).1 = some s ∧ LooksLikeEntry s := by
  rcases separate_spec x y with ⟨⟨s, h1, h2⟩, h3, _⟩ | ⟨h1, h3, _⟩
  · exact ⟨s, by rw [h3, h1], h2⟩
  · rcases h with h | ⟨s, h4, h5⟩
    · exact absurd h h1
    · exact ⟨s, by rw [h3, h4], h5⟩

/-- **C44 (exact)** applying the function to its own result changes nothing iff one of the inputs looks like a value pool
entry or both are equal. -/
theorem C44_idempotent_exact (x y : Option PyStr) :
    (separateValuePoolEntryAndName (separateValuePoolEntryAndName x y).1 (separateValuePoolEntryAndName x y).2 =
      separateValuePoolEntryAndName x y) ↔
    (∃ s, nonBlank x = some s ∧ LooksLikeEntry s) ∨ (∃ s, nonBlank y = some s ∧ LooksLikeEntry s) ∨
      nonBlank x = nonBlank y := by
  have h1 := separate_spec x y
  have h2 := separate_spec (separateValuePoolEntryAndName x y).1 (separateValuePoolEntryAndName x y).2
  generalize ha : (separateValuePoolEntryAndName x y).1 = a at h1 h2 ⊢
  generalize hb : (separateValuePoolEntryAndName x y).2 = b at h1 h2 ⊢
  have hab : separateValuePoolEntryAndName x y = (a, b) := by rw [← ha, ← hb]
  rw [hab]
  generalize separateValuePoolEntryAndName a b = r at h2 ⊢
  obtain ⟨c, d⟩ := r
  simp only [Prod.mk.injEq] at h2 ⊢
  unfold Separated at h1 h2
  have nn := nonBlank_nonBlank
  rcases h1 with ⟨hx, rfl, rfl⟩ | ⟨hx, rfl, rfl⟩
  · rw [nn, nn] at h2
    rcases h2 with ⟨_, rfl, rfl⟩ | ⟨h, _⟩
    · exact ⟨fun _ => .inl hx, fun _ => ⟨rfl, rfl⟩⟩
    · exact absurd hx h
  · rw [nn, nn] at h2
    rcases h2 with ⟨hy, rfl, rfl⟩ | ⟨hy, rfl, rfl⟩
    · exact ⟨fun _ => .inr (.inl hy), fun _ => ⟨rfl, rfl⟩⟩
    · constructor
      · rintro ⟨h, _⟩; exact .inr (.inr h)
      · rintro (h | h | h)
        · exact absurd h hx
        · exact absurd h hy
        · exact ⟨h, h.symm⟩

/-- **C44 (partial)** the function is idempotent on pairs that contain a value pool entry. Missing: pairs without value pool
entry, for which the claim is false (`C44_not_idempotent`). -/
theorem C44_idempotent_partial (x y : Option PyStr)
    (h : (∃ s, nonBlank x = some s ∧ LooksLikeEntry s) ∨ ∃ s, nonBlank y = some s ∧ LooksLikeEntry s) :
    separateValuePoolEntryAndName (separateValuePoolEntryAndName x y).1 (separateValuePoolEntryAndName x y).2 =
      separateValuePoolEntryAndName x y :=
  (C44_idempotent_exact x y).2 (h.elim .inl fun h => .inr (.inl h))

/-- **C44 (negation)** two texts without value pool entry are swapped by each call. -/
theorem C44_not_idempotent : ∃ x y, separateValuePoolEntryAndName (separateValuePoolEntryAndName x y).1
    (separateValuePoolEntryAndName x y).2 ≠ separateValuePoolEntryAndName x y :=
  ⟨some py!"Absender", some py!"MP-ID Absender", by decide +kernel⟩

example : separateValuePoolEntryAndName (some py!" Absender ") (some py!"MS") = (some py!"MS", some py!"Absender") := by
  decide +kernel
example : separateValuePoolEntryAndName (some py!"E_0012") (some py!"EBD") = (some py!"E_0012", some py!"EBD") := by
  decide +kernel
example : ∃ s, nonBlank (some py!" GABi1RLMmT") = some s ∧ LooksLikeEntry s :=
  ⟨py!"GABi1RLMmT", by decide, .inr (.inr (.inr (.inl ⟨by decide, py!"GABi", py!"1", py!"RLMmT", by decide, by decide,
    by decide, by decide, by decide⟩)))⟩
example : ∃ s, nonBlank (some py!" 1.2a ") = some s ∧ LooksLikeEntry s :=
  ⟨py!"1.2a", by decide, .inr (.inl ⟨py!"1", py!".2", py!"a", by decide, by decide, by decide, .inr ⟨py!"2", by decide⟩,
    .inr ⟨'a', by decide⟩⟩)⟩

/-! ## C45 conditions -/

/-- **C45** exactly the last definition of each key in the text is extracted, stripped. -/
theorem C45_extract (text key v : PyStr) :
    dictGet key (extractBedingungen (some text)) = some v ↔ ∃ body, LastCondition text key body ∧ v = trim body := by
  simp only [trim_eq]
  exact extract_spec text key v

/-- **C45** for a text `[k1] t1 [k2] t2 ...` the result maps each key to its last text, stripped. -/
theorem C45_well_formed (conds : List (PyStr × PyStr))
    (h : ∀ c ∈ conds, c.1 ≠ [] ∧ (∀ x ∈ c.1, isDigit x = true) ∧ c.2 ≠ [] ∧ ∀ x ∈ c.2, x ≠ '[' ∧ x ≠ ']') (key v : PyStr) :
    dictGet key (extractBedingungen (some (conds.flatMap fun c => '[' :: c.1 ++ ']' :: c.2))) = some v ↔
      ∃ before body after, conds = before ++ (key, body) :: after ∧ key ∉ after.map Prod.fst ∧ v = trim body := by
  simp only [trim_eq]
  have hp := pairsFrom_wellFormed conds h (conds.flatMap fun c => '[' :: c.1 ++ ']' :: c.2).length.succ 0 (Nat.lt_succ_self _)
  have he : extractBedingungen (some (conds.flatMap fun c => '[' :: c.1 ++ ']' :: c.2)) =
      dictUpdate [] (conds.map fun c => (c.1, strip c.2)) := by
    rw [← hp]
    cases hs : conds.flatMap fun c => '[' :: c.1 ++ ']' :: c.2 with
    | nil => rw [pairsFrom_nil]; rfl
    | cons c s => rfl
  rw [he, dictGet_eq_some (nodup_dictUpdate (by simp)), mem_dictUpdate]
  constructor
  · rintro ⟨a, b, h1, h2⟩
    obtain ⟨x, y, rfl, rfl, hy⟩ := List.map_eq_append_iff.1 h1
    obtain ⟨⟨k, body⟩, y, rfl, hk, rfl⟩ := List.map_eq_cons_iff.1 hy
    simp only [Prod.mk.injEq] at hk
    obtain ⟨rfl, rfl⟩ := hk
    exact ⟨x, body, y, rfl, by simpa using h2, rfl⟩
  · rintro ⟨x, body, y, rfl, h2, rfl⟩
    exact ⟨_, _, by rw [List.map_append, List.map_cons], by simpa using h2⟩

/-- **C45** keys are non-empty digit strings, texts are stripped and without brackets. -/
theorem C45_keys_and_texts {candidate : Option PyStr} {key v : PyStr} (h : dictGet key (extractBedingungen candidate) = some v) :
    key ≠ [] ∧ (∀ c ∈ key, isDigit c = true) ∧ trim v = v ∧ ∀ c ∈ v, c ≠ '[' ∧ c ≠ ']' := by
  rw [trim_eq]
  cases candidate with
  | none => cases h
  | some s =>
    obtain ⟨b, ⟨r, ⟨_, h1, h2, _, h3, _⟩, _⟩, rfl⟩ := (extract_spec s key v).1 h
    exact ⟨h1, h2, strip_strip b, fun c hc => h3 c (strip_mem hc)⟩

/-- **C45** the reader collects the conditions of all rows; a later row overrides an earlier one. -/
theorem C45_reader_conditions {guid : Nat → Fin (2 ^ 128)} {records : List (List PyStr)} {pruefi : Option PyStr}
    {r : CsvReader} (h : CsvReader.new guid records pruefi = .ok r) (key v : PyStr) :
    ∃ merged, Merged (dictReaderRows records) merged ∧
      (dictGet key r.extractConditionTexts = some v ↔
        ∃ before row after text body, merged = before ++ row :: after ∧ row.cell py!"Bedingung" = some text ∧
          LastCondition text key body ∧ v = trim body ∧
          ¬ ∃ row' ∈ after, ∃ text' body', row'.cell py!"Bedingung" = some text' ∧ LastCondition text' key body') := by
  simp only [trim_eq]
  obtain ⟨p, merged, st, lines, h1, h2, h3, rfl⟩ := reader_ok h
  obtain ⟨_, h4, _⟩ := readLoop_ok merged 0 {} st [] (.inl ⟨by simp, rfl⟩) lines h3
  refine ⟨merged, C42_merge h2, ?_⟩
  show dictGet key st.bedingungen = some v ↔ _
  rw [h4]
  exact rows_conditions merged key v

example : extractBedingungen (some py!"[1] Wenn A [2]Wenn B\n[1] Wenn C ] [12 x [3]") =
    [(py!"1", py!"Wenn C"), (py!"2", py!"Wenn B")] := by decide +kernel
example : LastCondition py!"[1] Wenn A [2] Wenn B" py!"1" py!" Wenn A " := by
  refine ⟨py!"[2] Wenn B", ⟨⟨[], by decide⟩, by decide, by decide, by decide, by decide, .inr ⟨_, .inl rfl⟩⟩, ?_⟩
  rintro ⟨b, r, h⟩
  have h2 : CondHere py!"[2] Wenn B" py!"2" py!" Wenn B" [] := ⟨rfl, by decide, by decide, by decide, by decide, .inl rfl⟩
  rcases (conditionAt_here h2).1 h with ⟨h, _⟩ | ⟨⟨x, h⟩, _⟩
  · exact absurd h (by decide)
  · simp at h

/-- **C46 (exact)** `None` iff there is no such column. -/
theorem C46_expression_column_none (names : Option (List PyStr)) :
    getNameOfExpressionColumn names = none ↔ ∀ ns, names = some ns → ∀ n ∈ ns, ¬ UpToNewline IsFiveDigits n := by
  cases names with
  | none => simp [getNameOfExpressionColumn]
  | some names =>
    simp [getNameOfExpressionColumn, List.find?_eq_none, pruefiRe_iff]

/-- **C46 (partial)** if no column name ends with a newline, it is the first column that consists of exactly five digits.
Missing: column names with a newline at the end, for which the claim is false (`C46_newline`). -/
theorem C46_expression_column_partial (names : List PyStr) (h : ∀ m ∈ names, ¬ py!"\n" <:+ m) (n : PyStr) :
    getNameOfExpressionColumn (some names) = some n ↔
      ∃ before after, names = before ++ n :: after ∧ IsFiveDigits n ∧ ∀ m ∈ before, ¬ IsFiveDigits m := by
  have key : ∀ m ∈ names, (UpToNewline IsFiveDigits m ↔ IsFiveDigits m) := by
    intro m hm
    refine ⟨fun h' => h'.resolve_right ?_, .inl⟩
    rintro ⟨t, _, rfl⟩
    exact h _ hm ⟨t, rfl⟩
  rw [C46_expression_column_exact]
  constructor
  · rintro ⟨a, b, h1, h2, h3⟩
    cases h1
    exact ⟨a, b, rfl, (key n (by simp)).1 h2, fun m hm => (key m (by simp [hm])).not.1 (h3 m hm)⟩
  · rintro ⟨a, b, rfl, h2, h3⟩
    exact ⟨a, b, rfl, (key n (by simp)).2 h2, fun m hm => (key m (by simp [hm])).not.2 (h3 m hm)⟩

/-- **C46 (negation)** a column whose name ends with a newline may be chosen. -/
theorem C46_newline : getNameOfExpressionColumn (some [py!"Segment", py!"11042\n", py!"11043"]) = some py!"11042\n" := by
  decide +kernel

example : getNameOfExpressionColumn (some [py!"Segment", py!"110420", py!"11043", py!"11044"]) = some py!"11043" := by
  decide +kernel

/-! ## C47 section names -/

/-- **C47 (exact)** `_replace_hardcoded_section_names` raises a `KeyError` iff the name is an outdated name surrounded by
whitespace; otherwise outdated names are replaced and all other names are kept. -/
theorem C47_replace_exact (s : PyStr) :
    ((s ≠ trim s ∧ ¬ CurrentName (trim s) (trim s)) ∧ replaceHardcodedSectionNames (some s) = .error .keyError) ∨
    (¬ (s ≠ trim s ∧ ¬ CurrentName (trim s) (trim s)) ∧
      ∃ t, CurrentName s t ∧ replaceHardcodedSectionNames (some s) = .ok (some t)) := by
  simp only [trim_eq]
  exact replace_exact s

theorem C47_replace_none : replaceHardcodedSectionNames none = .ok none := rfl

/-- **C47 (partial)** for names without surrounding whitespace the function is total, replaces outdated names and keeps all
others. Missing: names with surrounding whitespace, for which the claim is false (`C47_key_error`). -/
theorem C47_replace_partial (s : PyStr) (h : trim s = s) :
    ∃ t, CurrentName s t ∧ replaceHardcodedSectionNames (some s) = .ok (some t) := by
  rw [trim_eq] at h
  rcases replace_exact s with ⟨⟨h', _⟩, _⟩ | ⟨_, h'⟩
  · exact absurd h.symm h'
  · exact h'

/-- **C47 (negation)** -/
theorem C47_key_error : ∃ s, replaceHardcodedSectionNames (some s) = .error .keyError :=
  ⟨py!"OBIS Daten für Lieferant relevant ", by decide +kernel⟩

/-- **C47** the reader never runs into this `KeyError`: the section names it passes on are stripped. -/
theorem C47_reader_total (g : PyStr) :
    ∃ name, replaceHardcodedSectionNames (if trim g = [] then none else some (trim g)) = .ok name := by
  have e : (if trim g = [] then none else some (trim g)) = orNone (strip g) := by
    rw [trim_eq]
    cases strip g <;> rfl
  rw [e]
  obtain ⟨name, h, _⟩ := replaceSection_spec g
  exact ⟨name, h⟩

example : replaceHardcodedSectionNames (some py!"OBIS Daten für Lieferant relevant") =
    .ok (some py!"OBIS Daten für Marktrolle relevant") := by decide +kernel

/-! ## C64 complete files can be read -/

/-- **C64** a file whose rows are complete and whose headings are proper headings can be read. -/
theorem C64_complete_file (guid : Nat → Fin (2 ^ 128)) (records : List (List PyStr)) (pruefi : Option PyStr) (p : PyStr)
    (hp : choosePruefidentifikator pruefi (dictReaderFields records) = .ok p)
    (h : ∀ row ∈ dictReaderRows records, CompleteRow p row) : ∃ r, CsvReader.new guid records pruefi = .ok r := by
  obtain ⟨out, hout⟩ := complete_merge (dictReaderRows records) [] h
  refine (C43_reader_succeeds guid records pruefi).2 ⟨p, out, hp, hout, ?_⟩
  exact merged_readable h (C42_merge hout)

def exCapitalRecords : List (List PyStr) :=
  [[[], py!"Segment Gruppe", py!"Segment", py!"Datenelement", py!"Codes und Qualifier", py!"Beschreibung", py!"11042",
    py!"Bedingung"],
   [py!"0", py!"KOPFSEGMENT", [], [], [], [], [], []],
   [py!"1", [], py!"UNH", [], [], [], [], []]]

/-- **C64 (negation)** a heading in capital letters that can be read on its own is not enough: the reader raises a `KeyError`,
because the row made up for the heading has no expression column. -/
theorem C64_capital_heading : ∃ records, (∀ row ∈ dictReaderRows records, ∀ key ∈ [py!"Segment Gruppe", py!"Segment",
      py!"Datenelement", py!"Codes und Qualifier", py!"Beschreibung", py!"Bedingung", py!"11042"], ∃ t, row.cell key = some t) ∧
    CsvReader.new (fun _ => 0) records none = .error .keyError :=
  ⟨exCapitalRecords, by
    refine ⟨?_, by decide +kernel⟩
    intro row hrow key hkey
    have : ((dictReaderRows exCapitalRecords).all fun row => [py!"Segment Gruppe", py!"Segment",
      py!"Datenelement", py!"Codes und Qualifier", py!"Beschreibung", py!"Bedingung", py!"11042"].all fun key =>
        (row.cell key).isSome) = true := by decide +kernel
    exact Option.isSome_iff_exists.1 (List.all_eq_true.1 (List.all_eq_true.1 this row hrow) key hkey)⟩

example : ∀ row ∈ dictReaderRows exCsvRecords, CompleteRow py!"11042" row := by
  have h1 : ((dictReaderRows exCsvRecords).all fun row =>
      ([py!"Segment Gruppe", py!"Segment", py!"Datenelement", py!"Codes und Qualifier", py!"Beschreibung",
        py!"Bedingung", py!"11042"].all fun key => (row.cell key).isSome) &&
      (match row.cell [] with | none => false | some t => (pyInt t).isSome) &&
      (match row.cell py!"11042" with | none => true | some t => t.isEmpty || t.any fun c => decide (c ∉ whiteSpace)) &&
      (match sectionOnly? row with
        | none => true
        | some g => decide (3 ≤ (g.filter fun c => decide (c ∉ whiteSpace)).length) &&
            g.any fun c => decide (c ∉ whiteSpace) && decide (c ∉ py!"ABCDEFGHIJKLMNOPQRSTUVWXYZ0123456789-i"))) = true := by
    decide +kernel
  intro row hrow
  have h2 := List.all_eq_true.1 h1 row hrow
  simp only [Bool.and_eq_true] at h2
  obtain ⟨⟨⟨h3, h4⟩, h5⟩, h6⟩ := h2
  refine ⟨fun key hkey => Option.isSome_iff_exists.1 (List.all_eq_true.1 h3 key hkey), ?_, ?_, ?_⟩
  · cases hc : row.cell [] with
    | none => rw [hc] at h4; cases h4
    | some t =>
      rw [hc] at h4
      obtain ⟨i, hi⟩ := Option.isSome_iff_exists.1 h4
      exact ⟨t, i, rfl, (pyInt_iff _ _).1 hi⟩
  · intro t ht
    rw [ht] at h5
    simp only [Bool.or_eq_true, List.isEmpty_iff, List.any_eq_true, decide_eq_true_eq] at h5
    exact h5
  · intro g hg
    rw [(sectionOnly?_iff row g).2 hg] at h6
    simp only [Bool.and_eq_true, decide_eq_true_eq, List.any_eq_true] at h6
    exact h6

end Verif
