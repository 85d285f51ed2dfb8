import Verif.Proofs.CsvPrefix
import Verif.Proofs.CsvCut
import Verif.Props.Csv
/-!
# C128: further records of a CSV file only add lines
-/

namespace Verif

/-- **C128** if a CSV file can be read, then so can the file that is cut behind any of its records (behind the header at the earliest); its
lines are the first lines of the whole file, with the same numbers and section names, and its conditions are among those of the whole file. -/
theorem C128_lines {guid : Nat → Fin (2 ^ 128)} {records more : List (List PyStr)} {pruefi : Option PyStr} {whole : CsvReader}
    (hne : records ≠ []) (h : CsvReader.new guid (records ++ more) pruefi = .ok whole) :
    ∃ r, CsvReader.new guid records pruefi = .ok r ∧ r.rows <+: whole.rows ∧ r.pruefidentifikator = whole.pruefidentifikator ∧
      ∀ k, (∃ t, (k, t) ∈ r.extractConditionTexts) → ∃ t, (k, t) ∈ whole.extractConditionTexts := by
  obtain ⟨p, merged, st, lines, h1, h2, h3, rfl⟩ := reader_ok h
  rw [dictReaderFields_append hne] at h1
  obtain ⟨rows, hrows⟩ := dictReaderRows_append hne more
  rw [hrows] at h2
  obtain ⟨o1, o2, hm, rfl⟩ := mergeLoop_prefix _ _ _ h2
  obtain ⟨st1, l1, l2, h4, h5, rfl⟩ := readLoop_prefix _ _ _ _ h3
  refine ⟨{ rows := l1, pruefidentifikator := p, bedingungen := st1.bedingungen }, ?_, List.prefix_append _ _, rfl, ?_⟩
  · unfold CsvReader.new
    rw [h1]
    simp only [bind, Except.bind]
    rw [show mergeSectionOnlyLines (dictReaderRows records) = .ok o1 from hm]
    simp only [h4]
    rfl
  · rintro k ⟨t, ht⟩
    obtain ⟨⟨k', t'⟩, hx, rfl⟩ := List.mem_map.1 (readLoop_keys _ _ _ _ h5 (List.mem_map.2 ⟨(k, t), ht, rfl⟩))
    exact ⟨t', hx⟩

/-- **C128 (exceptions)** if the first records of a file cannot be read, then no file that begins with them can be read. -/
theorem C128_error {guid : Nat → Fin (2 ^ 128)} {records : List (List PyStr)} (more : List (List PyStr)) {pruefi : Option PyStr} {e : Exc}
    (hne : records ≠ []) (h : CsvReader.new guid records pruefi = .error e) :
    ∃ e', CsvReader.new guid (records ++ more) pruefi = .error e' := by
  cases hw : CsvReader.new guid (records ++ more) pruefi with
  | error e' => exact ⟨e', rfl⟩
  | ok whole =>
    obtain ⟨r, hr, _⟩ := C128_lines hne hw
    rw [h] at hr
    cases hr

/-- **C128 (flat AHB)** if a CSV file becomes a flat AHB, then so does the file that is cut behind any of its records; the lines of its flat
AHB are the first lines of the flat AHB of the whole file. -/
theorem C128_flat {guid : Nat → Fin (2 ^ 128)} {records more : List (List PyStr)} {pruefi : Option PyStr} {whole : CsvReader} {flat : FlatAhb}
    (hne : records ≠ []) (h : CsvReader.new guid (records ++ more) pruefi = .ok whole) (hf : whole.toFlatAhb = .ok flat) :
    ∃ r f, CsvReader.new guid records pruefi = .ok r ∧ r.toFlatAhb = .ok f ∧ f.lines <+: flat.lines ∧ f.ahbMeta = flat.ahbMeta := by
  obtain ⟨r, hr, ⟨l2, hp⟩, hq, _⟩ := C128_lines hne h
  have hx : ∀ r : CsvReader, r.toFlatAhb = FlatAhb.new { pruefidentifikator := r.pruefidentifikator }
      (r.rows.filter AhbLine.holdsAnyInformation) := fun _ => rfl
  rw [hx, ← hp, List.filter_append] at hf
  unfold FlatAhb.new at hf
  simp only [bind, Except.bind, pure, Except.pure] at hf
  cases hc : FlatAhb.checkLines (r.rows.filter AhbLine.holdsAnyInformation ++ l2.filter AhbLine.holdsAnyInformation) with
  | error e => rw [hc] at hf; cases hf
  | ok u =>
    rw [hc] at hf
    cases hf
    refine ⟨r, { ahbMeta := { pruefidentifikator := r.pruefidentifikator }, lines := r.rows.filter AhbLine.holdsAnyInformation }, hr, ?_,
      List.prefix_append _ _, by rw [hq]⟩
    rw [hx]
    unfold FlatAhb.new
    rw [checkLines_prefix hc]
    rfl

/-- **C128 (texts)** if the text of a CSV file can be read, then so can the part before any line end that is not inside quotation marks (a
further line feed at the cut would be read as an empty record); its rows are the first rows of the whole file. -/
theorem C128_text {guid : Nat → Fin (2 ^ 128)} {d : Char} {text more : PyStr} {pruefi : Option PyStr} {whole : CsvReader}
    {records : List (List PyStr)} (hend : text.getLast? = some '\n')
    (hcut : csvRead d text = (records, none) ∧ csvRead d (text ++ py!"\n") = (records ++ [[]], none))
    (h : CsvReader.ofText guid d (text ++ more) pruefi = .ok whole) :
    ∃ r, CsvReader.ofText guid d text pruefi = .ok r ∧ r.rows <+: whole.rows ∧ r.pruefidentifikator = whole.pruefidentifikator ∧
      ∀ k, (∃ t, (k, t) ∈ r.extractConditionTexts) → ∃ t, (k, t) ∈ whole.extractConditionTexts := by
  obtain ⟨hne, happ⟩ := csvRead_append hend hcut.1 hcut.2
  unfold CsvReader.ofText at h ⊢
  rw [happ] at h
  rw [hcut.1]
  cases he : (csvRead d more).2 with
  | none =>
    rw [he] at h
    exact C128_lines hne h
  | some e =>
    rw [he] at h
    exfalso
    cases hr : records ++ (csvRead d more).1 with
    | nil => rw [hr] at h; cases h
    | cons f rs =>
      rw [hr] at h
      simp only [CsvReader.ofRecords, bind, Except.bind] at h
      split at h <;> cases h

/-- **C128 (texts without quotation marks)** if there are no quotation marks before the cut, every line end is a place to cut. -/
theorem C128_plain {guid : Nat → Fin (2 ^ 128)} {d : Char} {text more : PyStr} {pruefi : Option PyStr} {whole : CsvReader}
    (hend : text.getLast? = some '\n') (hq : '"' ∉ text) (h : CsvReader.ofText guid d (text ++ more) pruefi = .ok whole) :
    ∃ r, CsvReader.ofText guid d text pruefi = .ok r ∧ r.rows <+: whole.rows ∧ r.pruefidentifikator = whole.pruefidentifikator ∧
      ∀ k, (∃ t, (k, t) ∈ r.extractConditionTexts) → ∃ t, (k, t) ∈ whole.extractConditionTexts := by
  obtain ⟨records, hc⟩ := csvRead_first hend hq h
  exact C128_text hend ⟨hc, csvRead_plain hend hq hc⟩ h

/-- a text with a line feed between quotation marks: the cut behind the first line of the quoted cell is not one of these places, the cuts
behind its first and last record are -/
example : (csvRead ',' py!"a,b\n", csvRead ',' py!"a,b\n\n") = (([[py!"a", py!"b"]], none), ([[py!"a", py!"b"], []], none)) ∧
    (csvRead ',' py!"a,b\n\"x\n", csvRead ',' py!"a,b\n\"x\n\n") =
      (([[py!"a", py!"b"], [py!"x\n"]], none), ([[py!"a", py!"b"], [py!"x\n\n"]], none)) ∧
    (csvRead ',' py!"a,b\n\"x\ny\"\n", csvRead ',' py!"a,b\n\"x\ny\"\n\n") =
      (([[py!"a", py!"b"], [py!"x\ny"]], none), ([[py!"a", py!"b"], [py!"x\ny"], []], none)) := by
  refine ⟨?_, ?_, ?_⟩ <;> refine Prod.ext ?_ ?_ <;> decide +kernel

def exCutText : PyStr := py!",Segment Gruppe,Segment,Datenelement,Codes und Qualifier,Beschreibung,11042,Bedingung\n1,Kopf,,,,,,\n2,,UNH,,,,,\r\n"

/-- a text that is cut behind its first lines -/
example : exCutText.getLast? = some '\n' ∧ '"' ∉ exCutText ∧
    ((CsvReader.ofText (fun n => Fin.ofNat _ n) ',' (exCutText ++ py!"3,SG2,NAD,3035,\"MS\",\"Ab\nsender\",X,[1] Wenn A") none).toOption.map
      fun r => (r.rows.length, r.extractConditionTexts)) = some (2, [(py!"1", py!"Wenn A")]) ∧
    ((CsvReader.ofText (fun n => Fin.ofNat _ n) ',' exCutText none).toOption.map fun r => r.rows.length) = some 1 := by decide +kernel

/-- the whole file can be read and becomes a flat AHB; it is cut in the middle of its heading, behind its first line, and before its last heading -/
example : ∀ n ∈ [2, 5, 7], exCsvRecords.take n ≠ [] ∧ exCsvRecords.take n ++ exCsvRecords.drop n = exCsvRecords ∧
    (((CsvReader.new (fun n => Fin.ofNat _ n) exCsvRecords none).toOption.bind fun r => r.toFlatAhb.toOption).isSome = true) ∧
    ((CsvReader.new (fun n => Fin.ofNat _ n) (exCsvRecords.take n) none).toOption.map fun r => r.rows.length) =
      some (if n = 2 then 0 else if n = 5 then 2 else 3) := by decide +kernel

/-- a file that cannot be read: the first row has no cell for the segment group -/
example : CsvReader.new (fun n => Fin.ofNat _ n) [exCsvRecords.headD [], [py!"0"]] none = .error .typeError := by decide +kernel

end Verif
