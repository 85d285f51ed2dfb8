import Verif.Proofs.CsvText
import Verif.Proofs.Raises
import Verif.Proofs.FileText
import Verif.Proofs.PartialText
import Verif.Props.Csv
/-!
# C68 CSV texts are read exactly, C69 which exceptions the CSV reader raises
-/

namespace Verif

/-! ## C68 -/

/-- **C68** every CSV text — with any delimiter, any of the usual line ends, cells with or without quotes, line ends and delimiters
and quotes inside quoted cells, blank lines, with or without a line end at the end — is read as exactly the cells it was made of. -/
theorem C68_csv_text {delimiter : Char} {eol text : PyStr} {rows : List (List PyStr)}
    (hd : delimiter ≠ '"' ∧ delimiter ≠ '\n' ∧ delimiter ≠ '\r') (he : IsLineEnd eol) (h : CsvFile delimiter eol text rows)
    (hlen : ∀ row ∈ rows, ∀ cell ∈ row, cell.length ≤ 131072) : csvRead delimiter text = (rows, none) :=
  csvRead_file hd he h hlen

/-- **C68** so the reader of a CSV file depends on the cells only, not on how they are written. -/
theorem C68_reader {delimiter : Char} {eol text : PyStr} {rows : List (List PyStr)}
    (hd : delimiter ≠ '"' ∧ delimiter ≠ '\n' ∧ delimiter ≠ '\r') (he : IsLineEnd eol) (h : CsvFile delimiter eol text rows)
    (hlen : ∀ row ∈ rows, ∀ cell ∈ row, cell.length ≤ 131072) (guid : Nat → Fin (2 ^ 128)) (pruefi : Option PyStr) :
    CsvReader.ofText guid delimiter text pruefi = CsvReader.new guid rows pruefi := by
  rw [CsvReader.ofText, C68_csv_text hd he h hlen]
  rfl

/-- **C68** the same for the file on the disk: the UTF-8 encoded text. -/
theorem C68_file {delimiter : Char} {eol text : PyStr} {rows : List (List PyStr)}
    (hd : delimiter ≠ '"' ∧ delimiter ≠ '\n' ∧ delimiter ≠ '\r') (he : IsLineEnd eol) (h : CsvFile delimiter eol text rows)
    (hlen : ∀ row ∈ rows, ∀ cell ∈ row, cell.length ≤ 131072) (guid : Nat → Fin (2 ^ 128)) (pruefi : Option PyStr) :
    CsvReader.ofBytes guid delimiter (encodeUtf8 text) pruefi = CsvReader.new guid rows pruefi := by
  rw [CsvReader.ofBytes, decodeUtf8_encodeUtf8]
  exact C68_reader hd he h hlen guid pruefi

/-- **C68** two ways to write the same cells (other delimiters, other line ends, other quotes) are read alike. -/
theorem C68_formatting {d d' : Char} {eol eol' text text' : PyStr} {rows : List (List PyStr)}
    (hd : d ≠ '"' ∧ d ≠ '\n' ∧ d ≠ '\r') (hd' : d' ≠ '"' ∧ d' ≠ '\n' ∧ d' ≠ '\r') (he : IsLineEnd eol) (he' : IsLineEnd eol')
    (h : CsvFile d eol text rows) (h' : CsvFile d' eol' text' rows) (hlen : ∀ row ∈ rows, ∀ cell ∈ row, cell.length ≤ 131072)
    (guid : Nat → Fin (2 ^ 128)) (pruefi : Option PyStr) :
    CsvReader.ofText guid d text pruefi = CsvReader.ofText guid d' text' pruefi := by
  rw [C68_reader hd he h hlen, C68_reader hd' he' h' hlen]

/-- **C68** no text of at most 131072 characters is refused by the tokeniser, however malformed the quotes are. -/
theorem C68_tokeniser_total (delimiter : Char) (text : PyStr) (h : text.length ≤ 131072) :
    ∃ records, csvRead delimiter text = (records, none) :=
  ⟨(csvRead delimiter text).1, by
    have := csvRead_ok delimiter text h
    exact Prod.ext rfl this⟩

/-- **C68** the bound on the length of the cells cannot be dropped: a longer cell is a `csv.Error`. -/
theorem C68_long_cell {delimiter : Char} {cell : PyStr} (hq : cell.head? ≠ some '"')
    (hc : ∀ c ∈ cell, c ≠ delimiter ∧ c ≠ '\n' ∧ c ≠ '\r') (hlen : 131072 < cell.length) :
    csvRead delimiter cell = ([], some .other) := by
  have hne : cell ≠ [] := fun h => by rw [h] at hlen; simp at hlen
  have hr : '\r' ∉ cell := fun h => (hc _ h).2.2 rfl
  have hh : cell.head? ≠ some '\n' ∧ cell.head? ≠ some '\r' :=
    ⟨fun h => (hc _ (List.mem_of_head? h)).2.1 rfl, fun h => (hc _ (List.mem_of_head? h)).2.2 rfl⟩
  have h1 := csvRest_startRecord (d := delimiter) hne hh []
  have h2 := csvRest_long delimiter [] cell [] .startField (.inr ⟨rfl, rfl, hq⟩) hc (by simp) (by simpa [fieldSizeLimit] using hlen) []
  rw [csvRead_eq, universalNewlines_id hr, csvStart, if_neg hne]
  rw [List.append_nil] at h1 h2
  rw [h1, h2]

/-- **C68** with C64: a file whose text is CSV, whose rows are complete and whose headings are proper headings can be read. -/
theorem C68_complete_file {delimiter : Char} {eol text : PyStr} {rows : List (List PyStr)}
    (hd : delimiter ≠ '"' ∧ delimiter ≠ '\n' ∧ delimiter ≠ '\r') (he : IsLineEnd eol) (h : CsvFile delimiter eol text rows)
    (hlen : ∀ row ∈ rows, ∀ cell ∈ row, cell.length ≤ 131072) (guid : Nat → Fin (2 ^ 128)) (pruefi : Option PyStr) (p : PyStr)
    (hp : choosePruefidentifikator pruefi (dictReaderFields rows) = .ok p)
    (hrows : ∀ row ∈ dictReaderRows rows, CompleteRow p row) : ∃ r, CsvReader.ofText guid delimiter text pruefi = .ok r := by
  rw [C68_reader hd he h hlen]
  exact C64_complete_file guid rows pruefi p hp hrows

/-- a text with quotes, doubled quotes, a delimiter and a Windows line end inside a cell, a blank line, no line end at the end -/
example : CsvFile ';' py!"\r\n" (py!"a;\"b;\"\"\r\nc\"\r\n\r\n;x") [[py!"a", py!"b;\"\nc"], [], [[], py!"x"]] := by
  have q : SameUpToLineEnds py!"b;\"\r\nc" py!"b;\"\nc" := sameUpToLineEnds_iff.2 (by decide +kernel)
  have p (s : PyStr) (h1 : s.head? ≠ some '"') (h2 : (s.all fun c => c != ';' && c != '\n' && c != '\r') = true) : CsvCell ';' s s :=
    .plain h1 fun c hc => by
      have := List.all_eq_true.1 h2 c hc
      simp only [Bool.and_eq_true, bne_iff_ne, ne_eq] at this
      exact ⟨this.1.1, this.1.2, this.2⟩
  exact .cons (s := py!"a;\"b;\"\"\r\nc\"") (.cons (s := py!"a") (p _ (by decide) (by decide)) (.one (.quoted q))) (by decide)
    (.blank (.last (.cons (s := []) (p _ (by decide) (by decide)) (.one (p _ (by decide) (by decide)))) (by decide)))

example : csvRead ';' (py!"a;\"b;\"\"\r\nc\"\r\n\r\n;x") = ([[py!"a", py!"b;\"\nc"], [], [[], py!"x"]], none) := by decide +kernel
example : csvRead ',' py!"\"a\"b,c\"d\",\"\n" = ([[py!"ab", py!"c\"d\"", py!"\n"]], none) := by decide +kernel
example : (List.replicate 131073 'x').head? ≠ some '"' ∧ (∀ c ∈ List.replicate 131073 'x', c ≠ ',' ∧ c ≠ '\n' ∧ c ≠ '\r') ∧
    131072 < (List.replicate 131073 'x').length := by
  refine ⟨by rw [List.head?_replicate, if_neg (by omega)]; decide, fun c hc => ?_, by rw [List.length_replicate]; omega⟩
  rw [List.mem_replicate] at hc
  rw [hc.2]
  decide

/-! ## C69 -/

/-- `ValueError`, `KeyError`, `TypeError` -/
def CsvExc (e : Exc) : Prop := e = .valueError ∨ e = .keyError ∨ e = .typeError

theorem CsvExc.vlu : CsvExc .valueError := .inl rfl
theorem CsvExc.key : CsvExc .keyError := .inr (.inl rfl)
theorem CsvExc.typ : CsvExc .typeError := .inr (.inr rfl)

theorem raises_subscript (row : RawRow) (key : PyStr) : Raises CsvExc (row.subscript key) := by
  unfold RawRow.subscript
  split
  · exact .error .key
  · exact .ok _

theorem raises_replace (s : Option PyStr) : Raises CsvExc (replaceHardcodedSectionNames s) := by
  unfold replaceHardcodedSectionNames
  split
  · exact .ok _
  · refine .ite (.ok _) (.ite ?_ (.ok _))
    split
    · exact .ok _
    · exact .error .key

theorem raises_lineOf (p : PyStr) (g : Fin (2 ^ 128)) (st : CsvState) (row : RawRow) (a b c : Option PyStr) (bd : List (PyStr × PyStr)) :
    Raises CsvExc (rawRowToAhbLine.lineOf p g st row a b c bd) := by
  unfold rawRowToAhbLine.lineOf
  refine (raises_subscript _ _).bind fun _ => (raises_subscript _ _).bind fun _ => (raises_subscript _ _).bind fun _ =>
    (raises_replace _).bind fun _ => Raises.bind ?_ fun _ => .ok _
  unfold AhbLine.new
  exact .ite (.ok _) (.error .vlu)

theorem raises_row (p : PyStr) (g : Fin (2 ^ 128)) (st : CsvState) (row : RawRow) : Raises CsvExc (rawRowToAhbLine p g st row) := by
  unfold rawRowToAhbLine
  refine (raises_subscript _ _).bind fun _ => (raises_subscript _ _).bind fun _ => ?_
  dsimp only
  refine (raises_subscript _ _).bind fun _ => (raises_subscript _ _).bind fun gruppe => ?_
  refine .ite (raises_lineOf _ _ _ _ _ _ _ _) ?_
  split
  · exact .error .typ
  · exact .ite (.ok _) (raises_lineOf _ _ _ _ _ _ _ _)

theorem raises_readLoop (p : PyStr) (guid : Nat → Fin (2 ^ 128)) : ∀ (rows : List RawRow) (i : Nat) (st : CsvState),
    Raises CsvExc (readLoop p guid i st rows)
  | [], _, _ => .ok _
  | row :: rows, i, st => by
    unfold readLoop
    refine (raises_row _ _ _ _).bind fun _ => ?_
    refine (raises_readLoop p guid rows _ _).bind fun _ => ?_
    split
    split <;> exact .ok _

theorem raises_mergeLoop : ∀ (rows : List RawRow) (m : PyStr), Raises CsvExc (mergeLoop m rows)
  | [], _ => .ok _
  | row :: rows, m => by
    unfold mergeLoop
    split
    · exact raises_mergeLoop rows _
    · refine .ite (Raises.bind ?_ fun _ => (raises_mergeLoop rows _).bind fun _ => .ok _) ((raises_mergeLoop rows _).bind fun _ => .ok _)
      unfold artificialRow
      refine (raises_subscript _ _).bind fun _ => ?_
      split
      · exact .error .typ
      · split
        · exact .error .vlu
        · exact .ok _

theorem raises_choose (a : Option PyStr) (b : Option (List PyStr)) : Raises CsvExc (choosePruefidentifikator a b) := by
  unfold choosePruefidentifikator
  exact .ite (.ok _) (.error .vlu)

/-- **C69** whatever the text of the file is, the reader returns or raises a `ValueError`, `KeyError`, `TypeError` or `csv.Error`;
a `csv.Error` only if the text has more than 131072 characters. -/
theorem C69_reader_exceptions (guid : Nat → Fin (2 ^ 128)) (delimiter : Char) (text : PyStr) (pruefi : Option PyStr) (e : Exc)
    (h : CsvReader.ofText guid delimiter text pruefi = .error e) :
    e = .valueError ∨ e = .keyError ∨ e = .typeError ∨ (e = .other ∧ 131072 < text.length) := by
  have hnew : ∀ records e, CsvReader.new guid records pruefi = .error e → CsvExc e := fun records e h => by
    have hr : Raises CsvExc (CsvReader.new guid records pruefi) := by
      unfold CsvReader.new
      exact (raises_choose _ _).bind fun _ => (raises_mergeLoop _ _).bind fun _ => (raises_readLoop _ _ _ _ _).bind fun _ => .ok _
    exact hr e h
  have widen : ∀ e, CsvExc e → e = .valueError ∨ e = .keyError ∨ e = .typeError ∨ (e = .other ∧ 131072 < text.length) := by
    rintro e (h | h | h) <;> simp [h]
  have hlong : ∀ e, (csvRead delimiter text).2 = some e → e = .other ∧ 131072 < text.length := fun e he => by
    refine ⟨csvRead_error he, ?_⟩
    by_contra hl
    rw [csvRead_ok delimiter text (by simpa [fieldSizeLimit] using hl)] at he
    cases he
  unfold CsvReader.ofText CsvReader.ofRecords at h
  split at h
  · exact widen _ (hnew _ _ h)
  · rename_i e' heq
    cases h
    exact .inr (.inr (.inr (hlong _ (by rw [heq]))))
  · rename_i header rest e' heq
    cases hc : choosePruefidentifikator pruefi (some header) with
    | error e'' =>
      rw [hc] at h
      cases h
      exact widen _ (raises_choose _ _ _ hc)
    | ok p =>
      rw [hc] at h
      cases h
      exact .inr (.inr (.inr (hlong _ (by rw [heq]))))

/-- **C69** the same for every content of the file: bytes that are not UTF-8 are a `UnicodeDecodeError`, which is a `ValueError`. -/
theorem C69_file_exceptions (guid : Nat → Fin (2 ^ 128)) (delimiter : Char) (content : Bytes) (pruefi : Option PyStr) (e : Exc)
    (h : CsvReader.ofBytes guid delimiter content pruefi = .error e) :
    e = .valueError ∨ e = .keyError ∨ e = .typeError ∨ (e = .other ∧ 131072 < content.length) := by
  unfold CsvReader.ofBytes decodeUtf8 at h
  split at h
  · cases h; exact .inl rfl
  · rename_i a ha
    have hlen : a.toList.length ≤ content.length := by
      rw [utf8Decode?_some ha]
      exact length_le_encodeUtf8 _
    rcases C69_reader_exceptions guid delimiter a.toList pruefi e h with h | h | h | h
    · exact .inl h
    · exact .inr (.inl h)
    · exact .inr (.inr (.inl h))
    · exact .inr (.inr (.inr ⟨h.1, Nat.lt_of_lt_of_le h.2 hlen⟩))

/-- **C69** turning what has been read into a flat AHB raises nothing but a `ValueError`. -/
theorem C69_to_flat_ahb_exceptions (r : CsvReader) (e : Exc) (h : r.toFlatAhb = .error e) : e = .valueError := by
  have hr : Raises (· = .valueError) r.toFlatAhb := by
    unfold CsvReader.toFlatAhb AhbMetaInformation.new FlatAhb.new FlatAhb.checkLines
    exact Raises.bind (.ite (.error rfl) (.ite (.error rfl) (.ok _))) fun _ =>
      Raises.bind (.ite (.error rfl) (.ite (.error rfl) (.ok _))) fun _ => .ok _
  exact hr e h

/-- each of the exceptions does occur: no expression column, a missing column, a row that is too short -/
example : CsvReader.ofText (fun _ => 0) ',' py!"a,b\n1,2\n" none = .error .valueError := by decide +kernel
example : CsvReader.ofText (fun _ => 0) ',' py!"11042,b\n1,2\n" none = .error .keyError := by decide +kernel
example : CsvReader.ofText (fun _ => 0) ',' py!"11042,Codes und Qualifier,Beschreibung,Bedingung,Segment Gruppe\nX\n" none =
    .error .typeError := by decide +kernel
example : CsvReader.ofBytes (fun _ => 0) ',' [0x31, 0xff] none = .error .valueError := by decide +kernel

end Verif
