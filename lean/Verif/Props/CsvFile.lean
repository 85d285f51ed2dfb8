import Verif.Model.CsvFile
import Verif.Props.CsvText
import Verif.Proofs.Cli
/-!
# Properties C64, C69 and C78 for files: `FlatAhbCsvReader` and `check_file_can_be_parsed_as_ahb_csv` on a file system
-/

namespace Verif

variable (env : FileEnv) (guid : Nat → Fin (2 ^ 128)) (p : FsPath) (w : FileWorld)

theorem OnlyReads.readCsvFile (pruefi : Option PyStr) (delimiter : Char) :
    OnlyReads (· = p) (readCsvFile env guid p pruefi delimiter) :=
  (OnlyReads.readBytes env p).seq fun _ => .lift _

theorem readCsvFile_ok (pruefi : Option PyStr) (delimiter : Char) (r : CsvReader) :
    (readCsvFile env guid p pruefi delimiter w).1 = .ok r ↔
      ∃ content, ReadableAt env w.fs p content ∧ CsvReader.ofBytes guid delimiter content pruefi = .ok r := by
  unfold readCsvFile
  rw [seq_ok (OnlyReads.readBytes env p) fun _ => ⟨fun _ => True, .lift _⟩]
  simp only [readBytes_ok, lift_ok]
  exact Iff.rfl

/-- **C64 (check)** `check_file_can_be_parsed_as_ahb_csv` accepts a file iff the file can be read and a `FlatAhbCsvReader` can be
created from its content, with a comma as delimiter and the Prüfidentifikator of the header. It opens no other file and changes
nothing. -/
theorem C64_check_file :
    ((checkFileCanBeParsedAsAhbCsv env guid p w).1 = .ok () ↔
      ∃ content r, ReadableAt env w.fs p content ∧ CsvReader.ofBytes guid ',' content none = .ok r) ∧
    (checkFileCanBeParsedAsAhbCsv env guid p w).2.fs = w.fs ∧
    ∃ l, (checkFileCanBeParsedAsAhbCsv env guid p w).2.log = w.log ++ l ∧ ∀ e ∈ l, e = .opened p := by
  have hr := OnlyReads.readCsvFile env guid p none ','
  have hc : OnlyReads (· = p) (checkFileCanBeParsedAsAhbCsv env guid p) := hr.seq fun _ => .pure _
  refine ⟨?_, hc.fs w, ?_⟩
  · unfold checkFileCanBeParsedAsAhbCsv
    rw [seq_ok hr fun _ => ⟨fun _ => True, .pure _⟩]
    simp only [readCsvFile_ok, pure_ok, and_true]
    constructor
    · rintro ⟨r, c, h1, h2⟩
      exact ⟨c, r, h1, h2⟩
    · rintro ⟨c, r, h1, h2⟩
      exact ⟨r, c, h1, h2⟩
  · obtain ⟨l, h1, h2⟩ := hc.log w
    exact ⟨l, h1, fun e he => by obtain ⟨q, rfl, h⟩ := h2 e he; exact h⟩

/-- **C64 (check, complete files)** a readable UTF-8 file that is written as CSV with commas, has a five-digit column, complete
rows and proper headings is accepted. -/
theorem C64_check_complete_file {eol text : PyStr} {rows : List (List PyStr)} (he : IsLineEnd eol)
    (h : CsvFile ',' eol text rows) (hlen : ∀ row ∈ rows, ∀ cell ∈ row, cell.length ≤ 131072)
    (hr : ReadableAt env w.fs p (encodeUtf8 text)) (col : PyStr)
    (hp : choosePruefidentifikator none (dictReaderFields rows) = .ok col)
    (hrows : ∀ row ∈ dictReaderRows rows, CompleteRow col row) :
    (checkFileCanBeParsedAsAhbCsv env guid p w).1 = .ok () := by
  rw [(C64_check_file env guid p w).1]
  obtain ⟨r, h1⟩ := C64_complete_file guid rows none col hp hrows
  exact ⟨_, r, hr, by rw [C68_file (by decide) he h hlen]; exact h1⟩

/-- **C69 (check)** a file with readable content is refused with a ValueError, KeyError, TypeError or csv.Error
only, the latter only if it has more than 131072 bytes. -/
theorem C69_check_exceptions (content : Bytes) (hr : ReadableAt env w.fs p content) (e : Exc)
    (h : (checkFileCanBeParsedAsAhbCsv env guid p w).1 = .error e) :
    e = .valueError ∨ e = .keyError ∨ e = .typeError ∨ (e = .other ∧ 131072 < content.length) := by
  have h1 : FileProg.readBytes env p w = (.ok content, { w with log := w.log ++ [.opened p] }) := by
    rcases readBytes_cases env p w with ⟨b, hb, _, h2⟩ | ⟨x, _, _, hn⟩
    · rw [hr.1] at hb
      cases hb
      exact h2
    · exact absurd ⟨content, hr⟩ hn
  have h2 : readCsvFile env guid p none ',' w =
      (CsvReader.ofBytes guid ',' content none, { w with log := w.log ++ [.opened p] }) := seq_of_ok h1
  unfold checkFileCanBeParsedAsAhbCsv at h
  cases hx : CsvReader.ofBytes guid ',' content none with
  | ok r =>
    rw [hx] at h2
    rw [seq_of_ok h2] at h
    cases h
  | error e' =>
    rw [hx] at h2
    rw [seq_of_error h2] at h
    cases h
    exact C69_file_exceptions guid ',' content none _ hx

/-! ## examples -/

/-- a small AHB as CSV text -/
def exCsvText : PyStr :=
  py!",Segment Gruppe,Segment,Datenelement,Codes und Qualifier,Beschreibung,11042,Bedingung\r\n0,Kopfsegment,,,,,,\r\n1,,UNH,0062,,Referenz,X,\r\n"

/-- a directory with this file and a file without expression column -/
def exCsvWorld : FileWorld :=
  ⟨.dir [(py!"11042.csv", .file (encodeUtf8 exCsvText)), (py!"bad.csv", .file (encodeUtf8 py!"a,b\n1,2\n"))], []⟩

/-- a permission table without restrictions -/
def exCsvFiles : FileEnv := { readDenied := fun _ => false, writeDenied := fun _ => false, space := none }

example : (checkFileCanBeParsedAsAhbCsv exCsvFiles (fun _ => 0) [py!"11042.csv"] exCsvWorld).1 = .ok () ∧
    (checkFileCanBeParsedAsAhbCsv exCsvFiles (fun _ => 0) [py!"bad.csv"] exCsvWorld).1 = .error .valueError ∧
    (checkFileCanBeParsedAsAhbCsv exCsvFiles (fun _ => 0) [py!"missing.csv"] exCsvWorld).1 = .error .fileNotFoundError := by
  decide +kernel

example : ReadableAt exCsvFiles exCsvWorld.fs [py!"11042.csv"] (encodeUtf8 exCsvText) := ⟨rfl, rfl⟩

end Verif
