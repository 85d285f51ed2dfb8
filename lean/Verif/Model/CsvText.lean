import Verif.Model.Csv
import Verif.Py.Files
/-!
# Model of the text layer of `FlatAhbCsvReader`

`open(file_path, "r", encoding=...)` with translation of line ends, the line iterator of a text file and the tokeniser of Python's
`csv` module (`csv.reader` with the dialect "excel" and another delimiter: quote character `"`, doubled quotes, not strict).
Simplification: the file is decoded as a whole before the first record is read (Python decodes it in pieces of 8192 bytes, so that
with several defects in one file another one of the exceptions may be raised).
-/

namespace Verif

/-- iterating over a text file: the lines with their line feeds (serves flat_ahb_reader.py:139, 144) -/
def fileLines : PyStr → List PyStr
  | [] => []
  | c :: s =>
    if c = '\n' then [c] :: fileLines s
    else match fileLines s with
      | [] => [[c]]
      | l :: ls => (c :: l) :: ls

/-- the states of the tokeniser of `csv.reader` (serves flat_ahb_reader.py:139, 144) -/
inductive TokState where
  | startRecord
  | startField
  | inField
  | inQuoted
  | quoteInQuoted
  | eatCrnl
  deriving DecidableEq

/-- the tokeniser: state, the characters of the current field, the finished fields of the record
(serves flat_ahb_reader.py:139, 144) -/
structure Tok where
  state : TokState := .startRecord
  field : PyStr := []
  fields : List PyStr := []
  deriving DecidableEq

/-- `csv.field_size_limit()` (serves flat_ahb_reader.py:139, 144) -/
def fieldSizeLimit : Nat := 131072

/-- `parse_save_field` of the `csv` module (serves flat_ahb_reader.py:139, 144) -/
def Tok.save (t : Tok) (s : TokState) : Tok := { state := s, field := [], fields := t.fields ++ [t.field] }

/-- `parse_add_char` of the `csv` module: too long fields are a `csv.Error` (serves flat_ahb_reader.py:139, 144) -/
def Tok.add (t : Tok) (c : Char) (s : TokState) : PyRes Tok :=
  if fieldSizeLimit ≤ t.field.length then .error .other else .ok { t with state := s, field := t.field ++ [c] }

/-- the case `START_FIELD` of `parse_process_char`; `none` is the end of the line (serves flat_ahb_reader.py:139, 144) -/
def Tok.stepStartField (delimiter : Char) (t : Tok) : Option Char → PyRes Tok
  | none => .ok (t.save .startRecord)
  | some c =>
    if c = '\n' ∨ c = '\r' then .ok (t.save .eatCrnl)
    else if c = '"' then .ok { t with state := .inQuoted }
    else if c = delimiter then .ok (t.save .startField)
    else t.add c .inField

/-- `parse_process_char` of the `csv` module; `none` is the end of the line (serves flat_ahb_reader.py:139, 144) -/
def Tok.step (delimiter : Char) (t : Tok) (o : Option Char) : PyRes Tok :=
  match t.state with
  | .startRecord => match o with
    | none => .ok t
    | some c => if c = '\n' ∨ c = '\r' then .ok { t with state := .eatCrnl } else t.stepStartField delimiter (some c)
  | .startField => t.stepStartField delimiter o
  | .inField => match o with
    | none => .ok (t.save .startRecord)
    | some c =>
      if c = '\n' ∨ c = '\r' then .ok (t.save .eatCrnl)
      else if c = delimiter then .ok (t.save .startField)
      else t.add c .inField
  | .inQuoted => match o with
    | none => .ok t
    | some c => if c = '"' then .ok { t with state := .quoteInQuoted } else t.add c .inQuoted
  | .quoteInQuoted => match o with
    | none => .ok (t.save .startRecord)
    | some c =>
      if c = '"' then t.add c .inQuoted
      else if c = delimiter then .ok (t.save .startField)
      else if c = '\n' ∨ c = '\r' then .ok (t.save .eatCrnl)
      else t.add c .inField
  | .eatCrnl => match o with
    | none => .ok { t with state := .startRecord }
    | some c => if c = '\n' ∨ c = '\r' then .ok t else .error .other

/-- the characters of a line and its end (serves flat_ahb_reader.py:139, 144) -/
def Tok.line (delimiter : Char) (t : Tok) : PyStr → PyRes Tok
  | [] => t.step delimiter none
  | c :: s => do
    let t' ← t.step delimiter (some c)
    t'.line delimiter s

/-- `csv.reader` (`Reader_iternext`): the records up to the end or to the first error (serves flat_ahb_reader.py:139, 144) -/
def csvRecords (delimiter : Char) : Tok → List PyStr → List (List PyStr) × Option Exc
  | t, [] => if t.field ≠ [] ∨ t.state = .inQuoted then ([(t.save .startRecord).fields], none) else ([], none)
  | t, l :: ls => match t.line delimiter l with
    | .error e => ([], some e)
    | .ok t' =>
      if t'.state = .startRecord then
        let r := csvRecords delimiter {} ls
        (t'.fields :: r.1, r.2)
      else csvRecords delimiter t' ls

/-- the records of a text file (serves flat_ahb_reader.py:59-61, 139-144) -/
def csvRead (delimiter : Char) (text : PyStr) : List (List PyStr) × Option Exc :=
  csvRecords delimiter {} (fileLines (universalNewlines text))

/-- `FlatAhbCsvReader(...)` for the records up to the end or the first error of the tokeniser. The header is read first; the other
records are read when the expression column is known. — flat_ahb_reader.py:52-68, 134-144 -/
def CsvReader.ofRecords (guid : Nat → Fin (2 ^ 128)) (pruefidentifikator : Option PyStr) : List (List PyStr) × Option Exc → PyRes CsvReader
  | (records, none) => CsvReader.new guid records pruefidentifikator
  | ([], some e) => .error e
  | (header :: _, some e) => do
    let _ ← choosePruefidentifikator pruefidentifikator (some header)
    .error e

/-- `FlatAhbCsvReader(file_path, pruefidentifikator, delimiter=delimiter)` for a file with the given text
— flat_ahb_reader.py:52-68 -/
def CsvReader.ofText (guid : Nat → Fin (2 ^ 128)) (delimiter : Char) (text : PyStr) (pruefidentifikator : Option PyStr) :
    PyRes CsvReader :=
  CsvReader.ofRecords guid pruefidentifikator (csvRead delimiter text)

/-- `FlatAhbCsvReader(file_path, pruefidentifikator, encoding="utf-8", delimiter=delimiter)` for a file with the given content
— flat_ahb_reader.py:52-68 -/
def CsvReader.ofBytes (guid : Nat → Fin (2 ^ 128)) (delimiter : Char) (content : Bytes) (pruefidentifikator : Option PyStr) :
    PyRes CsvReader := do
  let text ← decodeUtf8 content
  CsvReader.ofRecords guid pruefidentifikator (csvRecords delimiter {} (fileLines text))

end Verif
