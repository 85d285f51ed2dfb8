import Verif.Model.Flat
import Verif.Py.Case
import Verif.Py.Dict
import Verif.Py.Int
/-!
# Model of `maus.reader.flat_ahb_reader`

The file is given by its records (the lists of cells that `csv.reader` yields); tokenising the text of the file is modelled in
`Model/CsvText.lean`. `uuid.uuid4()` is modelled by a parameter that gives the GUID of the n-th call.
-/

namespace Verif

/-- a row of `csv.DictReader`: cells by column name; a missing cell is `None`. The surplus cells of a too long record (key
`None`) are never read by the code and not modelled. (serves flat_ahb_reader.py:139-144) -/
abbrev RawRow := List (PyStr × Option PyStr)

/-- `row[key]` (serves flat_ahb_reader.py:89-95) -/
def RawRow.subscript (row : RawRow) (key : PyStr) : PyRes (Option PyStr) :=
  match dictGet key row with
  | none => .error .keyError
  | some v => .ok v

/-! ## merging section headings -/

/-- `keys_that_must_no_hold_any_values` — /repo/src/maus/reader/flat_ahb_reader.py:89-95 -/
def contentKeys : List PyStr :=
  [py!"Segment", py!"Datenelement", py!"Codes und Qualifier", py!"Beschreibung", py!"Bedingung"]

/-- `line_only_contains_segment_gruppe` — flat_ahb_reader.py:97-104 -/
def onlyContainsSegmentGruppe (row : RawRow) : Bool :=
  contentKeys.all fun key => match dictGet key row with
    | some (some v) => !decide ((strip v).length > 0)
    | _ => true

/-- the condition of the loop; the heading of a row that only contains a heading — flat_ahb_reader.py:109-114 -/
def sectionOnly? (row : RawRow) : Option PyStr :=
  match dictGet py!"Segment Gruppe" row with
  | some (some g) => if !g.isEmpty && onlyContainsSegmentGruppe row && !py!"SG".isPrefixOf g then some g else none
  | _ => none

/-- `artificial_merged_line` — flat_ahb_reader.py:120-127 (the order of the keys depends on the iteration order of a set
and is irrelevant) -/
def artificialRow (merged : PyStr) (row : RawRow) : PyRes RawRow := do
  let index ← row.subscript []
  match index with
  | none => .error .typeError
  | some s => match pyInt s with
    | none => .error .valueError
    | some i => pure (([], some (intToDec (i - 1))) ::
        (py!"Segment Gruppe", some (replaceStr py!"  " py!" " (strip merged))) :: contentKeys.map fun key => (key, some []))

/-- the loop of `merge_section_only_lines` with the accumulator `merged_section_name` — flat_ahb_reader.py:106-131 -/
def mergeLoop (merged : PyStr) : List RawRow → PyRes (List RawRow)
  | [] => .ok []
  | row :: rows =>
    match sectionOnly? row with
    | some g => mergeLoop (merged ++ py!" " ++ g) rows
    | none =>
      if merged.length > 0 then do
        let heading ← artificialRow merged row
        let result ← mergeLoop [] rows
        pure (heading :: row :: result)
      else do
        let result ← mergeLoop [] rows
        pure (row :: result)

/-- `FlatAhbCsvReader.merge_section_only_lines` — flat_ahb_reader.py:70-132 -/
def mergeSectionOnlyLines (rows : List RawRow) : PyRes (List RawRow) := mergeLoop [] rows

/-! ## value pool entries and conditions -/

/-- the class `[A-Z0-9\-i]` — flat_ahb_reader.py:17 -/
def entryChar (c : Char) : Bool := isAZ c || (48 ≤ c.toNat && c.toNat ≤ 57) || c == '-' || c == 'i'

/-- `_value_pool_entry_pattern` — flat_ahb_reader.py:17 -/
def valuePoolEntryRe : Re :=
  .seq .bol (.seq (.nla (.str py!"MP-ID")) (.seq (.seq (.cls entryChar) (.plus (.cls entryChar))) .eol))

/-- `_numeric_value_pool_entry_pattern` — flat_ahb_reader.py:18 -/
def numericEntryRe : Re :=
  .seq .bol (.seq (.seq (.plus (.cls isDigit)) (.seq (.opt (.seq (.chr '.') (.plus (.cls isDigit)))) (.opt (.cls isaz)))) .eol)

/-- `_ebd_code_pattern` — flat_ahb_reader.py:19 -/
def ebdCodeRe : Re :=
  .seq .bol (.seq (.seq (.grp 1 (.cls fun c => c == 'E' || c == 'G')) (.seq (.chr '_') (.plus (.cls isDigit)))) .eol)

/-- `_is_value_pool_entry` — flat_ahb_reader.py:204-221 -/
def isValuePoolEntry (candidate : Option PyStr) : Bool :=
  match candidate with
  | none => false
  | some [] => false
  | some s =>
    if (valuePoolEntryRe.pyMatch s).isSome then true
    else if (numericEntryRe.pyMatch s).isSome then true
    else if s.length == 1 && s.all isUpperFixed then true
    else if (gabiQualifierRe.pyMatch s).isSome then true
    else (ebdCodeRe.pyMatch s).isSome

/-- `_is_segment_group` — flat_ahb_reader.py:223-230 (it uses the value pool entry pattern) -/
def isSegmentGroup (candidate : Option PyStr) : Bool :=
  match candidate with
  | none => false
  | some [] => false
  | some s => (valuePoolEntryRe.pyMatch s).isSome

/-- `separate_value_pool_entry_and_name` — flat_ahb_reader.py:184-202 -/
def separateValuePoolEntryAndName (x y : Option PyStr) : Option PyStr × Option PyStr :=
  let x := x.map strip
  let y := y.map strip
  if isValuePoolEntry x && !isValuePoolEntry y then (x, orNone? y)
  else if isValuePoolEntry x && isValuePoolEntry y then (x, y)
  else (orNone? y, orNone? x)

/-- `_bedingung_pattern` — flat_ahb_reader.py:232 -/
def bedingungRe : Re :=
  .seq (.chr '[') (.seq (.grp 1 (.plus (.cls isDigit))) (.seq (.chr ']') (.seq (.star true (.cls isSpace))
    (.seq (.grp 2 (.plus (.cls fun c => c != '[' && c != ']'))) (.star true (.cls isSpace))))))

/-- the pairs of the dict comprehension — flat_ahb_reader.py:244 -/
def bedingungPairs (s : PyStr) : List (PyStr × PyStr) :=
  (bedingungRe.findIter s).map fun m => ((Re.group m 1).getD [], strip ((Re.group m 2).getD []))

/-- `_extract_bedingungen` — flat_ahb_reader.py:234-244 -/
def extractBedingungen (candidate : Option PyStr) : List (PyStr × PyStr) :=
  match candidate with
  | none => []
  | some [] => []
  | some s => dictUpdate [] (bedingungPairs s)

/-- the dictionary `replacements` — flat_ahb_reader.py:292-299 -/
def sectionReplacements : List (PyStr × PyStr) :=
  [(py!"OBIS-Kennzahl der Zähleinrichtung / Mengenumwerter / Smartmeter-Gateway",
    py!"OBIS-Kennzahl der Zähleinrichtung / Mengenumwerter"),
   (py!"OBIS-Daten der Zähleinrichtung / Mengenumwerter / Smartmeter-Gateway",
    py!"OBIS-Daten der Zähleinrichtung / Mengenumwerter"),
   (py!"OBIS Daten für Lieferant relevant", py!"OBIS Daten für Marktrolle relevant")]

/-- `_replace_hardcoded_section_names` — flat_ahb_reader.py:284-302: the test strips, the lookup does not -/
def replaceHardcodedSectionNames (sectionName : Option PyStr) : PyRes (Option PyStr) :=
  match sectionName with
  | none => .ok none
  | some s =>
    if s.isEmpty then .ok (some s)
    else if (dictGet (strip s) sectionReplacements).isSome then
      match dictGet s sectionReplacements with
      | some v => .ok (some v)
      | none => .error .keyError
    else .ok (some s)

/-! ## the reader -/

/-- the changing attributes of the reader: `current_section_name` and `bedingungen` — flat_ahb_reader.py:55, 58 -/
structure CsvState where
  currentSectionName : Option PyStr := none
  bedingungen : List (PyStr × PyStr) := []

/-- `raw_ahb_row_to_ahbline` — flat_ahb_reader.py:146-174; `guid` is the result of `uuid.uuid4()` -/
def rawRowToAhbLine (pruefidentifikator : PyStr) (guid : Fin (2 ^ 128)) (st : CsvState) (row : RawRow) :
    PyRes (CsvState × Option AhbLine) := do
  let codes ← row.subscript py!"Codes und Qualifier"
  let beschreibung ← row.subscript py!"Beschreibung"
  let (valuePoolEntry, description) := separateValuePoolEntryAndName codes beschreibung
  let bedingung ← row.subscript py!"Bedingung"
  let bedingungen := dictUpdate st.bedingungen (extractBedingungen bedingung)
  let gruppe ← row.subscript py!"Segment Gruppe"
  if isSegmentGroup gruppe then
    lineOf gruppe valuePoolEntry description bedingungen
  else
    match gruppe with
    | none => .error .typeError
    | some g =>
      if g.length ≥ 3 then
        .ok ({ currentSectionName := orNone (strip g), bedingungen := bedingungen }, none)
      else lineOf none valuePoolEntry description bedingungen
where
  /-- the construction of the line — flat_ahb_reader.py:164-174 -/
  lineOf (segmentGroup valuePoolEntry description : Option PyStr) (bedingungen : List (PyStr × PyStr)) :
      PyRes (CsvState × Option AhbLine) := do
    let segment ← row.subscript py!"Segment"
    let datenelement ← row.subscript py!"Datenelement"
    let expression ← row.subscript pruefidentifikator
    let sectionName ← replaceHardcodedSectionNames st.currentSectionName
    let line ← AhbLine.new {
      guid := some guid.val, segmentGroupKey := segmentGroup, segmentCode := orNone? segment,
      dataElement := orNone? datenelement, valuePoolEntry := valuePoolEntry, ahbExpression := orNone? expression,
      name := description, sectionName := sectionName }
    pure ({ st with bedingungen := bedingungen }, some line)

/-- the loop of `__init__`; `i` is `row_index`, which is also used to number the calls of `uuid4` — flat_ahb_reader.py:63-68 -/
def readLoop (pruefidentifikator : PyStr) (guid : Nat → Fin (2 ^ 128)) (i : Nat) (st : CsvState) :
    List RawRow → PyRes (CsvState × List AhbLine)
  | [] => .ok (st, [])
  | row :: rows => do
    let (st', line) ← rawRowToAhbLine pruefidentifikator (guid i) st row
    let (st'', lines) ← readLoop pruefidentifikator guid (i + 1) st' rows
    match line with
    | none => pure (st'', lines)
    | some l => pure (st'', { l with index := some (i : Int) } :: lines)

/-- `_pruefi_pattern` — flat_ahb_reader.py:16 -/
def pruefiRe : Re := .seq .bol (.seq (.rep 5 (.cls isDigit)) .eol)

/-- `_get_name_of_expression_column` — flat_ahb_reader.py:246-260 -/
def getNameOfExpressionColumn (fieldNames : Option (List PyStr)) : Option PyStr :=
  match fieldNames with
  | none => none
  | some names => names.find? fun n => (pruefiRe.pyMatch n).isSome

/-- the field names of `csv.DictReader`: the first record (serves flat_ahb_reader.py:139-144) -/
def dictReaderFields : List (List PyStr) → Option (List PyStr)
  | [] => none
  | r :: _ => some r

/-- one row of `csv.DictReader` (`restval=None`) (serves flat_ahb_reader.py:139-144) -/
def dictReaderRow (fields : List PyStr) (record : List PyStr) : RawRow :=
  dictUpdate (dictUpdate [] (List.zipWith (fun f c => (f, some c)) fields record))
    ((fields.drop record.length).map fun f => (f, none))

/-- the rows of `csv.DictReader`: empty records are skipped (serves flat_ahb_reader.py:139-144) -/
def dictReaderRows : List (List PyStr) → List RawRow
  | [] => []
  | fields :: records => (records.filter fun r => !r.isEmpty).map (dictReaderRow fields)

/-- the attributes of a `FlatAhbCsvReader` — flat_ahb_reader.py:53-58 -/
structure CsvReader where
  rows : List AhbLine
  pruefidentifikator : PyStr
  bedingungen : List (PyStr × PyStr)
  deriving DecidableEq

/-- `if not self.pruefidentifikator: ...` of `get_raw_rows` — flat_ahb_reader.py:140-143 -/
def choosePruefidentifikator (pruefidentifikator : Option PyStr) (fields : Option (List PyStr)) : PyRes PyStr :=
  let p := if truthy pruefidentifikator then pruefidentifikator else getNameOfExpressionColumn fields
  if truthy p then .ok (p.getD []) else .error .valueError

/-- `FlatAhbCsvReader(file_path, pruefidentifikator)` for a file with the given records — flat_ahb_reader.py:52-68, 134-144 -/
def CsvReader.new (guid : Nat → Fin (2 ^ 128)) (records : List (List PyStr)) (pruefidentifikator : Option PyStr) :
    PyRes CsvReader := do
  let p ← choosePruefidentifikator pruefidentifikator (dictReaderFields records)
  let merged ← mergeSectionOnlyLines (dictReaderRows records)
  let (st, lines) ← readLoop p guid 0 {} merged
  pure { rows := lines, pruefidentifikator := p, bedingungen := st.bedingungen }

/-- `FlatAhbCsvReader.to_flat_ahb` — flat_ahb_reader.py:262-273 -/
def CsvReader.toFlatAhb (r : CsvReader) : PyRes FlatAhb := do
  let m ← AhbMetaInformation.new { pruefidentifikator := r.pruefidentifikator }
  FlatAhb.new m (r.rows.filter AhbLine.holdsAnyInformation)

/-- `FlatAhbCsvReader.extract_condition_texts` — flat_ahb_reader.py:176-182 -/
def CsvReader.extractConditionTexts (r : CsvReader) : List (PyStr × PyStr) := r.bedingungen

end Verif
