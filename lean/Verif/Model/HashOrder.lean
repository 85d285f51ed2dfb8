import Verif.Model.Csv
import Verif.Model.Deep
/-!
# Model: sets are iterated in an order that differs from process to process

Python randomises the hashes of strings, hence the order in which a set of strings is iterated. The code iterates two such sets: the set of
column names in `merge_section_only_lines` and the set of expressions in `get_all_expressions` (`sorted`). (Two more sets are only used
for `in`, one for `len` and for the text of an exception.) Here the order is a parameter.
-/

namespace Verif

/-- `line_only_contains_segment_gruppe`, the set of columns is iterated in the order `keys` — flat_ahb_reader.py:97-104 -/
def onlyContainsSegmentGruppeIn (keys : List PyStr) (row : RawRow) : Bool :=
  keys.all fun key => match dictGet key row with
    | some (some v) => !decide ((strip v).length > 0)
    | _ => true

/-- the condition of the loop — flat_ahb_reader.py:109-114 -/
def sectionOnlyIn (keys : List PyStr) (row : RawRow) : Option PyStr :=
  match dictGet py!"Segment Gruppe" row with
  | some (some g) => if !g.isEmpty && onlyContainsSegmentGruppeIn keys row && !py!"SG".isPrefixOf g then some g else none
  | _ => none

/-- `artificial_merged_line` — flat_ahb_reader.py:120-127 -/
def artificialRowIn (keys : List PyStr) (merged : PyStr) (row : RawRow) : PyRes RawRow := do
  let index ← row.subscript []
  match index with
  | none => .error .typeError
  | some s => match pyInt s with
    | none => .error .valueError
    | some i => pure (keys.foldl (fun d key => dictSet key (some []) d) [([], some (intToDec (i - 1))),
        (py!"Segment Gruppe", some (replaceStr py!"  " py!" " (strip merged)))])

/-- the loop of `merge_section_only_lines` — flat_ahb_reader.py:106-131. The set is the same object for all rows, and it is not
modified, so that it is iterated in the same order every time. -/
def mergeLoopIn (keys : List PyStr) (merged : PyStr) : List RawRow → PyRes (List RawRow)
  | [] => .ok []
  | row :: rows =>
    match sectionOnlyIn keys row with
    | some g => mergeLoopIn keys (merged ++ py!" " ++ g) rows
    | none =>
      if merged.length > 0 then do
        let heading ← artificialRowIn keys merged row
        let result ← mergeLoopIn keys [] rows
        pure (heading :: row :: result)
      else do
        let result ← mergeLoopIn keys [] rows
        pure (row :: result)

/-- `FlatAhbCsvReader.merge_section_only_lines` — flat_ahb_reader.py:70-132 -/
def mergeSectionOnlyLinesIn (keys : List PyStr) (rows : List RawRow) : PyRes (List RawRow) := mergeLoopIn keys [] rows

/-- `FlatAhbCsvReader(file_path, pruefidentifikator)` — flat_ahb_reader.py:52-68, 134-144 -/
def CsvReader.newIn (keys : List PyStr) (guid : Nat → Fin (2 ^ 128)) (records : List (List PyStr)) (pruefidentifikator : Option PyStr) :
    PyRes CsvReader := do
  let p ← choosePruefidentifikator pruefidentifikator (dictReaderFields records)
  let merged ← mergeSectionOnlyLinesIn keys (dictReaderRows records)
  let (st, lines) ← readLoop p guid 0 {} merged
  pure { rows := lines, pruefidentifikator := p, bedingungen := st.bedingungen }

/-- `sorted(result)` at the end of `get_all_expressions`, the set is iterated in the order `elements`
— /repo/src/maus/models/anwendungshandbuch.py:557 -/
def sortedElements (elements : List PyStr) : List PyStr := elements.mergeSort fun a b => decide (a ≤ b)

end Verif
