import Verif.Model.CsvText
/-!
# Model of `FlatAhbCsvReader` on a file system
-/

namespace Verif

open FileProg

/-- `FlatAhbCsvReader(file_path, pruefidentifikator, delimiter=delimiter)` — flat_ahb_reader.py:52-68 -/
def readCsvFile (env : FileEnv) (guid : Nat → Fin (2 ^ 128)) (p : FsPath) (pruefidentifikator : Option PyStr)
    (delimiter : Char) : FileProg CsvReader := do
  let content ← readBytes env p
  lift (CsvReader.ofBytes guid delimiter content pruefidentifikator)

/-- `check_file_can_be_parsed_as_ahb_csv` — flat_ahb_reader.py:38-44 -/
def checkFileCanBeParsedAsAhbCsv (env : FileEnv) (guid : Nat → Fin (2 ^ 128)) (p : FsPath) : FileProg Unit := do
  let _ ← readCsvFile env guid p none ','
  pure ()

end Verif
