import Verif.Py.Base
/-!
# CSV texts

What it means that a text is a CSV file with certain cells (RFC 4180, with any delimiter and any line end).
-/

namespace Verif

/-- in a quoted cell a quote is written twice -/
def doubleQuotes : PyStr → PyStr
  | [] => []
  | c :: s => if c = '"' then '"' :: '"' :: doubleQuotes s else c :: doubleQuotes s

/-- reading a text file turns each line end, in whatever style, into a line feed -/
inductive SameUpToLineEnds : PyStr → PyStr → Prop
  | nil : SameUpToLineEnds [] []
  | crlf {s t} : SameUpToLineEnds s t → SameUpToLineEnds ('\r' :: '\n' :: s) ('\n' :: t)
  | cr {s t} : s.head? ≠ some '\n' → SameUpToLineEnds s t → SameUpToLineEnds ('\r' :: s) ('\n' :: t)
  | char {c s t} : c ≠ '\r' → SameUpToLineEnds s t → SameUpToLineEnds (c :: s) (c :: t)

/-- the three usual line ends -/
def IsLineEnd (eol : PyStr) : Prop := eol = ['\n'] ∨ eol = ['\r', '\n'] ∨ eol = ['\r']

/-- how a cell may be written: as it is, if it does not begin with a quote and contains neither the delimiter nor a line end, or
between quotes -/
inductive CsvCell (delimiter : Char) : PyStr → PyStr → Prop
  | plain {s} : s.head? ≠ some '"' → (∀ c ∈ s, c ≠ delimiter ∧ c ≠ '\n' ∧ c ≠ '\r') → CsvCell delimiter s s
  | quoted {s t} : SameUpToLineEnds s t → CsvCell delimiter ('"' :: doubleQuotes s ++ ['"']) t

/-- a row: at least one cell, separated by the delimiter -/
inductive CsvRow (delimiter : Char) : PyStr → List PyStr → Prop
  | one {s c} : CsvCell delimiter s c → CsvRow delimiter s [c]
  | cons {s c t cs} : CsvCell delimiter s c → CsvRow delimiter t cs → CsvRow delimiter (s ++ delimiter :: t) (c :: cs)

/-- a file: rows and blank lines (records without cells); the last row may lack its line end. A row with a single empty cell has
to be written with quotes, as it were a blank line otherwise. -/
inductive CsvFile (delimiter : Char) (eol : PyStr) : PyStr → List (List PyStr) → Prop
  | nil : CsvFile delimiter eol [] []
  | last {s cs} : CsvRow delimiter s cs → s ≠ [] → CsvFile delimiter eol s [cs]
  | cons {s cs t rows} : CsvRow delimiter s cs → s ≠ [] → CsvFile delimiter eol t rows →
      CsvFile delimiter eol (s ++ eol ++ t) (cs :: rows)
  | blank {t rows} : CsvFile delimiter eol t rows → CsvFile delimiter eol (eol ++ t) ([] :: rows)

end Verif
