import Verif.Spec.Csv
/-!
# Specification of C130: what a CSV file says in a column
-/

namespace Verif

/-- the position of the last column with the given name -/
def lastColumn (header : List PyStr) (name : PyStr) : Nat := header.length - 1 - header.reverse.idxOf name

/-- the cell of a record in the (last) column with the given name: `none` if there is no such column, `some none` if the record is too short -/
def cellAt (header record : List PyStr) (name : PyStr) : Option (Option PyStr) :=
  if name ∈ header then some record[lastColumn header name]? else none

/-- the columns that an AHB consists of besides the column with the expressions -/
def ahbColumns : List PyStr :=
  [[], py!"Segment Gruppe", py!"Segment", py!"Datenelement", py!"Codes und Qualifier", py!"Beschreibung", py!"Bedingung"]

/-- the two tables say the same in the given columns, record by record (records without cells are blank lines of the file) -/
def SameCells (columns : List PyStr) (header : List PyStr) (records : List (List PyStr)) (header' : List PyStr) (records' : List (List PyStr)) :
    Prop :=
  List.Forall₂ (fun r r' => (r = [] ↔ r' = []) ∧ ∀ name ∈ columns, cellAt header r name = cellAt header' r' name) records records'

/-- `p` is the column with the expressions: it is given, or it is the only column whose name consists of five digits (and possibly a line feed) -/
def OnlyExpressionColumn (given : Option PyStr) (header : List PyStr) (p : PyStr) : Prop :=
  (given = some p ∧ p ≠ []) ∨ ((given = none ∨ given = some []) ∧ p ∈ header ∧ IsFiveDigits p ∧ ∀ n ∈ header, n ≠ p →
    ¬ IsFiveDigits n ∧ ∀ s, n = s ++ py!"\n" → ¬ IsFiveDigits s)

end Verif
