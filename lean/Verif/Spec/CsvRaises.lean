import Verif.Spec.Csv
import Verif.Spec.Flat
/-!
# Specification: which exception the CSV reader raises (C113)

`RawRow.cell`, `RawRow.HasColumn`, `SectionOnly`, `LooksLikeGroup`, `ReadableRow`: Spec/Csv.lean.
-/

namespace Verif

/-- the number in the column without a name cannot be read: there is no such column, the row is too short to have a cell there,
or the cell holds no integer -/
def IndexRaises (row : RawRow) (e : Exc) : Prop :=
  (¬ row.HasColumn [] ∧ e = .keyError) ∨
  (row.HasColumn [] ∧ row.cell [] = none ∧ e = .typeError) ∨
  ∃ t, row.cell [] = some t ∧ (¬ ∃ i, IntText t i) ∧ e = .valueError

/-- `row` is the first row below the heading `heading`, and its number cannot be read -/
def BelowHeadingRaises (heading row : RawRow) (e : Exc) : Prop :=
  (∃ g, SectionOnly heading g) ∧ (¬ ∃ g, SectionOnly row g) ∧ IndexRaises row e

/-- the first row below a heading whose number cannot be read raises `e` -/
def MergeRaises (rows : List RawRow) (e : Exc) : Prop :=
  ∃ before heading row after, rows = before ++ heading :: row :: after ∧ BelowHeadingRaises heading row e ∧
    ∀ b h r a, before ++ [heading] = b ++ h :: r :: a → ∀ e', ¬ BelowHeadingRaises h r e'

/-- the row cannot be read: a column is missing, the row is too short to have a cell for the segment group, or it is no heading
and its expression consists of blanks -/
def RowRaises (pruefidentifikator : PyStr) (row : RawRow) (e : Exc) : Prop :=
  ((∃ key ∈ [py!"Codes und Qualifier", py!"Beschreibung", py!"Bedingung", py!"Segment Gruppe"], ¬ row.HasColumn key) ∧
    e = .keyError) ∨
  ((∀ key ∈ [py!"Codes und Qualifier", py!"Beschreibung", py!"Bedingung", py!"Segment Gruppe"], row.HasColumn key) ∧
    ((row.cell py!"Segment Gruppe" = none ∧ e = .typeError) ∨
     ((∃ g, row.cell py!"Segment Gruppe" = some g ∧ (LooksLikeGroup g ∨ g.length < 3)) ∧
       (((∃ key ∈ [py!"Segment", py!"Datenelement", pruefidentifikator], ¬ row.HasColumn key) ∧ e = .keyError) ∨
        ((∀ key ∈ [py!"Segment", py!"Datenelement", pruefidentifikator], row.HasColumn key) ∧
          (∃ t, row.cell pruefidentifikator = some t ∧ t ≠ [] ∧ ∀ c ∈ t, c ∈ whiteSpace) ∧ e = .valueError)))))

/-- the first row that cannot be read raises `e` -/
def FirstRowRaises (pruefidentifikator : PyStr) (rows : List RawRow) (e : Exc) : Prop :=
  ∃ before row after, rows = before ++ row :: after ∧ (∀ r ∈ before, ReadableRow pruefidentifikator r) ∧
    RowRaises pruefidentifikator row e

/-- no Prüfidentifikator is given, and no name of a column consists of five digits -/
def NoExpressionColumn (given : Option PyStr) (records : List (List PyStr)) : Prop :=
  (given = none ∨ given = some []) ∧
    ∀ header rest, records = header :: rest → ∀ n ∈ header, ¬ UpToNewline IsFiveDigits n

/-- the expressions are read from the column `p`: the given one, otherwise the first whose name consists of five digits -/
def ExpressionColumn (given : Option PyStr) (records : List (List PyStr)) (p : PyStr) : Prop :=
  (given = some p ∧ p ≠ []) ∨
  ((given = none ∨ given = some []) ∧ ∃ before after rest, records = (before ++ p :: after) :: rest ∧
    UpToNewline IsFiveDigits p ∧ ∀ m ∈ before, ¬ UpToNewline IsFiveDigits m)

/-- reading the records raises `e`: there is no expression column; or the headings cannot be merged; or one of the rows that the
merging leaves (see C42) cannot be read -/
def ReaderRaises (given : Option PyStr) (records : List (List PyStr)) (e : Exc) : Prop :=
  (NoExpressionColumn given records ∧ e = .valueError) ∨
  ∃ p, ExpressionColumn given records p ∧
    (MergeRaises (dictReaderRows records) e ∨
      ∃ merged, mergeSectionOnlyLines (dictReaderRows records) = .ok merged ∧ FirstRowRaises p merged e)

end Verif
