import Verif.Spec.Csv
import Verif.Spec.Flat
/-!
# Specification: which CSV files become a flat AHB (C115)
-/

namespace Verif

/-- the row is taken for a row of a segment group -/
def RawRow.InGroup (row : RawRow) : Prop := ∃ g, row.cell py!"Segment Gruppe" = some g ∧ LooksLikeGroup g

/-- the row holds no information: no segment group, and nothing but whitespace in the other columns that are read -/
def RawRow.Blank (pruefidentifikator : PyStr) (row : RawRow) : Prop :=
  ¬ row.InGroup ∧
  ∀ key ∈ [py!"Segment", py!"Datenelement", py!"Codes und Qualifier", py!"Beschreibung", pruefidentifikator],
    ∀ t, row.cell key = some t → ∀ c ∈ t, c ∈ whiteSpace

/-- segment group, segment and data element are empty or look as they should -/
def RawRow.Convertible (row : RawRow) : Prop :=
  (∀ g, row.cell py!"Segment Gruppe" = some g → LooksLikeGroup g → UpToNewline IsSgKey g) ∧
  (∀ s, row.cell py!"Segment" = some s → s = [] ∨ UpToNewline IsUpperWord s) ∧
  (∀ d, row.cell py!"Datenelement" = some d → d = [] ∨ UpToNewline IsFlatDataElement d)

end Verif
