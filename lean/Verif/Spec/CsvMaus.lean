import Verif.Spec.Csv
import Verif.Spec.Requirements
/-!
# Specification: the requirements that the rows of a CSV file state (C122)
-/

namespace Verif

/-- the row states the requirement `q` on a data element: it is no heading, it has a data element and an expression; the entry is what the
columns "Codes und Qualifier" and "Beschreibung" contain (C44) -/
def RowStatesField (pruefidentifikator : PyStr) (row : RawRow) (q : FieldRequirement) : Prop :=
  (¬ ∃ g, SectionOnly row g) ∧ (¬ ∃ g, IsHeadingRow row g) ∧
  row.cell py!"Datenelement" = some q.dataElement ∧ q.dataElement ≠ [] ∧
  row.cell pruefidentifikator = some q.expression ∧ q.expression ≠ [] ∧
  ∃ entry name, Separated (row.cell py!"Codes und Qualifier") (row.cell py!"Beschreibung") entry name ∧
    q.entry = entry.map fun code => (code, name.getD [])

/-- the row states the expression `e` for a segment: it is no heading, it has a segment, but no data element, and this expression -/
def RowStatesSegment (pruefidentifikator : PyStr) (row : RawRow) (e : PyStr) : Prop :=
  (¬ ∃ g, SectionOnly row g) ∧ (¬ ∃ g, IsHeadingRow row g) ∧
  (∃ s, row.cell py!"Segment" = some s ∧ s ≠ []) ∧ (∀ d, row.cell py!"Datenelement" = some d → d = []) ∧
  row.cell pruefidentifikator = some e ∧ e ≠ []

/-- what the rows state, from top to bottom -/
inductive StatedBy {β : Type} (states : RawRow → β → Prop) : List RawRow → List β → Prop
  | nil : StatedBy states [] []
  | skip {row : RawRow} {rows : List RawRow} {xs : List β} (h : ∀ x, ¬ states row x) (rest : StatedBy states rows xs) :
      StatedBy states (row :: rows) xs
  | state {row : RawRow} {x : β} {rows : List RawRow} {xs : List β} (h : states row x) (rest : StatedBy states rows xs) :
      StatedBy states (row :: rows) (x :: xs)

end Verif
