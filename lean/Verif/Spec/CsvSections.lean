import Verif.Spec.Csv
/-!
# Specification of C129: what a row says

The GUID of a row is drawn at random and its index is its position in the file; everything else comes from the cells and the headings.
-/

namespace Verif

/-- a row without its GUID and its position -/
def AhbLine.withoutPosition (l : AhbLine) : AhbLine := { l with guid := none, index := none }

/-- the conditions `whole` are those of `first`, overwritten by those of `second` -/
def OverwrittenBy (first second whole : List (PyStr × PyStr)) : Prop :=
  ∀ k t, (k, t) ∈ whole ↔ (k, t) ∈ second ∨ ((¬ ∃ t', (k, t') ∈ second) ∧ (k, t) ∈ first)

end Verif
