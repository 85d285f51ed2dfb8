import Verif.Model.WriteWhile
/-!
# Specification: several runs that write the same file at the same time (C121)
-/

namespace Verif

/-- some run has opened the file, and every run that has opened it has written everything -/
def WritersState.Finished (new : Nat → Bytes) (s : WritersState) : Prop :=
  (∃ i, s.written i ≠ none) ∧ ∀ i pos, s.written i = some pos → pos = (new i).length

end Verif
