import Verif.Spec.Codes
import Verif.Spec.Csv
import Verif.Spec.Deep
import Verif.Spec.ValuePool
/-!
# Specification vocabulary: which arguments the constructors accept
-/

namespace Verif

/-- an optional argument: `None`, or as described -/
def NoneOr {α : Type} (P : α → Prop) (o : Option α) : Prop := ∀ a, o = some a → P a

/-- an argument that must be given: not `None`, and as described -/
def SomeOf {α : Type} (P : α → Prop) (o : Option α) : Prop := ∃ a, o = some a ∧ P a

end Verif
