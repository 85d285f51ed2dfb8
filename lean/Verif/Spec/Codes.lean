import Verif.Proofs.White
import Verif.Py.Unicode
/-!
# Readable descriptions of the codes used in EDIFACT locations
-/

namespace Verif

/-- "SG" followed by at least one digit -/
def IsSgKey (s : PyStr) : Prop := ∃ d, d ≠ [] ∧ (∀ c ∈ d, isDigit c = true) ∧ s = py!"SG" ++ d

/-- three upper case letters A–Z -/
def IsThreeLetterCode (s : PyStr) : Prop := s.length = 3 ∧ ∀ c ∈ s, c ∈ capitals

/-- four digits -/
def IsFourDigits (s : PyStr) : Prop := s.length = 4 ∧ ∀ c ∈ s, isDigit c = true

/-- upper case letters A–Z followed by digits (both possibly empty) -/
def IsLettersThenDigits (s : PyStr) : Prop :=
  ∃ l d, (∀ c ∈ l, c ∈ capitals) ∧ (∀ c ∈ d, isDigit c = true) ∧ s = l ++ d

end Verif
