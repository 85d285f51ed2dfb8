import Verif.Proofs.White
import Verif.Model.ValuePool
/-!
# Specification vocabulary for value pools and json paths
-/

namespace Verif

/-- What the library accepts as qualifier of a value pool entry: it starts with an upper case letter or a digit, or it is
a (possibly line-terminated) word of upper case letters, digits and hyphens that starts with a hyphen and may end with
"RLMoT" or "RLMmT". -/
def AcceptableQualifier (q : PyStr) : Prop :=
  ∃ c rest, q = c :: rest ∧ (c ∈ capitals ∨ isDigit c = true ∨
    c = '-' ∧ ∃ word suffix newline, rest = word ++ suffix ++ newline ∧
      (∀ x ∈ word, x ∈ capitals ∨ isDigit x = true ∨ x = '-') ∧
      suffix ∈ [[], py!"RLMoT", py!"RLMmT"] ∧ newline ∈ [[], py!"\n"])

/-- the entry after the replacement of its qualifier by `new` -/
def ValuePoolEntry.replacedBy (merger : Option (PyStr → PyStr → PyStr)) (e : ValuePoolEntry) (new : PyStr) :
    ValuePoolEntry :=
  { qualifier := new, ahbExpression := e.ahbExpression
    meaning := match merger with
      | none => e.meaning
      | some merge => merge e.meaning e.qualifier }

end Verif
