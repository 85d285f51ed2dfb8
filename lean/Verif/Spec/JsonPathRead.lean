import Verif.Model.Edifact
/-!
# Specification: the levels of a text (C112)

Written without regular expressions.
-/

namespace Verif

/-- the text begins with `["name"]`, the name is not empty and has no square brackets -/
def BeginsWithName (text name rest : PyStr) : Prop :=
  name ≠ [] ∧ (∀ c ∈ name, c ≠ '[' ∧ c ≠ ']') ∧ text = py!"[\"" ++ name ++ py!"\"]" ++ rest

/-- the text begins with `[digits]` -/
def BeginsWithIndex (text digits rest : PyStr) : Prop :=
  digits ≠ [] ∧ (∀ c ∈ digits, isDigit c = true) ∧ text = py!"[" ++ digits ++ py!"]" ++ rest

/-- the levels of a text, from left to right. Characters at which no level begins are skipped. -/
inductive LevelsOfText : PyStr → List EdifactStackLevel → Prop where
  /-- the end of the text -/
  | done : LevelsOfText [] []
  /-- no level begins here -/
  | skip (c : Char) (text : PyStr) (levels : List EdifactStackLevel) :
      (¬ ∃ name rest, BeginsWithName (c :: text) name rest) → LevelsOfText text levels → LevelsOfText (c :: text) levels
  /-- `["name"]` without index -/
  | plain (text name rest : PyStr) (levels : List EdifactStackLevel) :
      BeginsWithName text name rest → (¬ ∃ digits rest', BeginsWithIndex rest digits rest') → LevelsOfText rest levels →
      LevelsOfText text ({ name := name, isGroupable := false, index := none } :: levels)
  /-- `["name"][index]` -/
  | indexed (text name rest digits rest' : PyStr) (levels : List EdifactStackLevel) :
      BeginsWithName text name rest → BeginsWithIndex rest digits rest' → LevelsOfText rest' levels →
      LevelsOfText text ({ name := name, isGroupable := true, index := some (decToNat digits : Int) } :: levels)

end Verif
