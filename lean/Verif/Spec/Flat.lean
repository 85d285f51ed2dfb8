import Verif.Proofs.White
import Verif.Spec.Deep
import Verif.Spec.Codes
/-!
# Specification vocabulary for flat AHBs
-/

namespace Verif

/-- a regular expression that ends with `$` and is used with `re.match` also accepts one trailing newline -/
def UpToNewline (P : PyStr → Prop) (s : PyStr) : Prop := P s ∨ ∃ t, P t ∧ s = t ++ ['\n']

/-- four digits, five digits or letters followed by four digits -/
def IsFlatDataElement (s : PyStr) : Prop :=
  IsFourDigits s ∨ (s.length = 5 ∧ ∀ c ∈ s, isDigit c = true) ∨
    ∃ l d, l ≠ [] ∧ (∀ c ∈ l, c ∈ capitals ∨ c ∈ smallLetters) ∧ IsFourDigits d ∧ s = l ++ d

/-- one or more upper case letters -/
def IsUpperWord (s : PyStr) : Prop := s ≠ [] ∧ ∀ c ∈ s, c ∈ capitals

/-- the three fields that `FlatAnwendungshandbuch` constrains are `None` or well formed -/
def AhbLine.WellFormed (l : AhbLine) : Prop :=
  (∀ s, l.dataElement = some s → UpToNewline IsFlatDataElement s) ∧
  (∀ s, l.segmentGroupKey = some s → UpToNewline IsSgKey s) ∧
  (∀ s, l.segmentCode = some s → UpToNewline IsUpperWord s)

/-- lines without segment group occur only at the beginning and at the end -/
def NoSgOnlyAtTheEnds (lines : List AhbLine) : Prop :=
  ∃ pre mid post, lines = pre ++ mid ++ post ∧ (∀ l ∈ pre, l.segmentGroupKey = none) ∧
    (∀ l ∈ mid, l.segmentGroupKey ≠ none) ∧ (∀ l ∈ post, l.segmentGroupKey = none)

/-- `blocks` are the pieces of the lines that are obtained by cutting wherever a line without segment group is directly
followed by a line with a segment group -/
structure CutBeforeGroups (lines : List AhbLine) (blocks : List (List AhbLine)) : Prop where
  /-- nothing is lost -/
  all : blocks.flatten = lines
  /-- there is no empty piece -/
  nonempty : ∀ b ∈ blocks, b ≠ []
  /-- there is nothing to cut in a piece -/
  inside : ∀ b ∈ blocks, ∀ pre x y post, b = pre ++ x :: y :: post → ¬ (x.segmentGroupKey = none ∧ y.segmentGroupKey ≠ none)
  /-- between two pieces there is a reason to cut -/
  cuts : ∀ pre b c post, blocks = pre ++ b :: c :: post →
    ∃ u x y v, b = u ++ [x] ∧ c = y :: v ∧ x.segmentGroupKey = none ∧ y.segmentGroupKey ≠ none

/-- the number of pieces that contain a line of the section "Abschnitts-Kontrollsegment" -/
def controlPieces (blocks : List (List AhbLine)) : Nat :=
  blocks.countP fun b => decide (∃ l ∈ b, l.sectionName = some py!"Abschnitts-Kontrollsegment")

/-- equal keys are next to each other -/
def Contiguous {α κ} (key : α → κ) (l : List α) : Prop :=
  ∀ (i j m : Nat) (a b c : α), i < j → j < m → l[i]? = some a → l[j]? = some b → l[m]? = some c → key a = key c → key b = key a

end Verif
