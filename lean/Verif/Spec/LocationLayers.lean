import Verif.Spec.Navigation
import Verif.Spec.Codes
/-!
# Specification of the locations that `determine_locations` assigns (C91)

A layer of a location describes the most recent opening of its group: which segment the group was opened with and which
qualifier came next. "Opening" means that a group change into this group was reported (see C07 for when that happens).
-/

namespace Verif

/-- the last line number up to and including `n` for which a change into the group `k` has been reported -/
def lastOpeningOf (changes : List (AhbLine × Change)) (k : Option PyStr) (n : Nat) : Option Nat :=
  (List.range (n + 1)).reverse.find? fun m => match changes[m]? with
    | some (line, c) => c ≠ .stay ∧ line.segmentGroupKey = k
    | none => false

/-- what the layer for group `k` looks like at line `n`: the segment code and the qualifier that come next from the last
opening of the group on. Before any opening only the root is open; its layer carries the opening segment of the hierarchy
and the first qualifier of all the lines. -/
def layerAt (sgh : Sgh) (lines : List AhbLine) (changes : List (AhbLine × Change)) (n : Nat) (k : Option PyStr) :
    AhbLocationLayer :=
  match lastOpeningOf changes k n with
  | some m => ⟨k, (nextSegmentAt lines m).getD [], nextQualifierAt lines m⟩
  | none => ⟨k, sgh.openingSegment, nextQualifierAt lines 0⟩

/-- the lines carry acceptable codes: segment codes of three letters, data elements of four digits; wherever a group
change is reported a segment follows and the next qualifier, if any, is letters then digits; so is the first qualifier -/
structure CodesFit (lines : List AhbLine) (changes : List (AhbLine × Change)) : Prop where
  codes : ∀ line ∈ lines, (∀ c, line.segmentCode = some c → IsThreeLetterCode c) ∧
    (∀ d, line.dataElement = some d → IsFourDigits d)
  openings : ∀ (n : Nat) line c, changes[n]? = some (line, c) → c ≠ .stay →
    nextSegmentAt lines n ≠ none ∧ ∀ q, nextQualifierAt lines n = some q → IsLettersThenDigits q
  first : ∀ q, nextQualifierAt lines 0 = some q → IsLettersThenDigits q

end Verif
