import Verif.Model.Navigation
import Verif.Spec.Sgh
/-!
# Specification vocabulary for the navigation through a flat AHB

Everything is expressed by line numbers of the given list of lines.
-/

namespace Verif

/-- the first segment code at or after line `n`, `none` if there is none -/
def nextSegmentAt (lines : List AhbLine) (n : Nat) : Option PyStr := (lines.drop n).findSome? AhbLine.segmentCode

/-- the first value pool entry at or after line `n`, `none` if there is none -/
def nextQualifierAt (lines : List AhbLine) (n : Nat) : Option PyStr := (lines.drop n).findSome? AhbLine.valuePoolEntry

/-- the segment group key of the line before line `n`; before the first line we are in the root (`None`) -/
def previousKeyAt (lines : List AhbLine) : Nat → Option PyStr
  | 0 => none
  | n + 1 => (lines[n]?).bind AhbLine.segmentGroupKey

/-- the last line number below `n` for which a group change has been reported -/
def lastGroupChangeBefore (changes : List (AhbLine × Change)) (n : Nat) : Option Nat :=
  (List.range n).reverse.find? fun m => match changes[m]? with
    | some (_, c) => c ≠ .stay
    | none => false

/-- the segment code read at the most recent group change before line `n`; `None` before any change -/
def openingSegmentBefore (changes : List (AhbLine × Change)) (lines : List AhbLine) (n : Nat) : Option PyStr :=
  match lastGroupChangeBefore changes n with
  | some m => nextSegmentAt lines m
  | none => none

/-- the qualifier read at the most recent group change before line `n`; "UNH" before any change -/
def openingQualifierBefore (changes : List (AhbLine × Change)) (lines : List AhbLine) (n : Nat) : Option PyStr :=
  match lastGroupChangeBefore changes n with
  | some m => nextQualifierAt lines m
  | none => some py!"UNH"

/-- a group with key `k` may be entered while the current group has key `prev`: it is the current group itself or its
parent group is the current group or one of the groups around it (i.e. its parent is open) -/
def ParentIsOpen (s : Sgh) (prev k : Option PyStr) : Prop :=
  k = prev ∨ ∃ a b, s.keyAt? a = some prev ∧ s.keyAt? b = some k ∧ b.dropLast <+: a

/-- no line enters a group whose parent group is not open -/
def NoSkippedLevels (s : Sgh) (lines : List AhbLine) : Prop :=
  ∀ n line, lines[n]? = some line → ParentIsOpen s (previousKeyAt lines n) line.segmentGroupKey

end Verif
