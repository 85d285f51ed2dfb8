import Verif.Spec.LocationLayers
/-!
# Specification: the outcome of `determine_locations` for every list of lines (C109)

`determine_locations` walks through the lines and keeps a list of open groups, outermost first. With the hierarchy given, this list is
determined by the keys of the lines. Nothing is assumed about the order in which the lines enter groups.
-/

namespace Verif

/-- the longest common start of two lists -/
def sharedStart {α : Type} [DecidableEq α] : List α → List α → List α
  | x :: xs, y :: ys => if x = y then x :: sharedStart xs ys else []
  | _, _ => []

/-- the groups that are open after a line of group `k`, if `opened` were open before and the line before belongs to the group `prev`:
the same ones if the group does not change; one more if the new group lies below the current one; otherwise the groups around the new one
that are open without a gap, and the new one. (If the new group is open already and there is a gap around it, the innermost of those is
lost.) -/
def NextOpen (s : Sgh) (opened : List (Option PyStr)) (prev k : Option PyStr) (opened' : List (Option PyStr)) : Prop :=
  (k = prev ∧ opened' = opened) ∨
  (k ≠ prev ∧ s.StrictlyBelow k prev ∧ opened' = opened ++ [k]) ∨
  (k ≠ prev ∧ ¬ s.StrictlyBelow k prev ∧ ∃ b, s.keyAt? b = some k ∧
    ((k ∉ opened ∧ opened' = sharedStart opened (s.pathKeys b) ++ [k]) ∨
     (k ∈ opened ∧ opened' = (sharedStart opened (s.pathKeys b)).dropLast ++ [k])))

/-- no group of the hierarchy has this key -/
def UnknownGroup (s : Sgh) (k : Option PyStr) : Prop := ∀ a, s.keyAt? a ≠ some k

/-- the line goes back to a group that is open, but has been entered by skipping a level right below the root: too many groups are
closed -/
def GoesTooFarBack (s : Sgh) (opened : List (Option PyStr)) (prev k : Option PyStr) : Prop :=
  k ≠ none ∧ k ≠ prev ∧ k ∈ opened ∧ ∃ b, s.keyAt? b = some k ∧ sharedStart opened (s.pathKeys b) = [none]

/-- a group change is reported for line `n` -/
def ReportsChange (changes : List (AhbLine × Change)) (n : Nat) : Prop := ∃ line c, changes[n]? = some (line, c) ∧ c ≠ .stay

/-- the next qualifier is not "letters, then digits" -/
def BadQualifierAt (lines : List AhbLine) (n : Nat) : Prop := ∃ q, nextQualifierAt lines n = some q ∧ ¬ IsLettersThenDigits q

/-- a code that a location refuses: the next segment code, the data element or, where a group is opened, the next qualifier -/
def BadCodeAt (lines : List AhbLine) (changes : List (AhbLine × Change)) (n : Nat) (line : AhbLine) : Prop :=
  (∃ c, nextSegmentAt lines n = some c ∧ ¬ IsThreeLetterCode c) ∨ (∃ d, line.dataElement = some d ∧ ¬ IsFourDigits d) ∨
  (ReportsChange changes n ∧ BadQualifierAt lines n)

/-- the exception that line `n` causes while `opened` are open -/
inductive LineRaises (s : Sgh) (lines : List AhbLine) (changes : List (AhbLine × Change)) (n : Nat) (line : AhbLine)
    (opened : List (Option PyStr)) : Exc → Prop
  /-- the root layer takes the first qualifier of all -/
  | firstQualifier (first : n = 0) (h : BadQualifierAt lines 0) : LineRaises s lines changes n line opened .valueError
  /-- there is no line before, from which the group could be left -/
  | unknownFirst (first : n = 0) (h : UnknownGroup s line.segmentGroupKey) : LineRaises s lines changes n line opened .valueError
  /-- the wrong variable is checked -/
  | unknown (later : n ≠ 0) (h : UnknownGroup s line.segmentGroupKey) : LineRaises s lines changes n line opened .attributeError
  | tooFarBack (h : GoesTooFarBack s opened (previousKeyAt lines n) line.segmentGroupKey) :
      LineRaises s lines changes n line opened .valueError
  /-- a group is opened, but no segment follows -/
  | noSegment (qualifier : n = 0 → ¬ BadQualifierAt lines 0) (known : ¬ UnknownGroup s line.segmentGroupKey)
      (back : ¬ GoesTooFarBack s opened (previousKeyAt lines n) line.segmentGroupKey) (change : ReportsChange changes n)
      (h : nextSegmentAt lines n = none) : LineRaises s lines changes n line opened .typeError
  | code (known : ¬ UnknownGroup s line.segmentGroupKey) (segment : ReportsChange changes n → nextSegmentAt lines n ≠ none)
      (h : BadCodeAt lines changes n line) : LineRaises s lines changes n line opened .valueError

/-- the first `n` lines raise nothing, and `opened` are open after them -/
inductive Through (s : Sgh) (lines : List AhbLine) (changes : List (AhbLine × Change)) : Nat → List (Option PyStr) → Prop
  | start : Through s lines changes 0 [none]
  | next (n : Nat) (opened opened' : List (Option PyStr)) (line : AhbLine) (before : Through s lines changes n opened)
      (hl : lines[n]? = some line) (fine : ∀ e, ¬ LineRaises s lines changes n line opened e)
      (h : NextOpen s opened (previousKeyAt lines n) line.segmentGroupKey opened') : Through s lines changes (n + 1) opened'

end Verif
