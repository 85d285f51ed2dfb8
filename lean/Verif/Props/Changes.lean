import Verif.Proofs.Changes
import Verif.Props.Sgh
/-!
# Properties C07, C08, C14: look-ahead and hierarchy changes
-/

namespace Verif

/-- **C07** `determine_hierarchy_changes` never raises, returns the given lines in the given order, and the change
reported for line `n` is: STAY or MOVE_TO_NEIGHBOUR_SAME_KEY if the key equals the previous key; otherwise DIVE if the
line's group is strictly below the previous group in the hierarchy and LEAVE_..._AND_DIVE if not. (So LEAVE_TO_PARENT and
MOVE_TO_NEIGHBOUR_DIFFERENT_KEY never occur.) -/
theorem C07_hierarchy_changes (lines : List AhbLine) (sgh : Sgh) :
    ∃ r, determineHierarchyChanges lines sgh = .ok r ∧ r.map Prod.fst = lines ∧
      ∀ n line c, r[n]? = some (line, c) →
        (line.segmentGroupKey = previousKeyAt lines n → c = .stay ∨ c = .moveToNeighbourSameKey) ∧
        (line.segmentGroupKey ≠ previousKeyAt lines n →
          sgh.StrictlyBelow line.segmentGroupKey (previousKeyAt lines n) → c = .diveIntoSubGroup) ∧
        (line.segmentGroupKey ≠ previousKeyAt lines n →
          ¬ sgh.StrictlyBelow line.segmentGroupKey (previousKeyAt lines n) → c = .leaveToParentAndDive) := by
  refine ⟨_, changes_eq lines sgh, ?_, ?_⟩
  · rw [changesLoop_map_fst, items_map_fst]
  · intro n line c h
    rw [changes_getElem?] at h
    cases hl : lines[n]? with
    | none => simp [hl] at h
    | some l =>
      simp only [hl, Option.map_some, Option.some.injEq, Prod.mk.injEq] at h
      obtain ⟨rfl, rfl⟩ := h
      obtain ⟨h1, h2⟩ := changeAt_sound sgh lines n l hl
      refine ⟨h1, fun hk hb => ?_, fun hk hb => ?_⟩
      · rw [h2 hk, if_pos ((Sgh.sgBelow_addr _ _ _).2 ⟨hk, hb⟩)]
      · rw [h2 hk, if_neg (fun h => hb ((Sgh.sgBelow_addr _ _ _).1 h).2)]

/-- **C08** MOVE_TO_NEIGHBOUR_SAME_KEY is reported at line `n` exactly if the key equals the previous key, the next
segment code is the one read at the most recent group change (`None` before any), the next qualifier differs from the
one read there ("UNH" before any), and a line without segment code was met since the last line with one, i.e. the line
itself or its predecessor has no segment code or it is the first line. -/
theorem C08_move_to_neighbour (lines : List AhbLine) (sgh : Sgh) (r : List (AhbLine × Change))
    (hr : determineHierarchyChanges lines sgh = .ok r) (n : Nat) (line : AhbLine) (hn : lines[n]? = some line) :
    r[n]? = some (line, .moveToNeighbourSameKey) ↔
      line.segmentGroupKey = previousKeyAt lines n ∧
      nextSegmentAt lines n = openingSegmentBefore r lines n ∧
      nextQualifierAt lines n ≠ openingQualifierBefore r lines n ∧
      (n = 0 ∨ line.segmentCode = none ∨ ∃ m prev, n = m + 1 ∧ lines[m]? = some prev ∧ prev.segmentCode = none) := by
  rw [changes_eq] at hr
  cases hr
  have hlt : n < lines.length := (List.getElem?_eq_some_iff.1 hn).1
  obtain ⟨ho1, ho2⟩ := chAt_opening sgh lines n (by omega)
  have hw := chAt_wasNone sgh lines n (by omega)
  rw [← ho1, ← ho2, changes_getElem?, hn, ← chAt_prevKey sgh lines n (by omega)]
  simp only [Option.map_some, Option.some.injEq, Prod.mk.injEq, true_and]
  rw [changeAt_cases sgh lines n line]
  have hready : (if line.segmentCode.isNone = true then true else (chAt sgh lines n).segmentCodeWasNone) = true ↔
      (n = 0 ∨ line.segmentCode = none ∨
        ∃ m prev, n = m + 1 ∧ lines[m]? = some prev ∧ prev.segmentCode = none) := by
    by_cases hc : line.segmentCode = none
    · simp [hc]
    · have : line.segmentCode.isNone = false := by cases h : line.segmentCode <;> simp_all
      simp only [this, Bool.false_eq_true, if_false, hw, hc, false_or]
  rw [← hready]
  generalize (if line.segmentCode.isNone = true then true else (chAt sgh lines n).segmentCodeWasNone) = b
  simp only [determineHierarchyChange]
  constructor
  · intro h
    split at h
    · next hk =>
      split at h
      · cases h
      · next hs =>
        split at h
        · cases h
        · next hq =>
          cases b
          · cases h
          · simp only [not_or] at hq
            exact ⟨hk, by simpa using hs, hq.1, rfl⟩
    · split at h <;> cases h
  · rintro ⟨hk, hs, hq, rfl⟩
    rw [if_pos hk, if_neg (by simpa using hs), if_neg]
    · rfl
    · rintro (h | ⟨h1, h2⟩)
      · exact hq h
      · rw [hs, h1] at h2; cases h2

/-! example: SG2 NAD+MS, SG2 NAD+MR, SG3, SG4 -/

/-- a small flat AHB in the style of UTILMD -/
def exLines : List AhbLine :=
  let ln (k c d v s : Option PyStr) (i : Int) : AhbLine :=
    { segmentGroupKey := k, segmentCode := c, dataElement := d, valuePoolEntry := v, sectionName := s,
      ahbExpression := some py!"Muss", name := some py!"Name", index := some i }
  [ ln none none none none (some py!"Kopf") 0,
    ln none (some py!"UNH") none none (some py!"Kopf") 1,
    ln none (some py!"UNH") (some py!"0062") none (some py!"Kopf") 2,
    ln (some py!"SG2") none none none (some py!"Absender") 3,
    ln (some py!"SG2") (some py!"NAD") none none (some py!"Absender") 4,
    ln (some py!"SG2") (some py!"NAD") (some py!"3035") (some py!"MS") (some py!"Absender") 5,
    ln (some py!"SG2") none none none (some py!"Empf") 6,
    ln (some py!"SG2") (some py!"NAD") none none (some py!"Empf") 7,
    ln (some py!"SG2") (some py!"NAD") (some py!"3035") (some py!"MR") (some py!"Empf") 8,
    ln (some py!"SG4") none none none (some py!"Vorgang") 9,
    ln (some py!"SG4") (some py!"IDE") none none (some py!"Vorgang") 10,
    ln (some py!"SG4") (some py!"IDE") (some py!"7495") (some py!"24") (some py!"Vorgang") 11,
    ln none (some py!"UNT") none none (some py!"Ende") 12 ]

example : (determineHierarchyChanges exLines exSgh).map (·.map Prod.snd) =
    .ok [.stay, .stay, .stay, .diveIntoSubGroup, .stay, .stay, .moveToNeighbourSameKey, .stay, .stay,
      .leaveToParentAndDive, .stay, .stay, .leaveToParentAndDive] := by decide

/-- **C14 (partial)** The look-ahead never raises and gives for every line `n` the next segment code at or after it, and
the `n`-th returned line is line `n` as long as there is a segment code at or after line `n`.
Missing: for the lines behind the last segment code the code returns the preceding line instead
(`C14_lines_not_kept`). -/
theorem C14_next_segment_partial (lines : List AhbLine) :
    ∃ r, enhanceWithNextSegment lines = .ok r ∧ r.length = lines.length ∧
      ∀ n line, lines[n]? = some line → ∃ l, r[n]? = some (l, nextSegmentAt lines n) ∧
        (nextSegmentAt lines n ≠ none → l = line) :=
  enhance_kept AhbLine.segmentCode lines

/-- **C14 (partial)** the same for value pool entries. -/
theorem C14_next_value_pool_entry_partial (lines : List AhbLine) :
    ∃ r, enhanceWithNextValuePoolEntry lines = .ok r ∧ r.length = lines.length ∧
      ∀ n line, lines[n]? = some line → ∃ l, r[n]? = some (l, nextQualifierAt lines n) ∧
        (nextQualifierAt lines n ≠ none → l = line) :=
  enhance_kept AhbLine.valuePoolEntry lines

/-- **C14 (exact)** what the code returns: the value is always the next one, and the line is the line itself up to the last match, behind it
the line before, and the last line for the first one if there is no match at all. -/
theorem C14_exact (lines : List AhbLine) :
    (∃ r, enhanceWithNextSegment lines = .ok r ∧ r.length = lines.length ∧
      ∀ n line, lines[n]? = some line → ∃ l, r[n]? = some (l, nextSegmentAt lines n) ∧
        ((nextSegmentAt lines n ≠ none ∧ l = line) ∨
          (nextSegmentAt lines n = none ∧ (lines.getLast? = some l ∧ n = 0 ∨ ∃ m, n = m + 1 ∧ lines[m]? = some l)))) ∧
    (∃ r, enhanceWithNextValuePoolEntry lines = .ok r ∧ r.length = lines.length ∧
      ∀ n line, lines[n]? = some line → ∃ l, r[n]? = some (l, nextQualifierAt lines n) ∧
        ((nextQualifierAt lines n ≠ none ∧ l = line) ∨
          (nextQualifierAt lines n = none ∧ (lines.getLast? = some l ∧ n = 0 ∨ ∃ m, n = m + 1 ∧ lines[m]? = some l)))) := by
  have key : ∀ sel : AhbLine → Option PyStr, ∃ r, enhance (fun l => (sel l).isSome) sel lines = .ok r ∧ r.length = lines.length ∧
      ∀ n line, lines[n]? = some line → ∃ l, r[n]? = some (l, (lines.drop n).findSome? sel) ∧
        (((lines.drop n).findSome? sel ≠ none ∧ l = line) ∨
          ((lines.drop n).findSome? sel = none ∧ (lines.getLast? = some l ∧ n = 0 ∨ ∃ m, n = m + 1 ∧ lines[m]? = some l))) := by
    intro sel
    obtain ⟨r, hr, hlen, h⟩ := enhance_kept sel lines
    refine ⟨r, hr, hlen, fun n line hn => ?_⟩
    obtain ⟨l, h1, h2⟩ := h n line hn
    refine ⟨l, h1, ?_⟩
    by_cases hv : (lines.drop n).findSome? sel = none
    · exact .inr ⟨hv, enhance_behind sel lines hr h1 hv⟩
    · exact .inl ⟨hv, h2 hv⟩
  exact ⟨key AhbLine.segmentCode, key AhbLine.valuePoolEntry⟩

/-- both cases behind the last match occur -/
example : (enhanceWithNextSegment [{ name := some py!"a" }, { name := some py!"b" }]).map (List.map fun x => (x.1.name, x.2)) =
    .ok [(some py!"b", none), (some py!"a", none)] := by decide

/-- **C14 is false of the code**: a trailing line without a following segment code is replaced by its predecessor. -/
theorem C14_lines_not_kept :
    ∃ lines r, enhanceWithNextSegment lines = .ok r ∧ r.map Prod.fst ≠ lines :=
  ⟨[{ segmentCode := some py!"UNT" }, { name := some py!"x" }],
    [({ segmentCode := some py!"UNT" }, some py!"UNT"), ({ segmentCode := some py!"UNT" }, none)], by decide, by decide⟩

/-! ## C62 -/

/-- **C62** two lines are reported as the border between two groups with the same opening segment iff their section names
differ, this line has a segment, the next line has none, and the next filled segment is the opening segment. -/
theorem C62_opening_segment_line_border (this next : AhbLine) (nextFilled : Option PyStr) (opening : PyStr) :
    isOpeningSegmentLineBorder this next nextFilled opening = true ↔
      this.sectionName ≠ next.sectionName ∧ this.segmentCode ≠ none ∧ next.segmentCode = none ∧
        nextFilled = some opening := by
  unfold isOpeningSegmentLineBorder
  by_cases h1 : this.sectionName = next.sectionName
  · simp [h1]
  · cases h2 : this.segmentCode with
    | none => simp [h1]
    | some c => cases h3 : next.segmentCode <;> simp [h1]

example : isOpeningSegmentLineBorder { segmentCode := some py!"NAD", sectionName := some py!"Absender" }
    { sectionName := some py!"Empf" } (some py!"NAD") py!"NAD" = true := by decide

end Verif
