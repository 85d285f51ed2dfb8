import Verif.Proofs.LocationLayers
/-!
# Property C91: complete specification of `determine_locations`
-/

namespace Verif

/-- **C91 (codes are necessary)** whatever the hierarchy and the lines: if `determine_locations` returns, the segment codes,
data elements and opening qualifiers of the lines are acceptable, and a segment follows each group change. -/
theorem C91_codes (sgh : Sgh) (lines : List AhbLine) (res : List (AhbLine × AhbLocation))
    (h : determineLocations sgh lines = .ok res) (changes : List (AhbLine × Change))
    (hch : determineHierarchyChanges lines sgh = .ok changes) : CodesFit lines changes :=
  determineLocations_codes h hch

/-- **C91** hierarchy with distinct acceptable keys and codes and root key `None`, no group entered while its parent is not
open: `determine_locations` returns exactly if the codes of the lines are acceptable, and then the location of each line
consists of one layer per group on the path from the root to the line's group, each describing the most recent opening
of that group, of the next segment code and of the line's own data element and value pool entry. -/
theorem C91_determine_locations (sgh : Sgh) (hd : sgh.KeysDistinct) (hroot : sgh.segmentGroup = none)
    (hgroups : ∀ a g, sgh.at? a = some g →
      (∀ k, g.segmentGroup = some k → IsSgKey k) ∧ IsThreeLetterCode g.openingSegment)
    (lines : List AhbLine) (hskip : NoSkippedLevels sgh lines) (changes : List (AhbLine × Change))
    (hch : determineHierarchyChanges lines sgh = .ok changes) (res : List (AhbLine × AhbLocation)) :
    determineLocations sgh lines = .ok res ↔
    CodesFit lines changes ∧ res.length = lines.length ∧
    ∀ (n : Nat) (line : AhbLine), lines[n]? = some line → ∃ a, sgh.keyAt? a = some line.segmentGroupKey ∧
      res[n]? = some (line, { layers := (sgh.pathKeys a).map (layerAt sgh lines changes n),
                              segmentCode := nextSegmentAt lines n,
                              dataElementId := line.dataElement,
                              qualifier := line.valuePoolEntry,
                              pseudo := false }) := by
  have fwd : ∀ res, determineLocations sgh lines = .ok res → res.length = lines.length ∧
      ∀ (n : Nat) (line : AhbLine), lines[n]? = some line → ∃ a, sgh.keyAt? a = some line.segmentGroupKey ∧
        res[n]? = some (line, ⟨(sgh.pathKeys a).map (layerAt sgh lines changes n), nextSegmentAt lines n,
          line.dataElement, line.valuePoolEntry, false⟩) := by
    intro res h
    obtain ⟨hlen, htr⟩ := determineLocations_trace h
    refine ⟨hlen, ?_⟩
    intro n line hl
    have hlt : n < lines.length := (List.getElem?_eq_some_iff.1 hl).1
    obtain ⟨a, ha, hb⟩ := locations_layers hd hroot hskip h hch (n + 1) hlt
    obtain ⟨layers, h1, _, _⟩ := htr n line hl
    refine ⟨a, by simpa [previousKeyAt, hl] using ha, ?_⟩
    rw [h1]
    have : layers = (sgh.pathKeys a).map (layerAt sgh lines changes n) := by
      have hf : layerAt sgh lines changes n = layerBelow sgh lines changes (n + 1) := rfl
      rw [hf]
      simpa [openBefore, h1] using hb
    rw [this]
  constructor
  · intro h
    exact ⟨determineLocations_codes h hch, fwd res h⟩
  · rintro ⟨⟨f1, f2, f3⟩, hlen, hall⟩
    obtain ⟨res', h'⟩ := C12_locations_succeed sgh hd hroot hgroups lines hskip f1
      (fun ch hc => by rw [hch] at hc; cases hc; exact f2) f3
    obtain ⟨hlen', hall'⟩ := fwd res' h'
    rw [h']
    congr 1
    apply List.ext_getElem?
    intro n
    cases hl : lines[n]? with
    | none =>
      have := List.getElem?_eq_none_iff.1 hl
      rw [List.getElem?_eq_none (by omega), List.getElem?_eq_none (by omega)]
    | some line =>
      obtain ⟨a, ha, h1⟩ := hall n line hl
      obtain ⟨b, hb, h2⟩ := hall' n line hl
      obtain rfl := hd.keyAt_inj ha hb
      rw [h1, h2]

/-! ## example -/

/-- the hypotheses of C91 hold for the example of C09–C13; this is the location of its seventh line, the second SG2 -/
example : ∃ changes, determineHierarchyChanges exLines exSgh = .ok changes ∧
    lastOpeningOf changes (some py!"SG2") 7 = some 6 ∧
    (exSgh.pathKeys [0]).map (layerAt exSgh exLines changes 7) =
      [⟨none, py!"UNH", some py!"MS"⟩, ⟨some py!"SG2", py!"NAD", some py!"MR"⟩] ∧
    (exSgh.pathKeys []).map (layerAt exSgh exLines changes 12) = [⟨none, py!"UNT", none⟩] := by
  refine ⟨_, rfl, ?_⟩
  decide

example : exSgh.KeysDistinct ∧ exSgh.segmentGroup = none ∧ NoSkippedLevels exSgh exLines ∧
    ∃ res, determineLocations exSgh exLines = .ok res :=
  ⟨exSgh_keysDistinct, rfl, exLines_noSkippedLevels, _, rfl⟩

/-- a line whose value pool entry is no letters-then-digits code -/
def badQualifierLine : AhbLine :=
  { segmentGroupKey := some py!"SG2", segmentCode := some py!"NAD", valuePoolEntry := some py!"1X" }

/-- the codes matter: a group opened by a value pool entry that is no letters-then-digits code is refused -/
example : ∃ changes, determineHierarchyChanges [badQualifierLine] exSgh = .ok changes ∧
    ¬ CodesFit [badQualifierLine] changes := by
  refine ⟨_, rfl, fun h => ?_⟩
  have := (optMatches_iff openingQualifierRe_iff _).2 h.first
  exact absurd this (by decide)

end Verif
