import Verif.Proofs.LocationOutcome
/-!
# Property C109: the outcome of `determine_locations` for every list of lines
-/

namespace Verif

private theorem layersValid_of {sgh : Sgh} (hgroups : ∀ a g, sgh.at? a = some g →
      (∀ k, g.segmentGroup = some k → IsSgKey k) ∧ IsThreeLetterCode g.openingSegment) : sgh.LayersValid := fun a g h =>
  ⟨(optMatches_iff sgKeyRe_iff g.segmentGroup).2 (hgroups a g h).1, (segmentCode3Re_iff g.openingSegment).2 (hgroups a g h).2⟩

/-- **C109 (exceptions)** hierarchy with distinct acceptable keys and codes and root key `None`, any lines in any order:
`determine_locations` raises `e` exactly if some line raises `e` (see `LineRaises`) and the lines before it raise nothing. -/
theorem C109_determine_locations_raises (sgh : Sgh) (hd : sgh.KeysDistinct) (hroot : sgh.segmentGroup = none)
    (hgroups : ∀ a g, sgh.at? a = some g →
      (∀ k, g.segmentGroup = some k → IsSgKey k) ∧ IsThreeLetterCode g.openingSegment)
    (lines : List AhbLine) (changes : List (AhbLine × Change)) (hch : determineHierarchyChanges lines sgh = .ok changes) (e : Exc) :
    determineLocations sgh lines = .error e ↔
    ∃ (n : Nat) (opened : List (Option PyStr)) (line : AhbLine),
      Through sgh lines changes n opened ∧ lines[n]? = some line ∧ LineRaises sgh lines changes n line opened e := by
  rw [changes_eq] at hch
  cases hch
  exact determineLocations_error_iff hd hroot (layersValid_of hgroups) lines e

/-- **C109 (result)** it returns `res` exactly if no line raises anything, and then the location of each line consists of one layer per
group that is open after the line, each describing the most recent opening of that group, of the next segment code and of the line's own
data element and value pool entry. -/
theorem C109_determine_locations_returns (sgh : Sgh) (hd : sgh.KeysDistinct) (hroot : sgh.segmentGroup = none)
    (hgroups : ∀ a g, sgh.at? a = some g →
      (∀ k, g.segmentGroup = some k → IsSgKey k) ∧ IsThreeLetterCode g.openingSegment)
    (lines : List AhbLine) (changes : List (AhbLine × Change)) (hch : determineHierarchyChanges lines sgh = .ok changes)
    (res : List (AhbLine × AhbLocation)) :
    determineLocations sgh lines = .ok res ↔
    (∃ opened, Through sgh lines changes lines.length opened) ∧ res.length = lines.length ∧
    ∀ (n : Nat) (line : AhbLine), lines[n]? = some line → ∃ opened, Through sgh lines changes (n + 1) opened ∧
      res[n]? = some (line, { layers := opened.map (layerAt sgh lines changes n),
                              segmentCode := nextSegmentAt lines n,
                              dataElementId := line.dataElement,
                              qualifier := line.valuePoolEntry,
                              pseudo := false }) := by
  rw [changes_eq] at hch
  cases hch
  have hv := layersValid_of hgroups
  have fwd : ∀ res, determineLocations sgh lines = .ok res → res.length = lines.length ∧
      ∀ (n : Nat) (line : AhbLine), lines[n]? = some line → ∃ opened,
        Through sgh lines (changesLoop sgh ChangeState.init (items lines)) (n + 1) opened ∧
        res[n]? = some (line, ⟨opened.map (layerAt sgh lines (changesLoop sgh ChangeState.init (items lines)) n), nextSegmentAt lines n,
          line.dataElement, line.valuePoolEntry, false⟩) := by
    intro res h
    obtain ⟨hlen, htr⟩ := determineLocations_trace h
    refine ⟨hlen, ?_⟩
    intro n line hl
    have hlt : n < lines.length := (List.getElem?_eq_some_iff.1 hl).1
    obtain ⟨opened, a, ht, ha, hb⟩ := determineLocations_layers hd hroot hv h (n + 1) hlt
    obtain ⟨layers, h1, _, _⟩ := htr n line hl
    refine ⟨opened, ht, ?_⟩
    rw [h1]
    have : layers = opened.map (layerAt sgh lines (changesLoop sgh ChangeState.init (items lines)) n) := by
      have hf : layerAt sgh lines (changesLoop sgh ChangeState.init (items lines)) n =
        layerBelow sgh lines (changesLoop sgh ChangeState.init (items lines)) (n + 1) := rfl
      rw [hf]
      simpa [openBefore, h1] using hb
    rw [this]
  have huniq : ∀ n o1 o2, Through sgh lines (changesLoop sgh ChangeState.init (items lines)) n o1 →
      Through sgh lines (changesLoop sgh ChangeState.init (items lines)) n o2 → o1 = o2 := by
    intro n o1 o2 t1 t2
    obtain ⟨st1, a1, a2⟩ := t1.state hd hroot hv
    obtain ⟨st2, b1, b2⟩ := t2.state hd hroot hv
    rw [a1] at b1
    cases b1
    rw [← a2.keys, ← b2.keys]
  constructor
  · intro h
    exact ⟨(determineLocations_ok_iff hd hroot hv lines).1 ⟨res, h⟩, fwd res h⟩
  · rintro ⟨ht, hlen, hall⟩
    obtain ⟨res', h'⟩ := (determineLocations_ok_iff hd hroot hv lines).2 ht
    obtain ⟨hlen', hall'⟩ := fwd res' h'
    rw [h']
    congr 1
    apply List.ext_getElem?
    intro n
    cases hl : lines[n]? with
    | none =>
      have := List.getElem?_eq_none_iff.1 hl
      rw [List.getElem?_eq_none (by omega), List.getElem?_eq_none (by omega)]
    | some line =>
      obtain ⟨o1, t1, h1⟩ := hall n line hl
      obtain ⟨o2, t2, h2⟩ := hall' n line hl
      obtain rfl := huniq _ _ _ t1 t2
      rw [h1, h2]

/-- **C109 (open groups)** whatever levels the lines skip: the layers of each location are some of the groups on the path from the root to
the line's group, in this order and without repetition, with the root first and the line's group last. -/
theorem C109_layers_on_path (sgh : Sgh) (hd : sgh.KeysDistinct) (hroot : sgh.segmentGroup = none)
    (hgroups : ∀ a g, sgh.at? a = some g →
      (∀ k, g.segmentGroup = some k → IsSgKey k) ∧ IsThreeLetterCode g.openingSegment)
    (lines : List AhbLine) (res : List (AhbLine × AhbLocation)) (h : determineLocations sgh lines = .ok res)
    (line : AhbLine) (loc : AhbLocation) (hm : (line, loc) ∈ res) :
    ∃ a, sgh.keyAt? a = some line.segmentGroupKey ∧
      (loc.layers.map (·.segmentGroupKey)).Sublist (sgh.pathKeys a) ∧
      (loc.layers.map (·.segmentGroupKey)).head? = some none ∧
      (loc.layers.map (·.segmentGroupKey)).getLast? = some line.segmentGroupKey := by
  obtain ⟨hlen, htr⟩ := determineLocations_trace h
  obtain ⟨n, hn⟩ := List.mem_iff_getElem?.1 hm
  have hlt : n < lines.length := by have := (List.getElem?_eq_some_iff.1 hn).1; omega
  have hl : lines[n]? = some lines[n] := List.getElem?_eq_getElem hlt
  obtain ⟨layers, h1, _⟩ := htr n _ hl
  rw [hn] at h1
  cases h1
  obtain ⟨opened, a, ht, ha, hb⟩ := determineLocations_layers hd hroot (layersValid_of hgroups) h (n + 1) hlt
  have hk : layers.map (·.segmentGroupKey) = opened := by
    have hob : openBefore sgh lines res (n + 1) = layers := by simp [openBefore, hn]
    rw [← hob, hb, layerBelow_map_key]
  have hp : previousKeyAt lines (n + 1) = lines[n].segmentGroupKey := by simp [previousKeyAt, hl]
  rw [hp] at ha
  simp only [hk]
  exact ⟨a, ha.addr, ha.sub, ha.head, ha.last⟩

/-- **C109 (which exceptions)** for such a hierarchy only `ValueError`, `TypeError` and `AttributeError` occur: no pop from an empty list,
no `NotImplementedError`. -/
theorem C109_which_exceptions (sgh : Sgh) (hd : sgh.KeysDistinct) (hroot : sgh.segmentGroup = none)
    (hgroups : ∀ a g, sgh.at? a = some g →
      (∀ k, g.segmentGroup = some k → IsSgKey k) ∧ IsThreeLetterCode g.openingSegment)
    (lines : List AhbLine) (e : Exc) (h : determineLocations sgh lines = .error e) :
    e = .valueError ∨ e = .typeError ∨ e = .attributeError := by
  obtain ⟨_, _, _, _, _, hr⟩ := (determineLocations_error_iff hd hroot (layersValid_of hgroups) lines e).1 h
  cases hr <;> simp

/-! ## examples -/

/-- three lines: SG8 is entered without SG4, then SG10, then SG8 again -/
def exSkipping : List AhbLine :=
  [{ segmentGroupKey := some py!"SG8", segmentCode := some py!"SEQ" },
   { segmentGroupKey := some py!"SG10", segmentCode := some py!"CCI" },
   { segmentGroupKey := some py!"SG8", segmentCode := some py!"SEQ" }]

/-- the third line goes too far back … -/
example : GoesTooFarBack exSgh [none, some py!"SG8", some py!"SG10"] (some py!"SG10") (some py!"SG8") :=
  ⟨by decide, by decide, by decide, [1, 1], by decide, by decide⟩

/-- … so that the run ends with a `ValueError`; without it the two lines get these layers -/
example : determineLocations exSgh exSkipping = .error .valueError ∧
    (determineLocations exSgh (exSkipping.take 2)).map (·.map fun p => p.2.layers.map (·.segmentGroupKey)) =
      .ok [[none, some py!"SG8"], [none, some py!"SG8", some py!"SG10"]] := by decide

/-- an unknown group on the first line, on a later line, and a group without a segment -/
example : determineLocations exSgh [{ segmentGroupKey := some py!"SG99", segmentCode := some py!"SEQ" }] = .error .valueError ∧
    determineLocations exSgh [{ segmentGroupKey := some py!"SG4", segmentCode := some py!"IDE" },
      { segmentGroupKey := some py!"SG99", segmentCode := some py!"SEQ" }] = .error .attributeError ∧
    determineLocations exSgh [{ segmentGroupKey := some py!"SG4" }] = .error .typeError := by decide

/-- the hypotheses are met, and the third line is the one that raises -/
example : ∃ changes, determineHierarchyChanges exSkipping exSgh = .ok changes ∧
    ∃ n opened line, Through exSgh exSkipping changes n opened ∧ exSkipping[n]? = some line ∧
      LineRaises exSgh exSkipping changes n line opened .valueError :=
  ⟨_, rfl, (C109_determine_locations_raises exSgh exSgh_keysDistinct rfl exSgh_groups exSkipping _ rfl .valueError).1 (by decide)⟩

example : ∃ changes, determineHierarchyChanges (exSkipping.take 2) exSgh = .ok changes ∧
    ∃ opened, Through exSgh (exSkipping.take 2) changes 2 opened :=
  ⟨_, rfl, ((C109_determine_locations_returns exSgh exSgh_keysDistinct rfl exSgh_groups (exSkipping.take 2) _ rfl _).1 rfl).1⟩

/-- a whole run of the example lines passes through all thirteen lines -/
example : ∃ changes, determineHierarchyChanges exLines exSgh = .ok changes ∧ ∃ opened, Through exSgh exLines changes 13 opened :=
  ⟨_, rfl, ((C109_determine_locations_returns exSgh exSgh_keysDistinct rfl exSgh_groups exLines _ rfl _).1 rfl).1⟩

end Verif
