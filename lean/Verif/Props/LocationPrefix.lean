import Verif.Proofs.LocationPrefix
import Verif.Props.Matching
/-!
# C94 The locations of the first lines do not depend on the lines behind them
-/

namespace Verif

/-- **C94** `determine_locations` looks ahead to the next segment code and the next value pool entry only: if the first lines `p` are
continued in two ways with the same next segment code and the same next value pool entry, they get the same locations. -/
theorem C94_look_ahead (sgh : Sgh) {p q q' : List AhbLine} (hs : nextSegmentAt q 0 = nextSegmentAt q' 0)
    (hq : nextQualifierAt q 0 = nextQualifierAt q' 0) {r r' : List (AhbLine × AhbLocation)}
    (h : determineLocations sgh (p ++ q) = .ok r) (h' : determineLocations sgh (p ++ q') = .ok r') :
    r.take p.length = r'.take p.length := by
  obtain ⟨start, st, h1, h2, h3⟩ := determineLocations_prefix h
  obtain ⟨start', st', h1', h2', h3'⟩ := determineLocations_prefix h'
  rw [h1] at h1'
  cases h1'
  rw [locItems_take sgh hs hq, h2'] at h2
  cases h2
  rw [← h3, ← h3']

/-- **C94** if the last one of the first lines has a segment code and a value pool entry, whatever follows does not matter: the locations of
the first lines are the ones that they get alone. -/
theorem C94_prefix (sgh : Sgh) {p q : List AhbLine} {line : AhbLine} (hs : line.segmentCode ≠ none) (hq : line.valuePoolEntry ≠ none)
    {r : List (AhbLine × AhbLocation)} (h : determineLocations sgh (p ++ line :: q) = .ok r) :
    determineLocations sgh (p ++ [line]) = .ok (r.take (p.length + 1)) := by
  have e := locItems_take_of_written sgh (p := p) (q := q) hs hq
  have h' : determineLocations sgh ((p ++ [line]) ++ q) = .ok r := by simpa using h
  obtain ⟨start, st, h1, h2, h3⟩ := determineLocations_prefix h'
  rw [e] at h2
  rw [determineLocations_eq, h1]
  simp only [bind, Except.bind]
  rw [h2]
  simp only [pure, Except.pure, h3, List.length_append, List.length_singleton]

/-- **C94** and if they raise an exception alone, they raise the same one whatever follows. -/
theorem C94_error (sgh : Sgh) {p : List AhbLine} (q : List AhbLine) {line : AhbLine} (hs : line.segmentCode ≠ none)
    (hq : line.valuePoolEntry ≠ none) {e : Exc} (h : determineLocations sgh (p ++ [line]) = .error e) :
    determineLocations sgh (p ++ line :: q) = .error e := by
  have e' := locItems_take_of_written sgh (p := p) (q := q) hs hq
  have : determineLocations sgh ((p ++ [line]) ++ q) = .error e := by
    rw [determineLocations_eq] at h ⊢
    cases h1 : AhbLocationLayer.new sgh.segmentGroup (some sgh.openingSegment) none with
    | error x => rw [h1] at h; exact h
    | ok start =>
      rw [h1] at h
      simp only [bind, Except.bind] at h ⊢
      rw [← List.take_append_drop (p ++ [line]).length (locItems sgh ((p ++ [line]) ++ q)), List.foldlM_append, e']
      cases h2 : (locItems sgh (p ++ [line])).foldlM (locStep sgh) { layers := [start], result := [] } with
      | error x => rw [h2] at h; exact h
      | ok st => rw [h2] at h; cases h
  simpa using this

/-- the example consists of lines behind which the first ones end with a written code and entry, and lines behind them -/
example : ∃ p line q, exLines = p ++ line :: q ∧ line.segmentCode ≠ none ∧ line.valuePoolEntry ≠ none ∧ 3 ≤ p.length ∧ 3 ≤ q.length ∧
    (determineLocations exSgh exLines).toOption.isSome :=
  ⟨exLines.take 5, exLines[5]'(by decide +kernel), exLines.drop 6, by decide +kernel, by decide +kernel, by decide +kernel,
    by decide +kernel, by decide +kernel, by decide +kernel⟩

/-- without a segment code and a value pool entry in the last line, the location depends on what follows -/
example : (determineLocations exSgh (exLines.take 1)).map (List.map Prod.snd) ≠
    (determineLocations exSgh exLines).map fun r => (r.take 1).map Prod.snd := by decide +kernel

end Verif
