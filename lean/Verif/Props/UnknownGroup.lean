import Verif.Props.DetermineLocations
import Verif.Props.Matching
import Verif.Proofs.LocationPrefix
/-!
# C80 Lines of unknown segment groups are refused, C81 with a ValueError
-/

namespace Verif
open Sgh

/-- **C80** if `determine_locations` returns, then the segment group of each line is `None` or a group of the hierarchy. -/
theorem C80_known_groups (sgh : Sgh) (lines : List AhbLine) (res : List (AhbLine × AhbLocation))
    (h : determineLocations sgh lines = .ok res) (line : AhbLine) (hl : line ∈ lines) :
    line.segmentGroupKey = none ∨ ∃ a g, sgh.at? a = some g ∧ g.segmentGroup = line.segmentGroupKey := by
  obtain ⟨_, htr⟩ := determineLocations_trace h
  obtain ⟨n, hn⟩ := List.mem_iff_getElem?.1 hl
  clear hl
  induction n generalizing line with
  | zero =>
    obtain ⟨layers, _, _, hs⟩ := htr 0 line hn
    by_cases hk : line.segmentGroupKey = previousKeyAt lines 0
    · exact .inl hk
    · exact step htr hn hk
  | succ n ih =>
    by_cases hk : line.segmentGroupKey = previousKeyAt lines (n + 1)
    · have hlt : n + 1 < lines.length := (List.getElem?_eq_some_iff.1 hn).1
      have hp : lines[n]? = some lines[n] := List.getElem?_eq_getElem (by omega)
      rw [hk, previousKeyAt, hp]
      exact ih _ hp
    · exact step htr hn hk
where
  step {n : Nat} {line : AhbLine} (htr : ∀ n line, lines[n]? = some line → ∃ layers,
      res[n]? = some (line, ⟨layers, nextSegmentAt lines n, line.dataElement, line.valuePoolEntry, false⟩) ∧
      layers ≠ [] ∧
      StepLayers sgh (openBefore sgh lines res n) line (changeAt sgh lines n line) (nextSegmentAt lines n)
        (nextQualifierAt lines n) layers) (hn : lines[n]? = some line) (hk : line.segmentGroupKey ≠ previousKeyAt lines n) :
      line.segmentGroupKey = none ∨ ∃ a g, sgh.at? a = some g ∧ g.segmentGroup = line.segmentGroupKey := by
    right
    obtain ⟨layers, _, _, hs⟩ := htr n line hn
    have hc := (changeAt_sound sgh lines n line hn).2 hk
    split at hc
    · next hb =>
      obtain ⟨_, a, b, g, g', _, _, _, h3, h4⟩ := (C03_sg_below_iff sgh _ _).1 hb
      exact ⟨_, g', h3, h4⟩
    · rw [hc] at hs
      rcases hs with ⟨hs, _⟩ | ⟨_, _, _, _, _, _, _, _, hs⟩
      · cases hs
      · obtain ⟨_, _, l, ca, _, _, _, _, hf, _⟩ := hs rfl
        unfold findCommonAncestorFromSgh at hf
        simp only [bind, Except.bind] at hf
        split at hf
        · cases hf
        · split at hf
          · cases hf
          · split at hf
            · cases hf
            · next ry hry =>
              cases ry with
              | none => cases hf
              | some y =>
                obtain ⟨_, a, ha, _⟩ := (constructPseudoLocation_spec _ _ _ _ hry).1 y rfl
                obtain ⟨g, hg, hk⟩ := keyAt?_some.1 ha
                exact ⟨a, g, hg, hk⟩

/-- **C80** so a line of another group makes `to_deep_ahb` raise, whatever the MIG reader does. -/
theorem C80_to_deep_ahb_refuses (reader : MigLookup) (posStr : AhbLocation → PyStr) (flat : FlatAhb) (sgh : Sgh) (line : AhbLine)
    (hl : line ∈ flat.lines) (hn : line.segmentGroupKey ≠ none)
    (hu : ∀ a g, sgh.at? a = some g → g.segmentGroup ≠ line.segmentGroupKey) :
    ∃ e, determineLocations sgh flat.lines = .error e ∧ toDeepAhb reader posStr flat sgh = .error e := by
  cases h : determineLocations sgh flat.lines with
  | ok res =>
    rcases C80_known_groups sgh _ res h line hl with h | ⟨a, g, h1, h2⟩
    · exact absurd h hn
    · exact absurd h2 (hu a g h1)
  | error e => exact ⟨e, rfl, by simp [toDeepAhb, h, bind, Except.bind]⟩

/-! ## C81 -/

/-- **C81** in full: the exception is the `ValueError` that the code has a message for. -/
def C81_statement : Prop := ∀ (sgh : Sgh) (lines : List AhbLine) (line : AhbLine), line ∈ lines → line.segmentGroupKey ≠ none →
  (∀ a g, sgh.at? a = some g → g.segmentGroup ≠ line.segmentGroupKey) → determineLocations sgh lines = .error .valueError

/-- **C81 (partial)** it is a `ValueError` if the first line belongs to the unknown group. -/
theorem C81_first_line_partial (sgh : Sgh) (line : AhbLine) (lines : List AhbLine) (hn : line.segmentGroupKey ≠ none)
    (hu : ∀ a g, sgh.at? a = some g → g.segmentGroup ≠ line.segmentGroupKey) :
    determineLocations sgh (line :: lines) = .error .valueError := by
  rw [determineLocations_eq]
  have hc : changeAt sgh (line :: lines) 0 line = .leaveToParentAndDive := by
    rw [(changeAt_sound sgh (line :: lines) 0 line rfl).2 hn, if_neg]
    intro hb
    obtain ⟨_, a, b, g, g', _, _, _, h3, h4⟩ := (C03_sg_below_iff sgh _ _).1 hb
    exact hu _ _ h3 h4
  have hitem : (locItems sgh (line :: lines))[0]? = some ((line, .leaveToParentAndDive), nextSegmentAt (line :: lines) 0,
      nextQualifierAt (line :: lines) 0) := by
    rw [locItems_getElem?, ← hc]; rfl
  cases hi : locItems sgh (line :: lines) with
  | nil => rw [hi] at hitem; cases hitem
  | cons item items =>
    rw [hi] at hitem
    simp only [List.getElem?_cons_zero, Option.some.injEq] at hitem
    subst hitem
    have hnew : ∀ q, (∃ l, AhbLocationLayer.new sgh.segmentGroup (some sgh.openingSegment) q = .ok l) ∨
        AhbLocationLayer.new sgh.segmentGroup (some sgh.openingSegment) q = .error .valueError := by
      intro q
      cases h : AhbLocationLayer.new sgh.segmentGroup (some sgh.openingSegment) q with
      | ok l => exact .inl ⟨l, rfl⟩
      | error e => right; unfold AhbLocationLayer.new at h; simp only at h; (repeat' split at h) <;> cases h <;> rfl
    rcases hnew none with ⟨l, h1⟩ | h1
    · obtain ⟨o, ho, rfl⟩ := layerNew_ok h1
      cases ho
      rw [h1]
      simp only [bind, Except.bind, List.foldlM_cons, locStep, initialLayers, pyLast, List.getLast?_singleton, List.length_nil,
        and_self, if_true]
      rcases hnew (nextQualifierAt (line :: lines) 0) with ⟨l, h2⟩ | h2
      · rw [h2]; rfl
      · rw [h2]
    · rw [h1]; rfl

/-- **C81** `_find_common_ancestor_from_sgh`: a missing second group is an `AttributeError`, a missing first one a `ValueError`. -/
theorem C81_common_ancestor {sgh : Sgh} (hv : ∀ a g, sgh.at? a = some g → (∀ k, g.segmentGroup = some k → IsSgKey k) ∧ IsThreeLetterCode g.openingSegment) (x y : Option PyStr) :
    ((∀ a g, sgh.at? a = some g → g.segmentGroup ≠ x) → findCommonAncestorFromSgh x y sgh = .error .valueError) ∧
    ((∃ a g, sgh.at? a = some g ∧ g.segmentGroup = x) → (∀ a g, sgh.at? a = some g → g.segmentGroup ≠ y) →
      findCommonAncestorFromSgh x y sgh = .error .attributeError) := by
  replace hv : sgh.LayersValid := fun a g h =>
    ⟨(optMatches_iff sgKeyRe_iff g.segmentGroup).2 (hv a g h).1, (segmentCode3Re_iff g.openingSegment).2 (hv a g h).2⟩
  obtain ⟨rx, hrx⟩ := constructPseudoLocation_ok x sgh hv []
  obtain ⟨ry, hry⟩ := constructPseudoLocation_ok y sgh hv []
  have hx := constructPseudoLocation_spec _ _ _ _ hrx
  have hy := constructPseudoLocation_spec _ _ _ _ hry
  unfold findCommonAncestorFromSgh
  rw [hrx, hry]
  refine ⟨fun h => ?_, fun ⟨a, g, h1, h2⟩ h => ?_⟩
  · cases rx with
    | none => rfl
    | some x' =>
      obtain ⟨_, a, ha, _⟩ := hx.1 x' rfl
      obtain ⟨g, hg, hk⟩ := keyAt?_some.1 ha
      exact absurd hk (h a g hg)
  · cases rx with
    | none => exact absurd (keyAt?_some.2 ⟨g, h1, h2⟩) (hx.2 rfl a)
    | some x' =>
      cases ry with
      | none => rfl
      | some y' =>
        obtain ⟨_, a, ha, _⟩ := hy.1 y' rfl
        obtain ⟨g, hg, hk⟩ := keyAt?_some.1 ha
        exact absurd hk (h a g hg)

/-- **C81 (partial)** behind other lines it is an `AttributeError`: whenever those lines can be located in front of some lines `others` that
start with the same segment code and the same value pool entry, the lines of the unknown group are reported as an `AttributeError`, whatever
follows. -/
theorem C81_behind_partial {sgh : Sgh} (hroot : sgh.segmentGroup = none)
    (hv : ∀ a g, sgh.at? a = some g → (∀ k, g.segmentGroup = some k → IsSgKey k) ∧ IsThreeLetterCode g.openingSegment)
    (front : List AhbLine) (hf : front ≠ []) (line : AhbLine) (rest others : List AhbLine)
    (hu : ∀ a g, sgh.at? a = some g → g.segmentGroup ≠ line.segmentGroupKey)
    (hs : nextSegmentAt (line :: rest) 0 = nextSegmentAt others 0) (hq : nextQualifierAt (line :: rest) 0 = nextQualifierAt others 0)
    (hok : ∃ r, determineLocations sgh (front ++ others) = .ok r) :
    determineLocations sgh (front ++ line :: rest) = .error .attributeError := by
  obtain ⟨r, hr⟩ := hok
  obtain ⟨start, st, h1, h2, h3⟩ := determineLocations_prefix hr
  rw [← locItems_take sgh hs hq] at h2
  obtain ⟨hlen, htr⟩ := determineLocations_trace hr
  -- the last line in front
  obtain ⟨ini, last, rfl⟩ : ∃ ini last, front = ini ++ [last] := ⟨_, _, (List.dropLast_append_getLast hf).symm⟩
  have hlast : ((ini ++ [last]) ++ others)[ini.length]? = some last := by simp
  have hknown : ∃ a g, sgh.at? a = some g ∧ g.segmentGroup = last.segmentGroupKey := by
    rcases C80_known_groups sgh _ r hr last (by simp) with h | h
    · exact ⟨[], sgh, rfl, by rw [hroot, h]⟩
    · exact h
  have hres : ∃ loc, r[ini.length]? = some (last, loc) := by
    obtain ⟨layers, hl, _⟩ := htr _ last hlast
    exact ⟨_, hl⟩
  obtain ⟨loc, hloc⟩ := hres
  obtain ⟨⟨inner, hi1, hi2⟩, _⟩ := C10_innermost_outermost sgh hroot _ r hr _ last loc hloc
  have hstl : st.result.getLast? = some (last, loc) := by
    rw [h3, List.getLast?_eq_getElem?, List.length_take]
    have : r.length = ini.length + 1 + others.length := by rw [hlen]; simp; omega
    rw [List.getElem?_take]
    have hm : min (ini ++ [last]).length r.length - 1 = ini.length := by simp; omega
    rw [hm, if_pos (by simp), hloc]
  have hprev : previousKeyAt ((ini ++ [last]) ++ line :: rest) (ini.length + 1) = last.segmentGroupKey := by
    simp [previousKeyAt]
  have hc : changeAt sgh ((ini ++ [last]) ++ line :: rest) (ini.length + 1) line = .leaveToParentAndDive := by
    have hne : line.segmentGroupKey ≠ previousKeyAt ((ini ++ [last]) ++ line :: rest) (ini.length + 1) := by
      rw [hprev]
      obtain ⟨a, g, ha, hg⟩ := hknown
      intro he
      exact hu a g ha (by rw [hg, he])
    rw [(changeAt_sound sgh _ _ line (by simp)).2 hne, if_neg]
    intro hb
    obtain ⟨_, a, b, g, g', _, _, _, h3, h4⟩ := (C03_sg_below_iff sgh _ _).1 hb
    exact hu _ _ h3 h4
  have hitem : (locItems sgh ((ini ++ [last]) ++ line :: rest))[ini.length + 1]? =
      some ((line, .leaveToParentAndDive), nextSegmentAt ((ini ++ [last]) ++ line :: rest) (ini.length + 1),
        nextQualifierAt ((ini ++ [last]) ++ line :: rest) (ini.length + 1)) := by
    rw [locItems_getElem?, ← hc]
    simp
  rw [determineLocations_eq, h1]
  simp only [bind, Except.bind]
  rw [← List.take_append_drop (ini ++ [last]).length (locItems sgh ((ini ++ [last]) ++ line :: rest)), List.foldlM_append, h2]
  have hd : (ini ++ [last]).length = ini.length + 1 := by simp
  cases hdr : (locItems sgh ((ini ++ [last]) ++ line :: rest)).drop (ini ++ [last]).length with
  | nil =>
    have := congrArg (·[0]?) hdr
    simp only [List.getElem?_drop, hd, Nat.add_zero, hitem] at this
    cases this
  | cons item items =>
    have := congrArg (·[0]?) hdr
    simp only [List.getElem?_drop, hd, Nat.add_zero, hitem, List.getElem?_cons_zero, Option.some.injEq] at this
    subst this
    have hlenst : st.result.length ≠ 0 := by
      intro h0
      rw [List.length_eq_zero_iff.1 h0] at hstl
      cases hstl
    have hany := (C81_common_ancestor hv last.segmentGroupKey line.segmentGroupKey).2 hknown hu
    have hst : ∃ l, st.layers.getLast? = some l := foldl_layers _ (by simp) h2
    obtain ⟨l, hl⟩ := hst
    simp only [bind, Except.bind, List.foldlM_cons, locStep, initialLayers, pyLast, hl, hlenst, and_false, if_false, hstl, hi1, pure,
      Except.pure, hi2, hany]

/-- `exLines` with a line of a group that is not in `exSgh` behind the line `n` -/
def exUnknownLines (n : Nat) : List AhbLine :=
  exLines.take n ++ { segmentGroupKey := some py!"SG99", segmentCode := some py!"RFF", index := some 100 } :: exLines.drop n

theorem exSgh_noSG99 (a : List Nat) (g : Sgh) (h : exSgh.at? a = some g) : g.segmentGroup ≠ some py!"SG99" := by
  intro hk
  have hm := (mem_flattened_fst exSgh (some py!"SG99")).2 ⟨a, keyAt?_some.2 ⟨g, h, hk⟩⟩
  revert hm
  decide

/-- the hypotheses of `C81_common_ancestor` for a group that is missing in the hierarchy -/
example : findCommonAncestorFromSgh (some py!"SG99") (some py!"SG2") exSgh = .error .valueError ∧
    findCommonAncestorFromSgh (some py!"SG2") (some py!"SG99") exSgh = .error .attributeError :=
  ⟨(C81_common_ancestor exSgh_groups _ _).1 exSgh_noSG99,
    (C81_common_ancestor exSgh_groups _ _).2 ⟨[0], _, rfl, rfl⟩ exSgh_noSG99⟩

/-- the line 7 of `exLines`, moved to an unknown group -/
def exMovedLine : AhbLine := { exLines.getD 7 {} with segmentGroupKey := some py!"SG99" }

/-- the hypotheses of `C81_behind_partial` -/
example : determineLocations exSgh (exLines.take 7 ++ exMovedLine :: exLines.drop 8) = .error .attributeError :=
  C81_behind_partial rfl exSgh_groups (exLines.take 7) (by decide) exMovedLine (exLines.drop 8) (exLines.drop 7) exSgh_noSG99 (by decide)
    (by decide) ⟨((determineLocations exSgh exLines).toOption).getD [], by decide +kernel⟩

/-- **C81** is false: behind other lines it is an `AttributeError`. -/
theorem C81_counterexample : ¬ C81_statement := by
  intro h
  have := h exSgh (exUnknownLines 10) { segmentGroupKey := some py!"SG99", segmentCode := some py!"RFF", index := some 100 }
    (by simp [exUnknownLines]) (by simp) exSgh_noSG99
  revert this
  decide

/-- the exceptions in the example, by the position of the line -/
example : (List.range 14).map (fun n => match determineLocations exSgh (exUnknownLines n) with
      | .error .valueError => 'v'
      | .error .attributeError => 'a'
      | _ => '?') = ['v', 'a', 'a', 'a', 'a', 'a', 'a', 'a', 'a', 'a', 'a', 'a', 'a', 'a'] := by decide +kernel

/-- the hypotheses of `C80_to_deep_ahb_refuses` -/
example : ∃ e, determineLocations exSgh (exUnknownLines 5) = .error e ∧
    toDeepAhb exReader exPosStr { exFlat with lines := exUnknownLines 5 } exSgh = .error e :=
  C80_to_deep_ahb_refuses exReader exPosStr { exFlat with lines := exUnknownLines 5 } exSgh
    { segmentGroupKey := some py!"SG99", segmentCode := some py!"RFF", index := some 100 } (by simp [exUnknownLines]) (by simp) exSgh_noSG99

/-- `C80_known_groups` applies to the example without the additional line -/
example : (determineLocations exSgh exLines).toOption.isSome := by decide +kernel

/-! ## C03 for a line -/

/-- **C03** `_this_line_is_hierarchically_below_the_previous_sg_key`: the keys differ, and the previous key is that of the hierarchy itself or
a group with the previous key has a descendant with the key of the line. -/
theorem C03_line_below_iff (line : AhbLine) (previous : Option PyStr) (sgh : Sgh) :
    thisLineIsHierarchicallyBelow line previous sgh = true ↔ line.segmentGroupKey ≠ previous ∧ (sgh.segmentGroup = previous ∨
      ∃ a b g h, b ≠ [] ∧ sgh.at? a = some g ∧ g.segmentGroup = previous ∧ sgh.at? (a ++ b) = some h ∧
        h.segmentGroup = line.segmentGroupKey) := by
  unfold thisLineIsHierarchicallyBelow
  by_cases h1 : line.segmentGroupKey = previous
  · simp [h1]
  · rw [if_neg h1]
    by_cases h2 : sgh.segmentGroup = previous
    · simp [h1, h2]
    · rw [if_neg h2, C03_sg_below_iff]
      simp [h1, h2]

example : thisLineIsHierarchicallyBelow { segmentGroupKey := some py!"SG10" } (some py!"SG4") exSgh = true ∧
    thisLineIsHierarchicallyBelow { segmentGroupKey := some py!"SG4" } none exSgh = true ∧
    thisLineIsHierarchicallyBelow { segmentGroupKey := some py!"SG4" } (some py!"SG10") exSgh = false := by decide

end Verif
