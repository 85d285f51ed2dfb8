import Verif.Proofs.LocationPath
import Verif.Props.Changes
/-!
# Properties C09–C13: `determine_locations`
-/

namespace Verif

/-- **C09** `determine_locations` returns the given lines in order; the location of line `n` carries the line's data
element and value pool entry and the next segment code at or after line `n`. -/
theorem C09_locations_describe_lines (sgh : Sgh) (lines : List AhbLine) (res : List (AhbLine × AhbLocation))
    (h : determineLocations sgh lines = .ok res) :
    res.map Prod.fst = lines ∧
    ∀ n line loc, res[n]? = some (line, loc) →
      loc.dataElementId = line.dataElement ∧ loc.qualifier = line.valuePoolEntry ∧
      loc.segmentCode = nextSegmentAt lines n := by
  obtain ⟨hlen, htr⟩ := determineLocations_trace h
  constructor
  · apply List.ext_getElem?
    intro n
    rw [List.getElem?_map]
    cases hl : lines[n]? with
    | none =>
      rw [List.getElem?_eq_none (by rw [hlen]; exact List.getElem?_eq_none_iff.1 hl)]; rfl
    | some line =>
      obtain ⟨layers, h1, _, _⟩ := htr n line hl
      rw [h1]; rfl
  · intro n line loc hr
    have hn : n < lines.length := hlen ▸ (List.getElem?_eq_some_iff.1 hr).1
    obtain ⟨layers, h1, _, _⟩ := htr n _ (List.getElem?_eq_getElem hn)
    rw [h1] at hr
    cases hr
    exact ⟨rfl, rfl, rfl⟩

/-- **C13** between consecutive lines the layers stay as they are if STAY is reported for the second line; otherwise the
innermost layer is (line key, next segment code, next qualifier) and the layers around it are an initial part of the
previous layers. For the first line the "previous layers" are just the root layer, which carries the first qualifier. -/
theorem C13_layers_change (sgh : Sgh) (lines : List AhbLine) (changes : List (AhbLine × Change))
    (hch : determineHierarchyChanges lines sgh = .ok changes) (res : List (AhbLine × AhbLocation))
    (h : determineLocations sgh lines = .ok res) (n : Nat) (line : AhbLine) (loc : AhbLocation) (c : Change)
    (hres : res[n]? = some (line, loc)) (hc : changes[n]? = some (line, c)) (before : List AhbLocationLayer)
    (hbefore : (n = 0 ∧ before = [⟨sgh.segmentGroup, sgh.openingSegment, nextQualifierAt lines 0⟩]) ∨
      ∃ m pline ploc, n = m + 1 ∧ res[m]? = some (pline, ploc) ∧ before = ploc.layers) :
    (c = .stay → loc.layers = before) ∧
    (c ≠ .stay → ∃ outer o, nextSegmentAt lines n = some o ∧ outer <+: before ∧
      loc.layers = outer ++ [⟨line.segmentGroupKey, o, nextQualifierAt lines n⟩]) := by
  obtain ⟨hlen, htr⟩ := determineLocations_trace h
  have hn : n < lines.length := hlen ▸ (List.getElem?_eq_some_iff.1 hres).1
  obtain ⟨layers, h1, _, h3⟩ := htr n _ (List.getElem?_eq_getElem hn)
  rw [h1] at hres
  cases hres
  rw [changes_eq] at hch
  cases hch
  rw [changes_getElem?, List.getElem?_eq_getElem hn] at hc
  cases hc
  have hb : openBefore sgh lines res n = before := by
    rcases hbefore with ⟨rfl, rfl⟩ | ⟨m, pl, plo, rfl, hm, rfl⟩
    · rfl
    · simp [openBefore, hm]
  rw [hb] at h3
  rcases h3 with ⟨hs, rfl⟩ | ⟨hne, outer, o, hseg, rfl, hpre, _⟩
  · exact ⟨fun _ => rfl, fun hne => absurd hs hne⟩
  · exact ⟨fun hs => absurd hs hne, fun _ => ⟨outer, o, hseg, hpre, rfl⟩⟩

/-- **C10** for a hierarchy with root key `None` the innermost layer has the line's key and the outermost the key `None`;
no assumption on the lines. -/
theorem C10_innermost_outermost (sgh : Sgh) (hroot : sgh.segmentGroup = none) (lines : List AhbLine)
    (res : List (AhbLine × AhbLocation)) (h : determineLocations sgh lines = .ok res) (n : Nat) (line : AhbLine)
    (loc : AhbLocation) (hn : res[n]? = some (line, loc)) :
    (∃ inner, loc.layers.getLast? = some inner ∧ inner.segmentGroupKey = line.segmentGroupKey) ∧
    (∃ outer, loc.layers.head? = some outer ∧ outer.segmentGroupKey = none) := by
  obtain ⟨hlen, htr⟩ := determineLocations_trace h
  -- claim for the layers that are open before line n
  have key : ∀ n, n ≤ lines.length →
      (∃ inner, (openBefore sgh lines res n).getLast? = some inner ∧ inner.segmentGroupKey = previousKeyAt lines n) ∧
      (∃ outer, (openBefore sgh lines res n).head? = some outer ∧ outer.segmentGroupKey = none) := by
    intro n
    induction n with
    | zero => intro _; simp [openBefore, previousKeyAt, hroot]
    | succ n ih =>
      intro hn
      obtain ⟨⟨inner, hi1, hi2⟩, outer, ho1, ho2⟩ := ih (by omega)
      have hl : lines[n]? = some lines[n] := List.getElem?_eq_getElem (by omega)
      obtain ⟨layers, h1, h2, h3⟩ := htr n _ hl
      have hkey : previousKeyAt lines (n + 1) = lines[n].segmentGroupKey := by simp [previousKeyAt, hl]
      rw [hkey]
      have hob : openBefore sgh lines res (n + 1) = layers := by simp [openBefore, h1]
      rw [hob]
      obtain ⟨s1, s2⟩ := changeAt_sound sgh lines n _ hl
      rcases h3 with ⟨hs, rfl⟩ | ⟨hne, out, o, hseg, rfl, hpre, hdive, hmove, hleave⟩
      · refine ⟨⟨inner, hi1, ?_⟩, outer, ho1, ho2⟩
        rw [hi2]
        by_cases hk : lines[n].segmentGroupKey = previousKeyAt lines n
        · exact hk.symm
        · have := s2 hk
          rw [hs] at this
          split at this <;> cases this
      · refine ⟨⟨_, List.getLast?_concat, rfl⟩, ?_⟩
        cases out with
        | cons x xs =>
          obtain ⟨t, ht⟩ := hpre
          rw [← ht] at ho1
          simp only [List.cons_append, List.head?_cons, Option.some.injEq] at ho1
          subst ho1
          exact ⟨_, rfl, ho2⟩
        | nil =>
          refine ⟨_, rfl, ?_⟩
          simp only
          by_cases hk : lines[n].segmentGroupKey = previousKeyAt lines n
          · rcases s1 hk with hc | hc
            · exact absurd hc hne
            · have hm := hmove hc
              -- the only layer is the root
              cases hb : openBefore sgh lines res n with
              | nil => rw [hb] at ho1; simp at ho1
              | cons x xs =>
                rw [hb] at hm hi1 ho1
                cases xs with
                | nil =>
                  simp only [List.getLast?_singleton, Option.some.injEq, List.head?_cons] at hi1 ho1
                  subst hi1; subst ho1
                  rw [hk, ← hi2, ho2]
                | cons y ys => simp at hm
          · have hc := s2 hk
            split at hc
            · have := hdive hc
              rw [← this] at ho1; simp at ho1
            · obtain ⟨l, hl1, hl2⟩ := (hleave hc).1 rfl
              rw [ho1] at hl1
              cases hl1
              rw [← hl2, ho2]
  have hlt : n < lines.length := hlen ▸ (List.getElem?_eq_some_iff.1 hn).1
  have hl : lines[n]? = some lines[n] := List.getElem?_eq_getElem hlt
  obtain ⟨layers, h1, _, _⟩ := htr n _ hl
  have := key (n + 1) hlt
  simp only [openBefore, hn, previousKeyAt, hl, Option.bind_some] at this
  rw [h1] at hn
  cases hn
  exact this

/-- **C11** distinct keys, root key `None`, and no group entered while its parent is not open: the layer keys of each
line are exactly the keys on the path from the root to the line's group. -/
theorem C11_locations_follow_hierarchy (sgh : Sgh) (hd : sgh.KeysDistinct) (hroot : sgh.segmentGroup = none)
    (lines : List AhbLine) (hskip : NoSkippedLevels sgh lines) (res : List (AhbLine × AhbLocation))
    (h : determineLocations sgh lines = .ok res) (n : Nat) (line : AhbLine) (loc : AhbLocation)
    (hn : res[n]? = some (line, loc)) :
    ∃ a, sgh.keyAt? a = some line.segmentGroupKey ∧ loc.layers.map (·.segmentGroupKey) = sgh.pathKeys a := by
  obtain ⟨hlen, htr⟩ := determineLocations_trace h
  have key : ∀ n, n ≤ lines.length → ∃ a, sgh.keyAt? a = some (previousKeyAt lines n) ∧
      (openBefore sgh lines res n).map (·.segmentGroupKey) = sgh.pathKeys a := by
    intro n
    induction n with
    | zero => intro _; exact ⟨[], by simp [Sgh.keyAt?, previousKeyAt, hroot], by simp [openBefore, Sgh.pathKeys]⟩
    | succ n ih =>
      intro hn
      obtain ⟨a, ha, hp⟩ := ih (by omega)
      have hl : lines[n]? = some lines[n] := List.getElem?_eq_getElem (by omega)
      obtain ⟨layers, h1, h2, h3⟩ := htr n _ hl
      obtain ⟨b, hb, hpb⟩ := stepLayers_path hd hl ha hp (hskip n _ hl) h3
      exact ⟨b, by simpa [previousKeyAt, hl] using hb, by simpa [openBefore, h1] using hpb⟩
  have hlt : n < lines.length := hlen ▸ (List.getElem?_eq_some_iff.1 hn).1
  have hl : lines[n]? = some lines[n] := List.getElem?_eq_getElem hlt
  obtain ⟨layers, h1, _, _⟩ := htr n _ hl
  have := key (n + 1) hlt
  simp only [openBefore, hn, previousKeyAt, hl, Option.bind_some] at this
  rw [h1] at hn
  cases hn
  exact this

/-- **C12 (success)** well-formed hierarchy and lines: `determine_locations` returns. -/
theorem C12_locations_succeed (sgh : Sgh) (hd : sgh.KeysDistinct) (hroot : sgh.segmentGroup = none)
    (hgroups : ∀ a g, sgh.at? a = some g →
      (∀ k, g.segmentGroup = some k → IsSgKey k) ∧ IsThreeLetterCode g.openingSegment)
    (lines : List AhbLine) (hskip : NoSkippedLevels sgh lines)
    (hcodes : ∀ line ∈ lines, (∀ c, line.segmentCode = some c → IsThreeLetterCode c) ∧
      (∀ d, line.dataElement = some d → IsFourDigits d))
    (hopen : ∀ changes, determineHierarchyChanges lines sgh = .ok changes →
      ∀ n line c, changes[n]? = some (line, c) → c ≠ .stay →
        nextSegmentAt lines n ≠ none ∧ ∀ q, nextQualifierAt lines n = some q → IsLettersThenDigits q)
    (hfirst : ∀ q, nextQualifierAt lines 0 = some q → IsLettersThenDigits q) :
    ∃ res, determineLocations sgh lines = .ok res := by
  have hv : sgh.LayersValid := by
    intro a g hg
    obtain ⟨h1, h2⟩ := hgroups a g hg
    exact ⟨(optMatches_iff sgKeyRe_iff _).2 h1, (segmentCode3Re_iff _).2 h2⟩
  obtain ⟨v1, v2⟩ := hv [] sgh rfl
  rw [determineLocations_eq, layerNew_of_valid v1 v2 rfl]
  simp only [bind, Except.bind]
  have := foldlM_progress (locStep sgh)
    (fun n st => n ≤ lines.length ∧ st.Ok sgh ∧ st.result.length = n ∧
      ∃ a, sgh.keyAt? a = some (previousKeyAt lines n) ∧ st.layers.map (·.segmentGroupKey) = sgh.pathKeys a)
    (locItems sgh lines) { layers := [⟨sgh.segmentGroup, sgh.openingSegment, none⟩], result := [] } ?_ ?_
  · obtain ⟨t, ht⟩ := this
    rw [ht]; exact ⟨_, rfl⟩
  · refine ⟨Nat.zero_le _, ⟨fun _ => rfl, by simp⟩, rfl, [], ?_, ?_⟩
    · simp [Sgh.keyAt?, previousKeyAt, hroot]
    · simp [Sgh.pathKeys]
  · rintro n x st hx ⟨_, hok, hlen, a, ha, hkeys⟩
    rw [locItems_getElem?] at hx
    cases hl : lines[n]? with
    | none => rw [hl] at hx; cases hx
    | some line =>
      rw [hl] at hx
      simp only [Option.map_some, Option.some.injEq] at hx
      subst hx
      have hlt : n < lines.length := (List.getElem?_eq_some_iff.1 hl).1
      have hmem : line ∈ lines := List.mem_of_getElem? hl
      have hchange : (changesLoop sgh ChangeState.init (items lines))[n]? = some (line, changeAt sgh lines n line) := by
        rw [changes_getElem?, hl]; rfl
      have hop := hopen _ (changes_eq lines sgh) n line _ hchange
      have hseg : optMatches segmentCode3Re (nextSegmentAt lines n) = true := by
        rw [optMatches_iff segmentCode3Re_iff]
        intro s hs
        unfold nextSegmentAt at hs
        obtain ⟨l, hl1, hl2⟩ := List.exists_of_findSome?_eq_some hs
        exact (hcodes l (List.mem_of_mem_drop hl1)).1 s hl2
      have hstep := locStep_progress hd hv hl ha hok (fun _ => hroot)
        (by rw [← hlen, List.length_eq_zero_iff]) hkeys (hskip n line hl) hseg
        ((optMatches_iff dataElement4Re_iff _).2 (hcodes line hmem).2)
        (qual := nextQualifierAt lines n)
        (by
          rintro (rfl | hc)
          · exact (optMatches_iff openingQualifierRe_iff _).2 hfirst
          · exact (optMatches_iff openingQualifierRe_iff _).2 (hop hc).2)
        (fun hc => (hop hc).1)
      obtain ⟨st', hst'⟩ := hstep
      refine ⟨st', hst', hlt, ?_⟩
      obtain ⟨j1, layers, j2, j3, j4, j5⟩ := locStep_ok hok (changeAt_ne sgh lines n line hl).1 hst'
      obtain ⟨b, hb, hpb⟩ := stepLayers_path hd hl ha ((baseLayers_keys hok _).trans hkeys) (hskip n line hl) j5
      refine ⟨j1, by rw [j4]; simp [hlen], b, by simpa [previousKeyAt, hl] using hb, by rw [j2, hpb]⟩

/-- **C12 (no NotImplementedError)** whatever the input, the only exceptions are ValueError, TypeError, IndexError and
AttributeError. -/
theorem C12_locations_errors (sgh : Sgh) (lines : List AhbLine) (e : Exc) (h : determineLocations sgh lines = .error e) :
    e = .valueError ∨ e = .typeError ∨ e = .indexError ∨ e = .attributeError :=
  determineLocations_error h

/-! ## example -/

/-- addresses of the groups used in `exLines` -/
theorem exLines_noSkippedLevels : NoSkippedLevels exSgh exLines := by
  intro n line hn
  have hlt : n < 13 := (List.getElem?_eq_some_iff.1 hn).1
  match n, hlt, hn with
  | 0, _, hn => cases hn; exact Or.inl (by decide)
  | 1, _, hn => cases hn; exact Or.inl (by decide)
  | 2, _, hn => cases hn; exact Or.inl (by decide)
  | 3, _, hn => cases hn; exact Or.inr ⟨[], [0], by decide, by decide, by decide⟩
  | 4, _, hn => cases hn; exact Or.inl (by decide)
  | 5, _, hn => cases hn; exact Or.inl (by decide)
  | 6, _, hn => cases hn; exact Or.inl (by decide)
  | 7, _, hn => cases hn; exact Or.inl (by decide)
  | 8, _, hn => cases hn; exact Or.inl (by decide)
  | 9, _, hn => cases hn; exact Or.inr ⟨[0], [1], by decide, by decide, by decide⟩
  | 10, _, hn => cases hn; exact Or.inl (by decide)
  | 11, _, hn => cases hn; exact Or.inl (by decide)
  | 12, _, hn => cases hn; exact Or.inr ⟨[1], [], by decide, by decide, by decide⟩

/-- the hypotheses of C09–C13 hold for `exLines` and `exSgh`, and these are the locations -/
example : (determineLocations exSgh exLines).map (·.map fun p => (p.2.layers, p.2.segmentCode)) =
    let root : AhbLocationLayer := ⟨none, py!"UNH", some py!"MS"⟩
    let ms : AhbLocationLayer := ⟨some py!"SG2", py!"NAD", some py!"MS"⟩
    let mr : AhbLocationLayer := ⟨some py!"SG2", py!"NAD", some py!"MR"⟩
    let sg4 : AhbLocationLayer := ⟨some py!"SG4", py!"IDE", some py!"24"⟩
    .ok [([root], some py!"UNH"), ([root], some py!"UNH"), ([root], some py!"UNH"),
      ([root, ms], some py!"NAD"), ([root, ms], some py!"NAD"), ([root, ms], some py!"NAD"),
      ([root, mr], some py!"NAD"), ([root, mr], some py!"NAD"), ([root, mr], some py!"NAD"),
      ([root, sg4], some py!"IDE"), ([root, sg4], some py!"IDE"), ([root, sg4], some py!"IDE"),
      ([⟨none, py!"UNT", none⟩], some py!"UNT")] := by decide

theorem exSgh_groups (a : List Nat) (g : Sgh) (hg : exSgh.at? a = some g) :
    (∀ k, g.segmentGroup = some k → IsSgKey k) ∧ IsThreeLetterCode g.openingSegment := by
  have hm : (g.segmentGroup, g.openingSegment) ∈ exSgh.flattened := by
    have h1 := Sgh.flattened_addrs exSgh
    have h2 : some (g.segmentGroup, g.openingSegment) ∈ (exSgh.flattened).map some := by
      rw [h1, List.mem_map]
      exact ⟨a, (Sgh.mem_addrs _ _).2 (by simp [hg]), by simp [hg]⟩
    simpa using h2
  have hall : ∀ p ∈ exSgh.flattened, optMatches sgKeyRe p.1 = true ∧ (segmentCode3Re.fullMatch p.2).isSome = true := by
    decide
  obtain ⟨h1, h2⟩ := hall _ hm
  exact ⟨(optMatches_iff sgKeyRe_iff _).1 h1, (segmentCode3Re_iff _).1 h2⟩

/-- all hypotheses of C12 hold for the example -/
example : ∃ res, determineLocations exSgh exLines = .ok res := by
  refine C12_locations_succeed exSgh exSgh_keysDistinct rfl exSgh_groups exLines exLines_noSkippedLevels ?_ ?_ ?_
  · have hall : ∀ l ∈ exLines, optMatches segmentCode3Re l.segmentCode = true ∧
        optMatches dataElement4Re l.dataElement = true := by decide
    intro l hl
    exact ⟨(optMatches_iff segmentCode3Re_iff _).1 (hall l hl).1, (optMatches_iff dataElement4Re_iff _).1 (hall l hl).2⟩
  · intro changes hch n line c hn hc
    have hlt : n < 13 := by
      obtain ⟨r, hr, hf, _⟩ := C07_hierarchy_changes exLines exSgh
      rw [hch] at hr; cases hr
      have := (List.getElem?_eq_some_iff.1 hn).1
      have hl := congrArg List.length hf
      rw [List.length_map] at hl
      have h13 : exLines.length = 13 := rfl
      omega
    have hall : ∀ n < 13, (nextSegmentAt exLines n).isSome = true ∧
        optMatches openingQualifierRe (nextQualifierAt exLines n) = true := by decide
    obtain ⟨h1, h2⟩ := hall n hlt
    exact ⟨(by intro h; rw [h] at h1; cases h1), (optMatches_iff openingQualifierRe_iff _).1 h2⟩
  · exact (optMatches_iff openingQualifierRe_iff _).1 (by decide)

/-- skipping a level (entering SG10 directly from the root) breaks the path property: the assumption of C11 is needed -/
theorem C11_skipped_level :
    ∃ lines res, determineLocations exSgh lines = .ok res ∧
      ∃ p ∈ res, p.1.segmentGroupKey = some py!"SG10" ∧
        p.2.layers.map (·.segmentGroupKey) = [none, some py!"SG10"] :=
  ⟨[{ segmentGroupKey := some py!"SG10", segmentCode := some py!"CCI" }], _, rfl, _, List.mem_singleton.2 rfl,
    by decide, by decide⟩

/-- ... and leaving such a group may fail -/
theorem C12_skipped_level :
    ∃ lines e, determineLocations exSgh lines = .error e :=
  ⟨[{ segmentGroupKey := some py!"SG8", segmentCode := some py!"SEQ" },
    { segmentGroupKey := some py!"SG10", segmentCode := some py!"CCI" },
    { segmentGroupKey := some py!"SG8", segmentCode := some py!"SEQ" }], .valueError, by decide⟩

end Verif
