import Verif.Proofs.Requirements
/-!
# Properties C83 and C84: the requirements of a flat AHB in the deep AHB
-/

namespace Verif

/-- **C83 (full statement)** If `to_deep_ahb` returns, the free texts and value pool entries of the deep AHB, read in document
order, are exactly the requirements on data elements in the lines of the flat AHB, in the same order and number, each with its
data element, qualifier, meaning and expression. This is false of the code: `C83_counterexample`. -/
def C83_statement : Prop :=
  ∀ (reader : MigLookup) (posStr : AhbLocation → PyStr) (flat flat' : FlatAhb) (sgh : Sgh) (deep : DeepAhb),
    toDeepAhb reader posStr flat sgh = .ok (flat', deep) →
    (documentOrder deep.lines).flatMap DocItem.fieldRequirements = flat.lines.filterMap AhbLine.fieldRequirement?

/-- **C83 (partial)** The statement holds if lines with a data element have a segment code and a line with a data element but
without value pool entry is not directly followed by a line with the same data element. -/
theorem C83_requirements_kept_partial (reader : MigLookup) (posStr : AhbLocation → PyStr) (flat flat' : FlatAhb) (sgh : Sgh)
    (deep : DeepAhb) (h : toDeepAhb reader posStr flat sgh = .ok (flat', deep))
    (hcode : ∀ l ∈ flat.lines, l.dataElement ≠ none → l.segmentCode ≠ none) (hone : FreeTextsHaveOneLine flat.lines) :
    (documentOrder deep.lines).flatMap DocItem.fieldRequirements = flat.lines.filterMap AhbLine.fieldRequirement? := by
  obtain ⟨located, st, h1, h2, _⟩ := toDeepAhb_ok h
  obtain ⟨located', h1', h3⟩ := C15_document_order reader posStr flat flat' sgh deep h
  rw [h1] at h1'
  cases h1'
  rw [h3, createdItems_flatMap _ (fun r => r.lines.filterMap AhbLine.fieldRequirement?), filterMap_flatMap_lines,
    runs_lines h1]
  intro r hr used
  obtain ⟨s, s', hs⟩ := foldlM_steps _ h2 r hr
  exact (run_fieldRequirements h1 r hr (deepStep_merge hs) used).2 hcode hone

/-- **C83 (nothing invented)** Without any premise: the free texts and value pool entries of the deep AHB, in document order,
are some of the requirements in the lines of the flat AHB, in the same order; none is invented, changed, repeated or moved. -/
theorem C83_nothing_invented (reader : MigLookup) (posStr : AhbLocation → PyStr) (flat flat' : FlatAhb) (sgh : Sgh)
    (deep : DeepAhb) (h : toDeepAhb reader posStr flat sgh = .ok (flat', deep)) :
    ((documentOrder deep.lines).flatMap DocItem.fieldRequirements).Sublist
      (flat.lines.filterMap AhbLine.fieldRequirement?) := by
  obtain ⟨located, st, h1, h2, _⟩ := toDeepAhb_ok h
  obtain ⟨located', h1', h3⟩ := C15_document_order reader posStr flat flat' sgh deep h
  rw [h1] at h1'
  cases h1'
  rw [h3, ← runs_lines h1, ← filterMap_flatMap_lines]
  refine createdItems_sublist _ _ _ _ fun r hr used => ?_
  obtain ⟨s, s', hs⟩ := foldlM_steps _ h2 r hr
  exact (run_fieldRequirements h1 r hr (deepStep_merge hs) used).1

/-- **C83 (exact)** Which requirements survive: divide the located lines into the longest parts of consecutive lines at the same
place (C09: location up to the qualifier). From a part without segment code nothing is kept, from a part that begins with a value
pool entry everything, from any other part the requirement of its first line. -/
theorem C83_exact (reader : MigLookup) (posStr : AhbLocation → PyStr) (flat flat' : FlatAhb) (sgh : Sgh) (deep : DeepAhb)
    (h : toDeepAhb reader posStr flat sgh = .ok (flat', deep)) :
    ∃ located parts, determineLocations sgh flat.lines = .ok located ∧ PlaceParts located parts ∧
      (documentOrder deep.lines).flatMap DocItem.fieldRequirements = parts.flatMap fun p => keptFieldRequirements (p.map Prod.fst) := by
  obtain ⟨located, st, h1, h2, _⟩ := toDeepAhb_ok h
  obtain ⟨located', h1', h3⟩ := C15_document_order reader posStr flat flat' sgh deep h
  rw [h1] at h1'
  cases h1'
  refine ⟨located, _, h1, runs_placeParts located, ?_⟩
  rw [h3, createdItems_flatMap _ (fun r => keptFieldRequirements r.lines), List.flatMap_map]
  · rfl
  · intro r hr used
    obtain ⟨s, s', hs⟩ := foldlM_steps _ h2 r hr
    exact run_keptFields h1 r hr (deepStep_merge hs) used

/-- **C84 (full statement)** If `to_deep_ahb` returns, the segments of the deep AHB, in document order, carry exactly the
expressions of the segment lines (segment code, no data element) of the flat AHB, in the same order and number. This is false
of the code: `C84_counterexample`. -/
def C84_statement : Prop :=
  ∀ (reader : MigLookup) (posStr : AhbLocation → PyStr) (flat flat' : FlatAhb) (sgh : Sgh) (deep : DeepAhb),
    toDeepAhb reader posStr flat sgh = .ok (flat', deep) →
    (documentOrder deep.lines).filterMap DocItem.segmentRequirement? = flat.lines.filterMap AhbLine.segmentRequirement?

/-- **C84 (partial)** The statement holds if a segment line is not followed by a segment with the same code without a data
element line in between, and the expression of the heading of a group is the one of the segment that opens the group. -/
theorem C84_segments_kept_partial (reader : MigLookup) (posStr : AhbLocation → PyStr) (flat flat' : FlatAhb) (sgh : Sgh)
    (deep : DeepAhb) (h : toDeepAhb reader posStr flat sgh = .ok (flat', deep))
    (hone : SegmentsHaveOneLine flat.lines) (hagree : HeadingsAgree flat.lines) :
    (documentOrder deep.lines).filterMap DocItem.segmentRequirement? =
      flat.lines.filterMap AhbLine.segmentRequirement? := by
  obtain ⟨located, h1, h3⟩ := C15_document_order reader posStr flat flat' sgh deep h
  rw [h3, List.filterMap_eq_flatMap_toList,
    createdItems_flatMap _ (fun r => r.lines.filterMap AhbLine.segmentRequirement?), filterMap_flatMap_lines, runs_lines h1]
  exact fun r hr used => run_segmentRequirements h1 r hr hone hagree used

/-- **C84 (exact)** Which expressions the segments carry: divide the located lines into the longest parts of consecutive lines at the
same place. A part with a segment code and without data element yields one segment with the first expression of its lines (the
heading of a group included), no segment if there is no expression; the other parts yield none. -/
theorem C84_exact (reader : MigLookup) (posStr : AhbLocation → PyStr) (flat flat' : FlatAhb) (sgh : Sgh) (deep : DeepAhb)
    (h : toDeepAhb reader posStr flat sgh = .ok (flat', deep)) :
    ∃ located parts, determineLocations sgh flat.lines = .ok located ∧ PlaceParts located parts ∧
      (documentOrder deep.lines).filterMap DocItem.segmentRequirement? = parts.filterMap fun p => keptSegmentRequirement (p.map Prod.fst) := by
  obtain ⟨located, h1, h3⟩ := C15_document_order reader posStr flat flat' sgh deep h
  refine ⟨located, _, h1, runs_placeParts located, ?_⟩
  rw [h3, List.filterMap_eq_flatMap_toList, createdItems_flatMap _ (fun r => (keptSegmentRequirement r.lines).toList),
    List.filterMap_map, List.filterMap_eq_flatMap_toList]
  · rfl
  · exact fun r hr used => run_keptSegment h1 r hr used

/-! ## examples and counterexamples -/

/-- lines with a group heading, a segment, its qualifier, a value pool and free texts -/
def exNadLines (second : PyStr) (heading : PyStr) : List AhbLine :=
  let ln (k c d v n : Option PyStr) (e : PyStr) : AhbLine :=
    { segmentGroupKey := k, segmentCode := c, dataElement := d, valuePoolEntry := v, name := n, ahbExpression := some e }
  [ ln none (some py!"UNH") none none none py!"Muss",
    ln none (some py!"UNH") (some py!"0062") none (some py!"Referenz") py!"X",
    ln (some py!"SG2") none none none none heading,
    ln (some py!"SG2") (some py!"NAD") none none none py!"Muss",
    ln (some py!"SG2") (some py!"NAD") (some py!"3035") (some py!"MS") (some py!"Absender ") py!"X",
    ln (some py!"SG2") (some py!"NAD") (some py!"3055") (some py!"9") (some py!"GS1") py!"X [1]",
    ln (some py!"SG2") (some py!"NAD") (some py!"3055") (some py!"293") (some py!"BDEW") py!"X [2]",
    ln (some py!"SG2") (some py!"NAD") (some py!"3036") none (some py!"Name") py!"X",
    ln (some py!"SG2") (some py!"NAD") (some second) none (some py!"Vorname") py!"S [3]",
    ln none (some py!"UNT") none none none py!"Muss" ]

/-- these lines as a flat AHB -/
def exNadFlat (second heading : PyStr) : FlatAhb := ⟨⟨py!"11042", none, none, none⟩, exNadLines second heading⟩

theorem exNadLines_freeTexts : FreeTextsHaveOneLine (exNadLines py!"3124" py!"Muss") := by
  intro n a b ha hb h1 h2
  match n, ha, hb with
  | 0, ha, hb => cases ha; exact absurd rfl h1
  | 1, ha, hb => cases ha; cases hb; exact absurd h2 (by decide)
  | 2, ha, hb => cases ha; exact absurd rfl h1
  | 3, ha, hb => cases ha; exact absurd rfl h1
  | 4, ha, hb => cases ha; decide
  | 5, ha, hb => cases ha; decide
  | 6, ha, hb => cases ha; decide
  | 7, ha, hb => cases ha; cases hb; exact absurd h2 (by decide)
  | 8, ha, hb => cases ha; cases hb; exact absurd h2 (by decide)
  | n + 9, ha, hb => simp [exNadLines] at hb

theorem exNadLines_segments : SegmentsHaveOneLine (exNadLines py!"3124" py!"Muss") := by
  intro n a b ha hb h1 h2 h3
  match n, ha, hb with
  | 0, ha, hb => cases hb; exact absurd h3 (by decide)
  | 1, ha, hb => cases ha; exact absurd h2 (by decide)
  | 2, ha, hb => cases ha; exact absurd rfl h1
  | 3, ha, hb => cases hb; exact absurd h3 (by decide)
  | 4, ha, hb => cases ha; exact absurd h2 (by decide)
  | 5, ha, hb => cases ha; exact absurd h2 (by decide)
  | 6, ha, hb => cases ha; exact absurd h2 (by decide)
  | 7, ha, hb => cases ha; exact absurd h2 (by decide)
  | 8, ha, hb => cases ha; exact absurd h2 (by decide)
  | n + 9, ha, hb => simp [exNadLines] at hb

theorem exNadLines_headings : HeadingsAgree (exNadLines py!"3124" py!"Muss") := by
  intro n a ha h1 h2 _ _
  match n, ha with
  | 0, ha => cases ha; exact absurd h1 (by decide)
  | 1, ha => cases ha; exact absurd h1 (by decide)
  | 2, ha => cases ha; exact ⟨_, rfl, rfl⟩
  | 3, ha => cases ha; exact absurd h1 (by decide)
  | 4, ha => cases ha; exact absurd h1 (by decide)
  | 5, ha => cases ha; exact absurd h1 (by decide)
  | 6, ha => cases ha; exact absurd h1 (by decide)
  | 7, ha => cases ha; exact absurd h1 (by decide)
  | 8, ha => cases ha; exact absurd h1 (by decide)
  | 9, ha => cases ha; exact absurd h1 (by decide)
  | n + 10, ha => simp [exNadLines] at ha

/-- the premises of C83 and C84 hold for the example, and these are its requirements -/
example : ∃ flat' deep, toDeepAhb exReader exPosStr (exNadFlat py!"3124" py!"Muss") exSgh = .ok (flat', deep) ∧
    (documentOrder deep.lines).flatMap DocItem.fieldRequirements =
      [⟨py!"0062", none, py!"X"⟩, ⟨py!"3035", some (py!"MS", py!"Absender"), py!"X"⟩,
        ⟨py!"3055", some (py!"9", py!"GS1"), py!"X [1]"⟩, ⟨py!"3055", some (py!"293", py!"BDEW"), py!"X [2]"⟩,
        ⟨py!"3036", none, py!"X"⟩, ⟨py!"3124", none, py!"S [3]"⟩] ∧
    (documentOrder deep.lines).filterMap DocItem.segmentRequirement? = [py!"Muss", py!"Muss", py!"Muss"] := by
  have hok : (toDeepAhb exReader exPosStr (exNadFlat py!"3124" py!"Muss") exSgh).isOk = true := by decide +kernel
  cases hr : toDeepAhb exReader exPosStr (exNadFlat py!"3124" py!"Muss") exSgh with
  | error e => rw [hr] at hok; cases hok
  | ok r =>
    refine ⟨r.1, r.2, rfl, ?_, ?_⟩
    · rw [C83_requirements_kept_partial exReader exPosStr _ r.1 exSgh r.2 hr (by decide) exNadLines_freeTexts]
      decide
    · rw [C84_segments_kept_partial exReader exPosStr _ r.1 exSgh r.2 hr exNadLines_segments exNadLines_headings]
      decide

/-- **C83 (counterexample)** two free text lines with the same data element one after the other (name and first name): the
requirement on the second one is lost. -/
theorem C83_counterexample : ¬ C83_statement := by
  intro hst
  have h : (toDeepAhb exReader exPosStr (exNadFlat py!"3036" py!"Muss") exSgh).map
      (fun r => ((documentOrder r.2.lines).flatMap DocItem.fieldRequirements).length) = .ok 5 := by decide +kernel
  cases hr : toDeepAhb exReader exPosStr (exNadFlat py!"3036" py!"Muss") exSgh with
  | error e => rw [hr] at h; cases h
  | ok r =>
    rw [hr] at h
    have h2 := hst exReader exPosStr _ r.1 exSgh r.2 hr
    simp only [Except.map, Except.ok.injEq] at h
    rw [h2] at h
    revert h
    decide

/-- **C84 (counterexample)** the segment that opens a group gets the expression of the heading of the group ("Kann") instead
of its own ("Muss"). -/
theorem C84_counterexample : ¬ C84_statement := by
  intro hst
  have h : (toDeepAhb exReader exPosStr (exNadFlat py!"3124" py!"Kann") exSgh).map
      (fun r => (documentOrder r.2.lines).filterMap DocItem.segmentRequirement?) =
        .ok [py!"Muss", py!"Kann", py!"Muss"] := by decide +kernel
  cases hr : toDeepAhb exReader exPosStr (exNadFlat py!"3124" py!"Kann") exSgh with
  | error e => rw [hr] at h; cases h
  | ok r =>
    rw [hr] at h
    have h2 := hst exReader exPosStr _ r.1 exSgh r.2 hr
    simp only [Except.map, Except.ok.injEq] at h
    rw [h2] at h
    revert h
    decide

end Verif
