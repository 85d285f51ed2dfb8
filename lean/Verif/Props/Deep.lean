import Verif.Proofs.DeepOps
/-!
# Properties C27–C33: operations on deep AHBs
-/

namespace Verif

/-! an example with nesting, a value pool, free texts and sub groups that are missing or empty -/

def exPoolDe : DataElement :=
  { discriminator := some py!"$[\"A\"]", dataElementId := py!"3035", enteredInput := none,
    valueType := some .valuePool,
    kind := .valuePool [⟨py!"E01", py!"Einzug", py!"X"⟩, ⟨py!"E03", py!"Wechsel", py!"X [1]"⟩] }
def exTextDe : DataElement :=
  { discriminator := some py!"$[\"B\"]", dataElementId := py!"1004", enteredInput := some py!"foo",
    valueType := some .text, kind := .freeText py!"Muss" }
def exTextDe' : DataElement := { exTextDe with discriminator := none }
def exSeg1 : Segment := ⟨some py!"UNH", py!"Muss", some 1, [exTextDe], some py!"Kopf", none⟩
def exSeg2 : Segment := ⟨some py!"NAD", py!"Soll", some 4, [exPoolDe, exTextDe'], none, some py!"00012"⟩
def exDeepInner : SegmentGroup := .mk (some py!"SG3") py!"Kann" (some 3) (some [exSeg2]) none
def exDeepMiddle : SegmentGroup := .mk (some py!"SG2") py!"Muss" (some 2) none (some [exDeepInner])
def exDeepRoot : SegmentGroup := .mk (some py!"root") py!"X" (some 0) (some [exSeg1]) (some [exDeepMiddle])
def exDeep : DeepAhb := { ahbMeta := { pruefidentifikator := py!"11042" }, lines := [exDeepRoot] }

/-! ## C27 -/

/-- **C27** after `reset_ahb_line_index` no group or segment at any depth has a line index. -/
theorem C27_no_index (a : DeepAhb) :
    ∀ x ∈ documentOrder a.resetAhbLineIndex.lines, ∀ i, x.lineIndex = some i → i = none := by
  intro x hx
  simp only [DeepAhb.resetAhbLineIndex, documentOrder, List.mem_flatMap, List.mem_map] at hx
  obtain ⟨g, ⟨g', _, rfl⟩, hx⟩ := hx
  exact reset_items g' x hx

/-- **C27** two deep AHBs are equal after resetting both iff they were equal up to line indices. -/
theorem C27_equal_up_to_index (a b : DeepAhb) :
    a.resetAhbLineIndex = b.resetAhbLineIndex ↔
      a.ahbMeta = b.ahbMeta ∧ SegmentGroup.SameButIndexList a.lines b.lines := by
  cases a; cases b
  simp only [DeepAhb.resetAhbLineIndex, DeepAhb.mk.injEq, ← resetList_eq, resetList_inj]

/-- **C27** resetting twice equals resetting once; in particular nothing but the indices changes. -/
theorem C27_idempotent (a : DeepAhb) : a.resetAhbLineIndex.resetAhbLineIndex = a.resetAhbLineIndex ∧
    a.resetAhbLineIndex.ahbMeta = a.ahbMeta ∧
    SegmentGroup.SameButIndexList a.resetAhbLineIndex.lines a.lines := by
  have h : a.resetAhbLineIndex.resetAhbLineIndex = a.resetAhbLineIndex := by
    cases a
    simp only [DeepAhb.resetAhbLineIndex, ← resetList_eq, resetList_idem]
  exact ⟨h, rfl, ((C27_equal_up_to_index _ _).1 h).2⟩

example : exDeep.resetAhbLineIndex ≠ exDeep := by decide +kernel
example : (documentOrder exDeep.lines).filterMap DocItem.lineIndex = [some 0, some 1, some 2, some 3, some 4] := by
  decide +kernel

/-! ## C28 -/

/-- **C28** `replace_inputs_based_on_discriminator` replaces the entered input of each data element (at any depth) with a
discriminator for which the function reports a replacement, also if the replacement is `None`, and changes nothing else.
The function is called once for every data element with discriminator, with that discriminator, and never else. -/
theorem C28_replace_inputs (a : DeepAhb) (f : PyStr → InputReplacement) :
    ∃ calls, (a.replaceInputsBasedOnDiscriminator (recordCalls f)).run [] =
      ({ a with lines := SegmentGroup.mapDataElementsList (fun de =>
          match de.discriminator with
          | none => de
          | some d => if (f d).replacementFound then { de with enteredInput := (f d).inputReplacement } else de) a.lines },
       calls) ∧
      calls.Perm ((documentOrder a.lines).filterMap DocItem.dataElementDiscriminator) := by
  refine ⟨SegmentGroup.callsList a.lines, ?_, callsList_perm a.lines⟩
  have h := Logs.bind (Logs.groups f a.lines)
    (f := fun lines => pure ({ a with lines := lines } : DeepAhb)) (Logs.pure _) []
  rw [List.nil_append, List.append_nil] at h
  exact h

/-- **C28** read from top to bottom: only data elements change, and only their entered input. -/
theorem C28_document_order (a : DeepAhb) (f : PyStr → InputReplacement) :
    documentOrder ((a.replaceInputsBasedOnDiscriminator (recordCalls f)).run []).1.lines =
      (documentOrder a.lines).map (fun x => match x with
        | .dataElement de => .dataElement (match de.discriminator with
          | none => de
          | some d => if (f d).replacementFound then { de with enteredInput := (f d).inputReplacement } else de)
        | y => y) := by
  obtain ⟨calls, h, _⟩ := C28_replace_inputs a f
  rw [h]
  simp only
  rw [mapDataElementsList_eq, documentOrder, List.flatMap_map, documentOrder, List.map_flatMap]
  refine List.flatMap_congr fun g _ => ?_
  rw [docItems_mapDataElements]
  refine List.map_congr_left fun x _ => ?_
  cases x <;> rfl

/-- the replacement `None` is applied -/
example : ((exDeep.replaceInputsBasedOnDiscriminator (recordCalls fun d => ⟨d == py!"$[\"B\"]", none⟩)).run []).1 ≠ exDeep ∧
    ((exDeep.replaceInputsBasedOnDiscriminator (recordCalls fun d => ⟨d == py!"$[\"B\"]", none⟩)).run []).2 =
      [py!"$[\"A\"]", py!"$[\"B\"]"] := by decide +kernel

/-! ## C29 -/

/-- **C29** `find_segments` returns exactly the matching segments of the group and the groups below, each occurrence once,
in document order. -/
theorem C29_find_segments (g : SegmentGroup) (p : Segment → Bool) :
    g.findSegments p true = g.segmentsInOrder.filter p := findSegments_inOrder p g

/-- **C29** without recursion only the segments of the group itself are searched. -/
theorem C29_not_recursive (g : SegmentGroup) (p : Segment → Bool) :
    g.findSegments p false = g.ownSegments.filter p := findSegments_false p g

/-- `segmentsInOrder` really lists the segments as they occur in the document -/
theorem C29_document_order (g : SegmentGroup) :
    g.segmentsInOrder.map Segment.header = g.docItems.filter (fun x => x.segmentLineIndex.isSome) := by
  induction g using SegmentGroup.induct with
  | h g ih =>
    rw [segmentsInOrder_eq, SegmentGroup.docItems_eq, List.map_append, List.map_flatMap]
    simp only [SegmentGroup.header, List.filter_cons, DocItem.segmentLineIndex, Option.isSome_none, Bool.false_eq_true,
      if_false, List.filter_append, documentOrder, List.filter_flatMap]
    congr 1
    · induction g.ownSegments with
      | nil => rfl
      | cons s l ih2 =>
        rw [List.map_cons, ih2, List.flatMap_cons]
        simp only [Segment.docItems, Segment.header, List.filter_cons, Option.isSome_some,
          if_true, List.cons_append, List.filter_map]
        have : (s.dataElements.filter ((fun x => x.segmentLineIndex.isSome) ∘ DocItem.dataElement)) = [] := by
          rw [List.filter_eq_nil_iff]
          intro x _
          simp [DocItem.segmentLineIndex]
        simp only [DocItem.segmentLineIndex] at this ⊢
        rw [this]; rfl
    · exact List.flatMap_congr fun c hc => ih c hc

example : exDeepRoot.findSegments (fun _ => true) true = [exSeg1, exSeg2] := by decide +kernel
example : exDeepRoot.findSegments (fun s => s.segmentId.isSome) true = [exSeg2] := by decide +kernel
example : exDeepRoot.findSegments (fun _ => true) false = [exSeg1] := by decide +kernel

/-! ## C30 -/

/-- **C30** `find_segment_groups` returns a group iff it occurs at some depth and satisfies the predicate. -/
theorem C30_find_segment_groups (a : DeepAhb) (p : SegmentGroup → Bool) (g : SegmentGroup) :
    g ∈ a.findSegmentGroups p ↔ p g = true ∧ ∃ address, groupAt? a.lines address = some g :=
  mem_findSegmentGroups p a g

example : exDeep.findSegmentGroups (fun g => g.segments.isSome) = [exDeepInner, exDeepRoot] := by decide +kernel

/-! ## C31 -/

/-- **C31 (partial)** `find_segments` returns a segment iff it satisfies the segment predicate and lies (at any depth)
inside a group that satisfies the group predicate, or directly in one of the outermost groups. Missing: the outermost
groups are searched even if they do not satisfy the group predicate (`C31_root_ignores_group_predicate`), and segments
are returned several times (`C31_duplicates`). -/
theorem C31_find_segments_partial (a : DeepAhb) (gp : SegmentGroup → Bool) (sp : Segment → Bool) (s : Segment) :
    s ∈ a.findSegments gp sp ↔ sp s = true ∧
      ((∃ g, GroupOccurs a.lines g ∧ gp g = true ∧ s ∈ g.segmentsInOrder) ∨ ∃ line ∈ a.lines, s ∈ line.ownSegments) :=
  mem_deepFindSegments gp sp a s

/-- **C31** if the outermost groups satisfy the group predicate (in particular without group predicate), the claim holds
up to repetitions. -/
theorem C31_outermost_match_partial (a : DeepAhb) (gp : SegmentGroup → Bool) (sp : Segment → Bool) (s : Segment)
    (h : ∀ line ∈ a.lines, gp line = true) :
    s ∈ a.findSegments gp sp ↔ sp s = true ∧ ∃ g, GroupOccurs a.lines g ∧ gp g = true ∧ s ∈ g.segmentsInOrder := by
  rw [mem_deepFindSegments]
  constructor
  · rintro ⟨h1, h2 | ⟨line, hl, hs⟩⟩
    · exact ⟨h1, h2⟩
    · exact ⟨h1, line, groupOccurs_line hl, h line hl, (mem_segmentsInOrder line s).2 ⟨[], line, at?_nil line, hs⟩⟩
  · rintro ⟨h1, h2⟩
    exact ⟨h1, .inl h2⟩

/-- **C31** without predicates exactly the segments that occur in the deep AHB are returned (up to repetitions). -/
theorem C31_all_segments (a : DeepAhb) (s : Segment) :
    s ∈ a.findSegments (fun _ => true) (fun _ => true) ↔ SegmentOccurs a.lines s := mem_allSegments a s

/-- **C31 (the claim is false)** a segment of an outermost group is returned although no group satisfies the predicate. -/
theorem C31_root_ignores_group_predicate : ∃ (a : DeepAhb) (gp : SegmentGroup → Bool),
    (∀ g, gp g = false) ∧ a.findSegments gp (fun _ => true) ≠ [] :=
  ⟨exDeep, fun _ => false, fun _ => rfl, by decide +kernel⟩

/-- **C31 (the claim is false)** a segment that occurs once is returned several times. -/
theorem C31_duplicates : ∃ (a : DeepAhb) (s : Segment),
    ((documentOrder a.lines).countP fun x => x == s.header) = 1 ∧
    2 ≤ (a.findSegments (fun _ => true) (fun _ => true)).count s :=
  ⟨exDeep, exSeg2, by decide +kernel, by decide +kernel⟩

/-! ## C32 -/

/-- **C32** `get_all_value_pools` returns value pools of the deep AHB with pairwise distinct discriminators, one for each
discriminator of a value pool; if no two value pools share a discriminator, it returns every value pool. -/
theorem C32_get_all_value_pools (a : DeepAhb) :
    (∀ x ∈ a.getAllValuePools, x.isValuePool = true ∧ DataElementOccurs a.lines x) ∧
    (a.getAllValuePools.map DataElement.discriminator).Nodup ∧
    (∀ x, x.isValuePool = true → DataElementOccurs a.lines x →
      ∃ y ∈ a.getAllValuePools, y.discriminator = x.discriminator) ∧
    ((∀ x y, x.isValuePool = true → y.isValuePool = true → DataElementOccurs a.lines x → DataElementOccurs a.lines y →
        x.discriminator = y.discriminator → x = y) →
      ∀ x, x.isValuePool = true → DataElementOccurs a.lines x → x ∈ a.getAllValuePools) := by
  have inv0 : ValuePoolAcc.Inv {} := ⟨by simp, by simp⟩
  unfold DeepAhb.getAllValuePools
  simp only
  rw [foldl_foldl_flatMap, foldl_foldl_flatMap, ← List.foldl_append]
  obtain ⟨h1, h2, _, h4⟩ := addToResult_foldl inv0
    ((a.findSegments (fun _ => true) fun _ => true).flatMap Segment.getAllValuePools ++
      (a.findSegmentGroups fun _ => true).flatMap SegmentGroup.getAllValuePools)
  have hmem : ∀ x, x ∈ ((a.findSegments (fun _ => true) fun _ => true).flatMap Segment.getAllValuePools ++
      (a.findSegmentGroups fun _ => true).flatMap SegmentGroup.getAllValuePools) ↔
      x.isValuePool = true ∧ DataElementOccurs a.lines x := by
    intro x
    rw [List.mem_append, List.mem_flatMap, List.mem_flatMap]
    constructor
    · rintro (⟨s, hs, hx⟩ | ⟨g, hg, hx⟩)
      · rw [mem_allSegments] at hs
        rw [Segment.getAllValuePools, List.mem_filter] at hx
        exact ⟨hx.2, s, hs, hx.1⟩
      · rw [mem_allGroups] at hg
        rw [SegmentGroup.getAllValuePools, List.mem_flatMap] at hx
        obtain ⟨s, hs, hx⟩ := hx
        rw [findSegments_inOrder, List.mem_filter, mem_segmentsInOrder] at hs
        rw [Segment.getAllValuePools, List.mem_filter] at hx
        obtain ⟨⟨b, h, hb, hs⟩, _⟩ := hs
        obtain ⟨c, hc⟩ := hg
        exact ⟨hx.2, s, ⟨h, ⟨c ++ b, by rw [groupAt?_append b hc, hb]⟩, hs⟩, hx.1⟩
    · rintro ⟨hp, s, hs, hx⟩
      exact .inl ⟨s, (mem_allSegments a s).2 hs, List.mem_filter.2 ⟨hx, hp⟩⟩
  have c3 : ∀ x, x.isValuePool = true → DataElementOccurs a.lines x →
      ∃ y ∈ (List.foldl addToResult {} ((a.findSegments (fun _ => true) fun _ => true).flatMap Segment.getAllValuePools ++
        (a.findSegmentGroups fun _ => true).flatMap SegmentGroup.getAllValuePools)).result,
        y.discriminator = x.discriminator := by
    intro x hx ho
    have := h4 x ((hmem x).2 ⟨hx, ho⟩)
    rw [List.mem_map] at this
    exact this
  have c1 := fun x hx => (hmem x).1 ((h2 x hx).resolve_left (by simp))
  refine ⟨c1, h1.nodup, c3, ?_⟩
  intro hd x hx ho
  obtain ⟨y, hy, he⟩ := c3 x hx ho
  obtain ⟨hyv, hyo⟩ := c1 y hy
  rw [hd x y hx hyv ho hyo he.symm]
  exact hy

example : exDeep.getAllValuePools = [exPoolDe] := by decide +kernel

/-! ## C33 -/

/-- **C33** `get_all_expressions` returns, strictly ascending (hence without repetitions), exactly the non-empty
expressions of the groups, segments, free texts and value pool entries of the deep AHB. -/
theorem C33_get_all_expressions (a : DeepAhb) :
    a.getAllExpressions.Pairwise (· < ·) ∧
    ∀ e, e ∈ a.getAllExpressions ↔ e ≠ [] ∧ ∃ x ∈ documentOrder a.lines, e ∈ x.expressions := by
  refine ⟨sortedSet_ascending _, fun e => ?_⟩
  unfold DeepAhb.getAllExpressions
  rw [mem_sortedSet, List.mem_append, List.mem_flatMap, List.mem_filter, List.mem_map]
  have hde : ∀ de : DataElement, e ∈ de.expressions ↔ e ≠ [] ∧ e ∈ (DocItem.dataElement de).expressions := by
    intro de
    cases de with
    | mk d i e' t k => cases k <;> simp [DataElement.expressions, DocItem.expressions, and_comm]
  have hseg : ∀ s : Segment, e ∈ s.expressions ↔ e ≠ [] ∧ ∃ x ∈ s.docItems, e ∈ x.expressions := by
    intro s
    unfold Segment.expressions Segment.docItems
    rw [List.mem_append, List.mem_flatMap]
    simp only [List.mem_cons, List.mem_map, hde, List.mem_filter, List.not_mem_nil, or_false, Bool.not_eq_true',
      List.isEmpty_eq_false_iff]
    constructor
    · rintro (⟨rfl, h⟩ | ⟨de, hd, h1, h2⟩)
      · exact ⟨h, _, .inl rfl, by simp [Segment.header, DocItem.expressions]⟩
      · exact ⟨h1, _, .inr ⟨de, hd, rfl⟩, h2⟩
    · rintro ⟨h, x, rfl | ⟨de, hd, rfl⟩, hx⟩
      · simp only [Segment.header, DocItem.expressions, List.mem_singleton] at hx
        exact .inl ⟨hx, h⟩
      · exact .inr ⟨de, hd, h, hx⟩
  constructor
  · rintro (⟨s, hs, he⟩ | ⟨⟨g, hg, rfl⟩, hne⟩)
    · obtain ⟨h1, x, hx, h2⟩ := (hseg s).1 he
      obtain ⟨g, hg, hsg⟩ := (mem_allSegments a s).1 hs
      exact ⟨h1, x, (mem_documentOrder_iff _ _).2 ⟨g, hg, .inr ⟨s, hsg, hx⟩⟩, h2⟩
    · refine ⟨by simpa using hne, g.header, (mem_documentOrder_iff _ _).2 ⟨g, (mem_allGroups a g).1 hg, .inl rfl⟩, ?_⟩
      simp [SegmentGroup.header, DocItem.expressions]
  · rintro ⟨h1, x, hx, h2⟩
    obtain ⟨g, hg, rfl | ⟨s, hs, hx⟩⟩ := (mem_documentOrder_iff _ _).1 hx
    · simp only [SegmentGroup.header, DocItem.expressions, List.mem_singleton] at h2
      exact .inr ⟨⟨g, (mem_allGroups a g).2 hg, h2.symm⟩, by simpa using h1⟩
    · exact .inl ⟨s, (mem_allSegments a s).2 ⟨g, hg, hs⟩, (hseg s).2 ⟨h1, x, hx, h2⟩⟩

example : py!"X [1]" ∈ exDeep.getAllExpressions ∧ py!"Kann" ∈ exDeep.getAllExpressions := by
  constructor <;> (rw [(C33_get_all_expressions exDeep).2]; decide +kernel)

end Verif
