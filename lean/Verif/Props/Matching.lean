import Verif.Proofs.GroupBy
import Verif.Props.DetermineLocations
/-!
# Properties C15–C21: `to_deep_ahb`
-/

namespace Verif

/-- **C15** If `to_deep_ahb` returns, the deep AHB read in document order (group, its segments with their data elements,
its sub groups) is exactly what the lines give rise to, in the order of the lines (`createdItems`): nothing is lost,
duplicated or reordered; each segment is in the most recently opened group, each data element in the most recently
created segment. -/
theorem C15_document_order (reader : MigLookup) (posStr : AhbLocation → PyStr) (flat flat' : FlatAhb) (sgh : Sgh)
    (deep : DeepAhb) (h : toDeepAhb reader posStr flat sgh = .ok (flat', deep)) :
    ∃ located, determineLocations sgh flat.lines = .ok located ∧
      documentOrder deep.lines = createdItems reader posStr [] (runsOf located) := by
  obtain ⟨located, h1, h2, _⟩ := toDeepAhb_facts h
  exact ⟨located, h1, h2⟩

/-- **C15 (runs)** The runs used in C15 are the maximal runs of consecutive lines whose locations only differ in the
qualifier. -/
theorem C15_runs (located : List (AhbLine × AhbLocation)) :
    (runsOf located).flatMap Prod.snd = located ∧
    (∀ r ∈ runsOf located, r.2 ≠ [] ∧ ∀ x ∈ r.2, x.2.layers = r.1.layers ∧ x.2.segmentCode = r.1.segmentCode ∧
      x.2.dataElementId = r.1.dataElementId ∧ r.1.qualifier = none) ∧
    ∀ (n : Nat) (a b : Run), (runsOf located)[n]? = some a → (runsOf located)[n + 1]? = some b → a.1 ≠ b.1 := by
  refine ⟨groupBy_flatten _ _, fun r hr => ?_, fun n a b => groupBy_adjacent _ _ n a b⟩
  obtain ⟨h1, h2⟩ := groupBy_keys _ _ r hr
  refine ⟨h1, fun x hx => ?_⟩
  have := h2 x hx
  rw [← this]
  exact ⟨rfl, rfl, rfl, rfl⟩

/-- **C16 (uniqueness)** no two groups of the result have the same discriminator. -/
theorem C16_discriminators_unique (reader : MigLookup) (posStr : AhbLocation → PyStr) (flat flat' : FlatAhb) (sgh : Sgh)
    (deep : DeepAhb) (h : toDeepAhb reader posStr flat sgh = .ok (flat', deep))
    (a b : List Nat) (g g' : SegmentGroup) (ha : groupAt? deep.lines a = some g) (hb : groupAt? deep.lines b = some g')
    (hd : g.discriminator = g'.discriminator) : a = b := by
  obtain ⟨located, _, h2, _, _, _⟩ := toDeepAhb_facts h
  have h3 := groups_discriminators deep.lines
  rw [h2, createdItems_groups reader posStr [] none] at h3
  refine inj_of_nodup_map (fun a => (groupAt? deep.lines a).map SegmentGroup.discriminator) (l := groupAddresses deep.lines)
    ?_ ((mem_groupAddresses _ _).2 (by simp [ha])) ((mem_groupAddresses _ _).2 (by simp [hb])) (by simp [ha, hb, hd])
  rw [h3, List.map_map]
  have := (openings_nodup reader [] none (runsOf located)).1
  rw [show (some ∘ fun o : Opening => some o.path) = (fun s => some (some s)) ∘ Opening.path from rfl, ← List.map_map]
  exact List.Pairwise.map _ (by simp) this

/-- **C16 (root)** the first top level group is the message root. -/
theorem C16_first_is_root (reader : MigLookup) (posStr : AhbLocation → PyStr) (flat flat' : FlatAhb) (sgh : Sgh)
    (deep : DeepAhb) (h : toDeepAhb reader posStr flat sgh = .ok (flat', deep))
    (g : SegmentGroup) (hg : deep.lines[0]? = some g) :
    g.discriminator = some py!"$[\"Dokument\"][0][\"Nachricht\"][0]" := by
  obtain ⟨located, _, h2, _, _, h5⟩ := toDeepAhb_facts h
  have h3 := groups_discriminators deep.lines
  rw [h2, createdItems_groups reader posStr [] none] at h3
  cases hl : deep.lines with
  | nil => rw [hl] at hg; cases hg
  | cons x l =>
    rw [hl] at hg h3
    simp only [List.getElem?_cons_zero, Option.some.injEq] at hg
    subst hg
    rw [groupAddresses_eq, List.zipIdx_cons, List.flatMap_cons, addresses_eq, List.map_cons, List.cons_append] at h3
    cases ho : openings reader [] none (runsOf located) with
    | nil => rw [ho] at h3; cases h3
    | cons o os =>
      rw [ho] at h3
      have h6 := h5 (by simp [ho])
      rw [ho] at h6
      simp only [List.map_cons, List.head?_cons, Option.some.injEq] at h6
      simp only [List.map_cons, List.cons.injEq, groupAt?, List.getElem?_cons_zero, Option.bind_some,
        at?_nil, Option.map_some, Option.some.injEq] at h3
      rw [h3.1, h6]
      rfl

/-- **C19** If the groups are opened one layer at a time, each group of the result sits at the depth of its number of
layers, directly below the group that was (most recently) opened for its outer layers. The addresses `as` are the
addresses of all groups of the result in document order, which is the order of the openings. -/
theorem C19_nesting (reader : MigLookup) (posStr : AhbLocation → PyStr) (flat flat' : FlatAhb) (sgh : Sgh)
    (deep : DeepAhb) (h : toDeepAhb reader posStr flat sgh = .ok (flat', deep))
    (located : List (AhbLine × AhbLocation)) (hl : determineLocations sgh flat.lines = .ok located)
    (hone : OneLayerAtATime (openings reader [] none (runsOf located))) :
    let os := openings reader [] none (runsOf located)
    ∃ as : List (List Nat), as.Nodup ∧ (∀ a, a ∈ as ↔ ∃ g, groupAt? deep.lines a = some g) ∧ as.length = os.length ∧
      ∀ (n : Nat) (o : Opening) (a : List Nat), os[n]? = some o → as[n]? = some a →
        (∃ g, groupAt? deep.lines a = some g ∧ g.discriminator = some o.path) ∧
        a.length = o.layers.length ∧
        ∀ outer x, outer ≠ [] → o.layers = outer ++ [x] →
          ∃ (m : Nat) (om : Opening), m < n ∧ os[m]? = some om ∧ om.layers = outer ∧ as[m]? = some a.dropLast ∧
            ∀ (k : Nat) (ok : Opening), m < k → k < n → os[k]? = some ok → ok.layers ≠ outer := by
  intro os
  obtain ⟨located', hl', h2, _, hw, _⟩ := toDeepAhb_facts h
  rw [hl] at hl'
  cases hl'
  have h3 := groups_discriminators deep.lines
  rw [h2, createdItems_groups reader posStr [] none] at h3
  refine ⟨groupAddresses deep.lines, groupAddresses_nodup, ?_, hw.length, ?_⟩
  · intro a; rw [mem_groupAddresses, Option.isSome_iff_exists]
  · intro n o a ho ha
    obtain ⟨hlen, hsub⟩ := nested hw hone n o a ho ha
    refine ⟨?_, hlen, ?_⟩
    · have h4 := congrArg (·[n]?) h3
      simp only [List.getElem?_map, ha, Option.map_some] at h4
      rw [show (openings reader [] none (runsOf located))[n]? = some o from ho] at h4
      simp only [Option.map_some, Option.some.injEq] at h4
      cases hg : groupAt? deep.lines a with
      | none => rw [hg] at h4; cases h4
      | some g =>
        rw [hg] at h4
        exact ⟨g, rfl, by simpa using h4⟩
    · intro outer x hne hx
      have ho0 : 0 < outer.length := List.length_pos_iff.2 hne
      have hxl : o.layers.length = outer.length + 1 := by rw [hx]; simp
      obtain ⟨j, o', hj, hoj, hlj, haj, hk⟩ := hsub outer.length ho0 (by omega)
      have htake : o.layers.take outer.length = outer := by rw [hx]; simp
      rw [htake] at hlj hk
      refine ⟨j, o', ?_, hoj, hlj, ?_, fun k ok h1 h2 h3 => hk k ok h1 (by omega) h3⟩
      · by_cases hjn : j = n
        · subst hjn
          have h9 : o' = o := Option.some.inj (hoj.symm.trans ho)
          subst h9
          rw [hlj] at hxl
          omega
        · omega
      · rw [haj, List.dropLast_eq_take, hlen, hxl]
        rfl

/-- **C16 (single root, partial)** If the groups are opened one layer at a time there is at most one top level group.
Missing: without that assumption there may be several top level groups, see `C16_two_roots`. -/
theorem C16_single_root_partial (reader : MigLookup) (posStr : AhbLocation → PyStr) (flat flat' : FlatAhb) (sgh : Sgh)
    (deep : DeepAhb) (h : toDeepAhb reader posStr flat sgh = .ok (flat', deep))
    (located : List (AhbLine × AhbLocation)) (hl : determineLocations sgh flat.lines = .ok located)
    (hone : OneLayerAtATime (openings reader [] none (runsOf located))) : deep.lines.length ≤ 1 := by
  obtain ⟨as, hnd, hmem, hlen, hall⟩ := C19_nesting reader posStr flat flat' sgh deep h located hl hone
  apply Classical.byContradiction
  intro hgt
  have hlt : 1 < deep.lines.length := by omega
  have h0 : [0] ∈ as := (hmem _).2 ⟨deep.lines[0], by simp [groupAt?, at?_nil, show 0 < deep.lines.length by omega]⟩
  have h1 : [1] ∈ as := (hmem _).2 ⟨deep.lines[1], by simp [groupAt?, at?_nil, hlt]⟩
  have hzero : ∀ a ∈ as, a.length = 1 → as[0]? = some a := by
    intro a ha hal
    obtain ⟨n, hn, rfl⟩ := List.getElem_of_mem ha
    cases n with
    | zero => simp [hn]
    | succ n =>
      have hn' : n + 1 < (openings reader [] none (runsOf located)).length := by omega
      obtain ⟨_, h2, _⟩ := hall (n + 1) _ _ (List.getElem?_eq_getElem hn') (List.getElem?_eq_getElem hn)
      obtain ⟨_, outer, x, hne, hx, _⟩ := hone.2 n _ _ (List.getElem?_eq_getElem (by omega)) (List.getElem?_eq_getElem hn')
      rw [hal, hx] at h2
      have := List.length_pos_iff.2 hne
      rw [List.length_append, List.length_singleton] at h2
      omega
  have e0 := hzero _ h0 rfl
  have e1 := hzero _ h1 rfl
  rw [e0] at e1
  cases e1

/-- **C17** every group, segment, free text and value pool entry of the result has an expression that is not blank; a
value pool entry stems from a line with this qualifier, this expression and this data element. -/
theorem C17_no_blank_expression (reader : MigLookup) (posStr : AhbLocation → PyStr) (flat flat' : FlatAhb) (sgh : Sgh)
    (deep : DeepAhb) (h : toDeepAhb reader posStr flat sgh = .ok (flat', deep)) (a : List Nat) (g : SegmentGroup)
    (hg : groupAt? deep.lines a = some g) :
    NotBlank g.ahbExpression ∧ ∀ s ∈ g.ownSegments, NotBlank s.ahbExpression ∧ ∀ de ∈ s.dataElements,
      (∀ e, de.kind = .freeText e → NotBlank e) ∧
      ∀ es, de.kind = .valuePool es → ∀ x ∈ es, NotBlank x.ahbExpression ∧
        ∃ line ∈ flat.lines, line.ahbExpression = some x.ahbExpression ∧ line.valuePoolEntry = some x.qualifier ∧
          line.dataElement = some de.dataElementId := by
  obtain ⟨located, hl, h2, h3, _, _⟩ := toDeepAhb_facts h
  have hmem := mem_documentOrder hg
  have hin : ∀ s ∈ g.ownSegments, ∀ x ∈ s.docItems, x ∈ g.docItems := by
    intro s hs x hx
    exact (mem_docItems_iff g x).2 ⟨[], g, at?_nil g, Or.inr ⟨s, hs, hx⟩⟩
  refine ⟨h3 g.header (hmem _ ((mem_docItems_iff g g.header).2 ⟨[], g, at?_nil g, Or.inl rfl⟩)),
    fun s hs => ⟨h3 s.header (hmem _ (hin s hs s.header (by simp [Segment.docItems]))), fun de hde => ?_⟩⟩
  have hd : DocItem.dataElement de ∈ documentOrder deep.lines :=
    hmem _ (hin s hs _ (by simp [Segment.docItems, hde]))
  have hnb := h3 _ hd
  refine ⟨fun e he => by simpa [DocItem.NotBlank, he] using hnb, fun es hes x hx => ⟨?_, ?_⟩⟩
  · simp only [DocItem.NotBlank, hes] at hnb
    exact hnb x hx
  · rw [h2] at hd
    have hlines : (runsOf located).flatMap Run.lines = flat.lines := by
      rw [runsOf_lines, (C09_locations_describe_lines sgh flat.lines located hl).1]
    have key : ∀ (runs : List Run) used, DocItem.dataElement de ∈ createdItems reader posStr used runs →
        ∃ r ∈ runs, mergeLinesWithSameDataElement r.lines (r.stack reader) = .ok de := by
      intro runs
      induction runs with
      | nil => intro used hm; cases hm
      | cons r runs ih =>
        intro used hm
        rw [createdItems, List.mem_append] at hm
        rcases hm with hm | hm
        · refine ⟨r, by simp, ?_⟩
          unfold Run.created at hm
          split at hm
          · cases hm
          · split at hm
            · unfold Run.createdDataElement at hm
              split at hm
              · split at hm
                · rename_i de' hde'
                  simp at hm
                  rw [hde', hm]
                · cases hm
              · cases hm
            · exfalso
              rcases List.mem_append.1 hm with hm | hm
              · unfold Run.openedGroup at hm
                split at hm <;> simp at hm
              · unfold Run.createdSegment at hm
                split at hm <;> simp at hm
        · obtain ⟨r', hr', h'⟩ := ih _ hm
          exact ⟨r', by simp [hr'], h'⟩
    obtain ⟨r, hr, hm⟩ := key _ _ hd
    obtain ⟨hone, first, rest, d, hfl, hfd, _, _, hid, _, hv1, hv2⟩ := merge_ok hm
    by_cases hv : first.valuePoolEntry = none
    · obtain ⟨_, e, hk, _⟩ := hv2 hv
      rw [hk] at hes; cases hes
    · obtain ⟨_, es', hk, hme⟩ := hv1 hv
      rw [hk] at hes
      cases hes
      obtain ⟨l, hl1, hq, _, he, _⟩ := forall₂_mem_right (mergeEntries_ok hme) x hx
      have hl2 : l ∈ r.lines := (List.mem_filter.1 hl1).1
      refine ⟨l, ?_, he, hq, ?_⟩
      · rw [← hlines, List.mem_flatMap]; exact ⟨r, hr, hl2⟩
      · -- all lines of the run have the same data element
        have hsub : ∀ x ∈ r.lines, x.dataElement = some d := by
          have hmd : ∀ x ∈ r.lines, x.dataElement ∈ distinctDataElements r.lines := by
            intro x hx
            exact List.mem_eraseDups.2 (List.mem_map_of_mem hx)
          obtain ⟨y, hy⟩ := List.length_eq_one_iff.1 hone
          intro x hx
          have h5 := hmd x hx
          have h6 := hmd first (by rw [hfl]; simp)
          rw [hy, List.mem_singleton] at h5 h6
          rw [h5, ← h6, hfd]
        rw [hsub l hl2, hid]

/-- **C18 (ValueError)** no lines, or lines with different data elements -/
theorem C18_merge_value_error (lines : List AhbLine) (stack : Option EdifactStack)
    (h : ¬ ∃ d, lines ≠ [] ∧ ∀ l ∈ lines, l.dataElement = d) :
    mergeLinesWithSameDataElement lines stack = .error .valueError := by
  unfold mergeLinesWithSameDataElement
  rw [if_pos]
  intro hone
  apply h
  obtain ⟨y, hy⟩ := List.length_eq_one_iff.1 hone
  refine ⟨y, ?_, fun l hl => ?_⟩
  · rintro rfl; cases hy
  · have : l.dataElement ∈ distinctDataElements lines := List.mem_eraseDups.2 (List.mem_map_of_mem hl)
    rwa [hy, List.mem_singleton] at this

/-- **C18 (result)** what is returned: a value pool with one entry per line with a non-empty expression (in order, with
the line's entry, stripped name and expression) if the first line has a value pool entry, else a free text. -/
theorem C18_merge_result (lines : List AhbLine) (stack : Option EdifactStack) (de : DataElement)
    (h : mergeLinesWithSameDataElement lines stack = .ok de) :
    ∃ first rest, lines = first :: rest ∧ (∀ l ∈ lines, l.dataElement = some de.dataElementId) ∧
      de.discriminator = stack.map EdifactStack.toJsonPath ∧ de.enteredInput = none ∧
      (first.valuePoolEntry ≠ none → de.valueType = some .valuePool ∧ ∃ es, de.kind = .valuePool es ∧
        es.map (fun x => (some x.qualifier, some x.meaning, some x.ahbExpression)) =
          (lines.filter fun l => decide (l.ahbExpression ≠ none ∧ l.ahbExpression ≠ some [])).map
            fun l => (l.valuePoolEntry, l.name.map trim, l.ahbExpression)) ∧
      (first.valuePoolEntry = none → ∃ e, first.ahbExpression = some e ∧ de.kind = .freeText e ∧
        de.valueType = some (if first.segmentCode = some py!"DTM" then .datetime else .text)) := by
  rw [show (trim : PyStr → PyStr) = strip from funext trim_eq]
  obtain ⟨hone, first, rest, d, hfl, hfd, _, hdisc, hid, hinp, hv1, hv2⟩ := merge_ok h
  refine ⟨first, rest, hfl, ?_, hdisc, hinp, ?_, ?_⟩
  · obtain ⟨y, hy⟩ := List.length_eq_one_iff.1 hone
    have hmd : ∀ x ∈ lines, x.dataElement = y := by
      intro x hx
      have : x.dataElement ∈ distinctDataElements lines := List.mem_eraseDups.2 (List.mem_map_of_mem hx)
      rwa [hy, List.mem_singleton] at this
    intro l hl
    rw [hmd l hl, ← hmd first (by rw [hfl]; simp), hfd, hid]
  · intro hv
    obtain ⟨ht, es, hk, hes⟩ := hv1 hv
    refine ⟨ht, es, hk, ?_⟩
    have htr : (fun l : AhbLine => decide (l.ahbExpression ≠ none ∧ l.ahbExpression ≠ some [])) =
        fun l => truthy l.ahbExpression := by
      funext l
      cases l.ahbExpression with
      | none => rfl
      | some e => cases e <;> simp [truthy]
    rw [htr]
    have hf := mergeEntries_ok hes
    clear hk hes
    generalize lines.filter (fun l => truthy l.ahbExpression) = fl at hf
    induction hf with
    | nil => rfl
    | cons hr _ ih =>
      obtain ⟨h1, ⟨n, h2, h3⟩, h4, _⟩ := hr
      rw [List.map_cons, List.map_cons, ih]
      simp [h1, h2, h3, h4]
  · intro hv
    obtain ⟨ht, e, hk, he, _⟩ := hv2 hv
    exact ⟨e, he, hk, ht⟩

/-- **C20** If the line indices of the flat AHB are strictly increasing, then so are (weakly) the indices of groups and
segments in document order, and strictly those of the segments. -/
theorem C20_indices_ascend (reader : MigLookup) (posStr : AhbLocation → PyStr) (flat flat' : FlatAhb) (sgh : Sgh)
    (deep : DeepAhb) (h : toDeepAhb reader posStr flat sgh = .ok (flat', deep))
    (idx : List Int) (hidx : flat.lines.map AhbLine.index = idx.map some) (hlt : idx.Pairwise (· < ·)) :
    (∃ js : List Int, (documentOrder deep.lines).filterMap DocItem.lineIndex = js.map some ∧ js.Pairwise (· ≤ ·)) ∧
    ∃ js : List Int, (documentOrder deep.lines).filterMap DocItem.segmentLineIndex = js.map some ∧
      js.Pairwise (· < ·) := by
  obtain ⟨located, hl, h2, _⟩ := toDeepAhb_facts h
  have hlines : (runsOf located).flatMap Run.lines = flat.lines := by
    rw [runsOf_lines, (C09_locations_describe_lines sgh flat.lines located hl).1]
  rw [← hlines] at hidx
  rw [h2]
  generalize ([] : List PyStr) = used
  generalize runsOf located = runs at hidx
  suffices hs : (∃ js : List Int, (createdItems reader posStr used runs).filterMap DocItem.lineIndex = js.map some ∧
        js.Pairwise (· ≤ ·) ∧ ∀ j ∈ js, j ∈ idx) ∧
      ∃ js : List Int, (createdItems reader posStr used runs).filterMap DocItem.segmentLineIndex = js.map some ∧
        js.Pairwise (· < ·) ∧ ∀ j ∈ js, j ∈ idx by
    obtain ⟨⟨js, a, b, _⟩, ks, c, d, _⟩ := hs
    exact ⟨⟨js, a, b⟩, ks, c, d⟩
  induction runs generalizing used idx with
  | nil => exact ⟨⟨[], by simp [createdItems]⟩, [], by simp [createdItems]⟩
  | cons r runs ih =>
    rw [List.flatMap_cons, List.map_append] at hidx
    obtain ⟨i1, i2, rfl, e1, e2⟩ := List.map_eq_append_iff.1 hidx.symm
    rw [List.pairwise_append] at hlt
    obtain ⟨p1, p2, p3⟩ := hlt
    obtain ⟨⟨js, a1, a2, a3⟩, ks, b1, b2, b3⟩ := ih i2 p2 (r.usedAfter reader used) e2.symm
    rw [createdItems, List.filterMap_append, List.filterMap_append, a1, b1]
    -- what the first run contributes
    have hrun : (∃ l : List Int, (r.created reader posStr used).filterMap DocItem.lineIndex = l.map some ∧
          l.Pairwise (· ≤ ·) ∧ ∀ j ∈ l, j ∈ i1) ∧
        ∃ l : List Int, (r.created reader posStr used).filterMap DocItem.segmentLineIndex = l.map some ∧
          l.Pairwise (· < ·) ∧ ∀ j ∈ l, j ∈ i1 := by
      cases hf : r.lines with
      | nil =>
        have : r.created reader posStr used = [] := by simp [Run.created, Run.isHeading, hf]
        rw [this]
        exact ⟨⟨[], by simp⟩, [], by simp⟩
      | cons first rest =>
        have hhd : r.lines.head? = some first := by rw [hf]; rfl
        rw [hf] at e1
        obtain ⟨i, i1', rfl, e3, _⟩ := List.map_eq_cons_iff.1 e1
        unfold Run.created
        split
        · exact ⟨⟨[], by simp⟩, [], by simp⟩
        · split
          · have : ∀ x ∈ (r.createdDataElement reader).toList, x.lineIndex = none ∧ x.segmentLineIndex = none := by
              intro x hx
              unfold Run.createdDataElement at hx
              split at hx
              · split at hx
                · simp at hx; subst hx; exact ⟨rfl, rfl⟩
                · cases hx
              · cases hx
            rw [List.filterMap_eq_nil_iff.2 fun x hx => (this x hx).1, List.filterMap_eq_nil_iff.2 fun x hx => (this x hx).2]
            exact ⟨⟨[], by simp⟩, [], by simp⟩
          · rw [List.filterMap_append, List.filterMap_append]
            have hg : (r.openedGroup reader used).toList.filterMap DocItem.segmentLineIndex = [] ∧
                ((r.openedGroup reader used).toList.filterMap DocItem.lineIndex = [] ∨
                (r.openedGroup reader used).toList.filterMap DocItem.lineIndex = [some i]) := by
              unfold Run.openedGroup
              rw [hhd]
              split
              · rename_i heq
                cases heq
                exact ⟨by simp [DocItem.segmentLineIndex], Or.inr (by simp [DocItem.lineIndex, e3])⟩
              · exact ⟨by simp, Or.inl (by simp)⟩
            have hs : ((r.createdSegment reader posStr).toList.filterMap DocItem.segmentLineIndex = [] ∧
                (r.createdSegment reader posStr).toList.filterMap DocItem.lineIndex = []) ∨
                ((r.createdSegment reader posStr).toList.filterMap DocItem.segmentLineIndex = [some i] ∧
                (r.createdSegment reader posStr).toList.filterMap DocItem.lineIndex = [some i]) := by
              unfold Run.createdSegment
              rw [hhd]
              split
              · rename_i heq
                cases heq
                exact Or.inr ⟨by simp [DocItem.segmentLineIndex, e3], by simp [DocItem.lineIndex, e3]⟩
              · exact Or.inl ⟨by simp, by simp⟩
            obtain ⟨g1, g2⟩ := hg
            rw [g1]
            constructor
            · rcases g2 with g2 | g2 <;> rcases hs with ⟨_, s2⟩ | ⟨_, s2⟩ <;> rw [g2, s2]
              · exact ⟨[], by simp⟩
              · exact ⟨[i], by simp⟩
              · exact ⟨[i], by simp⟩
              · exact ⟨[i, i], by simp⟩
            · rcases hs with ⟨s1, _⟩ | ⟨s1, _⟩ <;> rw [s1]
              · exact ⟨[], by simp⟩
              · exact ⟨[i], by simp⟩
    obtain ⟨⟨l1, c1, c2, c3⟩, l2, d1, d2, d3⟩ := hrun
    refine ⟨⟨l1 ++ js, by rw [c1, List.map_append], ?_, ?_⟩, l2 ++ ks, by rw [d1, List.map_append], ?_, ?_⟩
    · exact List.pairwise_append.2 ⟨c2, a2, fun x hx y hy => Int.le_of_lt (p3 x (c3 x hx) y (a3 y hy))⟩
    · intro j hj
      rcases List.mem_append.1 hj with hj | hj
      · exact List.mem_append_left _ (c3 j hj)
      · exact List.mem_append_right _ (a3 j hj)
    · exact List.pairwise_append.2 ⟨d2, b2, fun x hx y hy => p3 x (d3 x hx) y (b3 y hy)⟩
    · intro j hj
      rcases List.mem_append.1 hj with hj | hj
      · exact List.mem_append_left _ (d3 j hj)
      · exact List.mem_append_right _ (b3 j hj)

/-- **C21** metadata: same pruefidentifikator, description and direction, current MAUS version; the lines of the flat AHB
are unchanged (its metadata object is shared with the deep AHB, so it carries the MAUS version afterwards, too). -/
theorem C21_metadata (reader : MigLookup) (posStr : AhbLocation → PyStr) (flat flat' : FlatAhb) (sgh : Sgh)
    (deep : DeepAhb) (h : toDeepAhb reader posStr flat sgh = .ok (flat', deep)) :
    deep.ahbMeta.pruefidentifikator = flat.ahbMeta.pruefidentifikator ∧
    deep.ahbMeta.description = flat.ahbMeta.description ∧ deep.ahbMeta.direction = flat.ahbMeta.direction ∧
    deep.ahbMeta.mausVersion = some mausVersion ∧ flat'.lines = flat.lines ∧ flat'.ahbMeta = deep.ahbMeta := by
  obtain ⟨_, _, _, _, h3⟩ := toDeepAhb_ok h
  cases h3
  exact ⟨rfl, rfl, rfl, rfl, rfl, rfl⟩

/-! ## examples -/

/-- a MIG reader that knows every location: the document and message level, one level per inner layer, a level for the
segment (if it is not the opening segment) and the data element -/
def exReader : MigLookup := fun loc => .ok (some ⟨
  [⟨py!"Dokument", true, none⟩, ⟨py!"Nachricht", true, none⟩] ++
  (loc.layers.drop 1).map (fun l => ⟨l.segmentGroupKey.getD [] ++ l.openingQualifier.getD [], true, none⟩) ++
  loc.dataElementId.toList.map (fun d => ⟨d, false, none⟩)⟩)

/-- stands for `str(position)` -/
def exPosStr : AhbLocation → PyStr := fun _ => py!"position"

/-- the example as a flat AHB -/
def exFlat : FlatAhb := ⟨⟨py!"11042", none, none, none⟩, exLines⟩

/-- `to_deep_ahb` succeeds on the example and these are the items in document order, with their indices -/
example : (toDeepAhb exReader exPosStr exFlat exSgh).map (fun r => (documentOrder r.2.lines).map fun
      | .group d _ i => (some 'g', d, i)
      | .segment d _ i _ _ => (some 's', d, i)
      | .dataElement de => (none, de.discriminator, none)) =
    let root := py!"$[\"Dokument\"][0][\"Nachricht\"][0]"
    .ok [(some 'g', some root, some 0), (some 's', some root, some 0), (none, some (root ++ py!"[\"0062\"]"), none),
      (some 'g', some (root ++ py!"[\"SG2MS\"][0]"), some 3), (some 's', some (root ++ py!"[\"SG2MS\"][0]"), some 3),
      (none, some (root ++ py!"[\"SG2MS\"][0][\"3035\"]"), none),
      (some 'g', some (root ++ py!"[\"SG2MR\"][0]"), some 6), (some 's', some (root ++ py!"[\"SG2MR\"][0]"), some 6),
      (none, some (root ++ py!"[\"SG2MR\"][0][\"3035\"]"), none),
      (some 'g', some (root ++ py!"[\"SG424\"][0]"), some 9), (some 's', some (root ++ py!"[\"SG424\"][0]"), some 9),
      (none, some (root ++ py!"[\"SG424\"][0][\"7495\"]"), none),
      (some 's', some root, some 12)] := by decide +kernel

/-- the addresses of the groups of the example: one root with three groups below -/
example : (toDeepAhb exReader exPosStr exFlat exSgh).map (fun r => groupAddresses r.2.lines) =
    .ok [[0], [0, 0], [0, 1], [0, 2]] := by decide +kernel

/-- the openings of the example -/
theorem exOpenings : (determineLocations exSgh exLines).map (fun located => openings exReader [] none (runsOf located)) =
    let root := py!"$[\"Dokument\"][0][\"Nachricht\"][0]"
    let r : AhbLocationLayer := ⟨none, py!"UNH", some py!"MS"⟩
    let ms : AhbLocationLayer := ⟨some py!"SG2", py!"NAD", some py!"MS"⟩
    let mr : AhbLocationLayer := ⟨some py!"SG2", py!"NAD", some py!"MR"⟩
    let sg4 : AhbLocationLayer := ⟨some py!"SG4", py!"IDE", some py!"24"⟩
    .ok [⟨root, [r], none⟩, ⟨root ++ py!"[\"SG2MS\"][0]", [r, ms], some [r]⟩,
      ⟨root ++ py!"[\"SG2MR\"][0]", [r, mr], some [r, ms]⟩,
      ⟨root ++ py!"[\"SG424\"][0]", [r, sg4], some [r, mr]⟩] := by decide +kernel

/-- the hypothesis of C19 holds for the example -/
example : ∃ located, determineLocations exSgh exFlat.lines = .ok located ∧
    OneLayerAtATime (openings exReader [] none (runsOf located)) := by
  have h := exOpenings
  cases hl : determineLocations exSgh exLines with
  | error e => rw [hl] at h; cases h
  | ok located =>
    rw [hl] at h
    simp only [Except.map, Except.ok.injEq] at h
    refine ⟨located, hl, ?_⟩
    rw [h]
    refine ⟨fun o ho => by cases ho; rfl, fun n a b ha hb => ?_⟩
    match n, ha, hb with
    | 0, ha, hb =>
      cases ha; cases hb
      exact ⟨rfl, [⟨none, py!"UNH", some py!"MS"⟩], _, by simp, rfl, by decide, by decide⟩
    | 1, ha, hb =>
      cases ha; cases hb
      exact ⟨rfl, [⟨none, py!"UNH", some py!"MS"⟩], _, by simp, rfl, by decide, by decide⟩
    | 2, ha, hb =>
      cases ha; cases hb
      exact ⟨rfl, [⟨none, py!"UNH", some py!"MS"⟩], _, by simp, rfl, by decide, by decide⟩
    | n + 3, ha, hb => simp at hb

/-- lines for which the group of an intermediate layer (SG4) is not opened, as its segment has no expression -/
def exSkippingLines : List AhbLine :=
  let ln (k c e : Option PyStr) : AhbLine := { segmentGroupKey := k, segmentCode := c, ahbExpression := e }
  [ ln none (some py!"UNH") (some py!"Muss"), ln (some py!"SG4") (some py!"IDE") none,
    ln (some py!"SG8") (some py!"SEQ") (some py!"Muss"), ln (some py!"SG2") (some py!"NAD") (some py!"Muss") ]

/-- **C16 (two roots)** the assumption of `C16_single_root_partial` is needed: after a skipped group too many lists are
left, and the next group becomes a second top level group. -/
theorem C16_two_roots : ∃ reader posStr flat sgh flat' deep, toDeepAhb reader posStr flat sgh = .ok (flat', deep) ∧
    deep.lines.length = 2 := by
  have h : (toDeepAhb exReader exPosStr ⟨⟨py!"11042", none, none, none⟩, exSkippingLines⟩ exSgh).map
      (fun r => groupAddresses r.2.lines) = .ok [[0], [0, 0], [1]] ∧
    (toDeepAhb exReader exPosStr ⟨⟨py!"11042", none, none, none⟩, exSkippingLines⟩ exSgh).map
      (fun r => r.2.lines.length) = .ok 2 := by decide +kernel
  cases hr : toDeepAhb exReader exPosStr ⟨⟨py!"11042", none, none, none⟩, exSkippingLines⟩ exSgh with
  | error e => rw [hr] at h; cases h.1
  | ok r =>
    rw [hr] at h
    refine ⟨exReader, exPosStr, _, exSgh, r.1, r.2, hr, ?_⟩
    simpa [Except.map] using h.2

/-- the indices of the example are strictly increasing -/
example : ∃ idx : List Int, exFlat.lines.map AhbLine.index = idx.map some ∧ idx.Pairwise (· < ·) :=
  ⟨[0, 1, 2, 3, 4, 5, 6, 7, 8, 9, 10, 11, 12], by decide, by decide⟩

/-- **C18 (success)** lines with the same four-digit data element are merged without exception if, for a value pool, each
line with an expression has an acceptable entry, a name and an expression that is not blank, and, for a free text, the
first line has an expression that is not blank. -/
theorem C18_merge_succeeds (first : AhbLine) (rest : List AhbLine) (stack : Option EdifactStack) (d : PyStr)
    (hd : ∀ l ∈ first :: rest, l.dataElement = some d) (h4 : IsFourDigits d)
    (hpool : first.valuePoolEntry ≠ none → ∀ l ∈ first :: rest, ∀ e, l.ahbExpression = some e → e ≠ [] →
      NotBlank e ∧ l.name ≠ none ∧ isEdifactQualifier l.valuePoolEntry = true)
    (hfree : first.valuePoolEntry = none → ∃ e, first.ahbExpression = some e ∧ NotBlank e) :
    ∃ de, mergeLinesWithSameDataElement (first :: rest) stack = .ok de := by
  have hone : (distinctDataElements (first :: rest)).length = 1 := by
    have hall : (first :: rest).map AhbLine.dataElement = List.replicate (rest.length + 1) (some d) := by
      rw [List.eq_replicate_iff]
      refine ⟨by simp, fun x hx => ?_⟩
      obtain ⟨l, hl, rfl⟩ := List.mem_map.1 hx
      exact hd l hl
    unfold distinctDataElements
    rw [hall]
    generalize rest.length = n
    rw [List.replicate_succ, List.eraseDups_cons]
    simp
  have hbase : DataElement.checkBase (stack.map EdifactStack.toJsonPath) (some d) = .ok d := by
    unfold DataElement.checkBase
    have hm : (dataElement4Re.fullMatch d).isNone = false := by
      have := (dataElement4Re_iff d).2 h4
      cases hx : dataElement4Re.fullMatch d <;> simp_all
    have hdisc : ((stack.map EdifactStack.toJsonPath).isSome && !isNotBlank (stack.map EdifactStack.toJsonPath)) = false := by
      cases stack with
      | none => rfl
      | some s =>
        have : NotBlank s.toJsonPath := by
          have hpre : ∀ (ls : List EdifactStackLevel) (acc : PyStr), '$' ∈ acc →
              '$' ∈ ls.foldl (fun result l => result ++ EdifactStack.levelPath l) acc := by
            intro ls
            induction ls with
            | nil => intro acc h; exact h
            | cons l ls ih => intro acc h; exact ih _ (by simp [h])
          exact ⟨'$', hpre s.levels py!"$" (by simp), by decide⟩
        simp [(notBlank_iff _).2 this]
    rw [hdisc]
    simp [hm]
  unfold mergeLinesWithSameDataElement
  rw [if_neg (by simp [hone])]
  simp only [hd first (by simp)]
  by_cases hv : first.valuePoolEntry = none
  · obtain ⟨e, he, hb⟩ := hfree hv
    rw [hv]
    simp only [Option.isSome_none, Bool.false_eq_true, if_false, DataElement.newFreeText, hbase, bind, Except.bind, he,
      (notBlank_iff e).2 hb, Bool.not_true, pure, Except.pure]
    split <;> exact ⟨_, rfl⟩
  · have hes : ∀ ls : List AhbLine, (∀ l ∈ ls, l ∈ first :: rest) → ∃ es, mergeEntries ls = .ok es := by
      intro ls
      induction ls with
      | nil => intro _; exact ⟨[], rfl⟩
      | cons l ls ih =>
        intro hsub
        obtain ⟨es, hes⟩ := ih fun x hx => hsub x (by simp [hx])
        unfold mergeEntries
        cases hx : l.ahbExpression with
        | none => simpa [truthy] using ⟨es, hes⟩
        | some e =>
          by_cases hne : e = []
          · subst hne; simpa [truthy] using ⟨es, hes⟩
          · obtain ⟨h1, h2, h3⟩ := hpool hv l (hsub l (by simp)) e hx hne
            have ht : truthy (some e) = true := by cases e <;> simp_all [truthy]
            simp only [ht, Bool.not_true, Bool.false_eq_true, if_false]
            cases hn : l.name with
            | none => exact absurd hn h2
            | some n =>
              simp [ValuePoolEntry.new, h3, (notBlank_iff e).2 h1, hes, bind, Except.bind, pure, Except.pure]
    obtain ⟨es, hes⟩ := hes (first :: rest) fun _ h => h
    have hs : first.valuePoolEntry.isSome = true := by
      cases h : first.valuePoolEntry with
      | none => exact absurd h hv
      | some _ => rfl
    rw [if_pos hs]
    simp [DataElement.newValuePool, hbase, hes, bind, Except.bind, pure, Except.pure]

/-- C18 on a value pool: the second line has no expression, names are stripped -/
example : (mergeLinesWithSameDataElement
    [{ dataElement := some py!"3035", valuePoolEntry := some py!"MS", name := some py!" Absender ",
       ahbExpression := some py!"X" },
     { dataElement := some py!"3035", valuePoolEntry := some py!"MR", name := some py!"Empf" },
     { dataElement := some py!"3035", valuePoolEntry := some py!"Z01", name := some py!"Test",
       ahbExpression := some py!"X [1]" }] none).map DataElement.kind =
    .ok (.valuePool [⟨py!"MS", py!"Absender", py!"X"⟩, ⟨py!"Z01", py!"Test", py!"X [1]"⟩]) := by decide
example : (mergeLinesWithSameDataElement
    [{ segmentCode := some py!"DTM", dataElement := some py!"2380", ahbExpression := some py!"X" }] none).map
      (fun de => (de.kind, de.valueType)) = .ok (.freeText py!"X", some .datetime) := by decide

end Verif
