import Verif.Spec.Requirements
import Verif.Props.Matching
/-!
# Lemmas for C83 and C84: the requirements of a flat AHB in the deep AHB
-/

namespace Verif

/-- every step of a successful fold succeeds -/
theorem foldlM_steps {α σ : Type} {f : σ → α → PyRes σ} (l : List α) {st st' : σ} (h : l.foldlM f st = .ok st') :
    ∀ x ∈ l, ∃ s s', f s x = .ok s' := by
  induction l generalizing st with
  | nil => simp
  | cons a l ih =>
    rw [List.foldlM_cons] at h
    simp only [bind, Except.bind] at h
    split at h
    · cases h
    · rename_i s hs
      intro x hx
      rcases List.mem_cons.1 hx with rfl | hx
      · exact ⟨st, s, hs⟩
      · exact ih h x hx

/-- in a successful step for lines with a data element and an expression the lines can be merged -/
theorem deepStep_merge {reader : MigLookup} {posStr} {r : Run} {st st' : DeepState}
    (h : deepStep reader posStr st r = .ok st') (hh : r.isHeading = false) (hd : r.hasDataElement = true)
    (hx : r.hasExpression = true) : ∃ de, mergeLinesWithSameDataElement r.lines (r.stack reader) = .ok de := by
  unfold deepStep at h
  have hlines : r.2.map Prod.fst = r.lines := rfl
  simp only [hlines] at h
  have hheading : r.isHeading = !(r.lines.any fun l => l.segmentCode.isSome) := by
    simp [Run.isHeading, List.not_any_eq_all_not]
  rw [← hheading, if_neg (by simp [hh])] at h
  have hne : r.2 ≠ [] := by
    intro hn
    simp [Run.isHeading, Run.lines, hn] at hh
  simp only [bind, Except.bind] at h
  split at h
  · cases h
  · rename_i v hv
    obtain ⟨h1, h2⟩ := lookupStack_ok (pos := v.1) (stk := v.2) hne hv
    rw [h1, h2] at h
    unfold Run.hasDataElement at hd
    rw [if_pos hd] at h
    unfold dataElementStep at h
    unfold Run.hasExpression at hx
    simp only [hx, Bool.not_true, Bool.false_eq_true, if_false, bind, Except.bind] at h
    split at h
    · cases h
    · rename_i de hde
      exact ⟨de, hde⟩

/-- what the created items say is what the runs say, if this holds for every run -/
theorem createdItems_flatMap {β : Type} {reader : MigLookup} {posStr} (f : DocItem → List β) (g : Run → List β)
    (runs : List Run) (used : List PyStr)
    (h : ∀ r ∈ runs, ∀ used, (r.created reader posStr used).flatMap f = g r) :
    (createdItems reader posStr used runs).flatMap f = runs.flatMap g := by
  induction runs generalizing used with
  | nil => rfl
  | cons r runs ih =>
    rw [createdItems, List.flatMap_append, List.flatMap_cons, h r (by simp) used,
      ih _ fun r' hr' => h r' (by simp [hr'])]

/-- a run is a contiguous part of the lines; all its lines have the same data element and are followed by the same segment -/
theorem run_slice {sgh : Sgh} {lines : List AhbLine} {located} (h : determineLocations sgh lines = .ok located) (r : Run)
    (hr : r ∈ runsOf located) : ∃ pre post, lines = pre ++ r.lines ++ post ∧ r.lines ≠ [] ∧
      (∀ l ∈ r.lines, l.dataElement = r.1.dataElementId) ∧
      ∀ i < r.lines.length, nextSegmentAt lines (pre.length + i) = r.1.segmentCode := by
  obtain ⟨hflat, hkeys, _⟩ := C15_runs located
  obtain ⟨hfst, hloc⟩ := C09_locations_describe_lines sgh lines located h
  obtain ⟨as, bs, hab⟩ := List.append_of_mem hr
  obtain ⟨hne, hk⟩ := hkeys r hr
  rw [hab, List.flatMap_append, List.flatMap_cons] at hflat
  have hlines : lines = (as.flatMap Prod.snd).map Prod.fst ++ r.lines ++ (bs.flatMap Prod.snd).map Prod.fst := by
    rw [← hfst, ← hflat]
    simp [Run.lines, List.map_append]
  have hat : ∀ (i : Nat) (x : AhbLine × AhbLocation), r.2[i]? = some x →
      located[((as.flatMap Prod.snd).map Prod.fst).length + i]? = some x := by
    intro i x hx
    rw [← hflat, List.length_map, List.getElem?_append_right (by omega), Nat.add_sub_cancel_left,
      List.getElem?_append_left (List.getElem?_eq_some_iff.1 hx).1]
    exact hx
  refine ⟨_, _, hlines, by simpa [Run.lines] using hne, ?_, ?_⟩
  · intro l hl
    obtain ⟨x, hx, rfl⟩ := List.mem_map.1 hl
    obtain ⟨i, hi⟩ := List.mem_iff_getElem?.1 hx
    obtain ⟨h1, _, _⟩ := hloc _ x.1 x.2 (hat i x hi)
    rw [← h1]
    exact (hk x hx).2.2.1
  · intro i hi
    have hi' : i < r.2.length := by simpa [Run.lines] using hi
    have hx : r.2[i]? = some r.2[i] := List.getElem?_eq_getElem hi'
    obtain ⟨_, _, h3⟩ := hloc _ r.2[i].1 r.2[i].2 (hat i _ hx)
    rw [← h3]
    exact (hk _ (List.mem_of_getElem? hx)).2.1

/-- the lines of all runs are the lines -/
theorem runs_lines {sgh : Sgh} {lines : List AhbLine} {located} (h : determineLocations sgh lines = .ok located) :
    (runsOf located).flatMap Run.lines = lines := by
  obtain ⟨hflat, _⟩ := C15_runs located
  obtain ⟨hfst, _⟩ := C09_locations_describe_lines sgh lines located h
  rw [← hfst]
  conv_rhs => rw [← hflat]
  rw [List.map_flatMap]
  rfl

theorem filterMap_flatMap_lines {β : Type} (f : AhbLine → Option β) (runs : List Run) :
    runs.flatMap (fun r => r.lines.filterMap f) = (runs.flatMap Run.lines).filterMap f := by
  induction runs with
  | nil => rfl
  | cons r runs ih => simp [List.flatMap_cons, List.filterMap_append, ih]

/-- a merged value pool states the requirements of its lines -/
theorem merge_pool_requirements {ls : List AhbLine} {stk de} (hmer : mergeLinesWithSameDataElement ls stk = .ok de)
    {first rest} (hfr : ls = first :: rest) (hv : first.valuePoolEntry ≠ none) :
    (DocItem.dataElement de).fieldRequirements = ls.filterMap AhbLine.fieldRequirement? := by
  obtain ⟨first', rest', hfr', hid, _, _, hpool, _⟩ := C18_merge_result _ _ _ hmer
  have h0 : first' = first := by rw [hfr] at hfr'; cases hfr'; rfl
  subst h0
  simp only [DocItem.fieldRequirements]
  obtain ⟨_, es, hk, hes⟩ := hpool hv
  rw [hk]
  clear hfr hmer hk hfr' hpool
  dsimp only
  induction ls generalizing es with
  | nil =>
    simp only [List.filter_nil, List.map_nil, List.map_eq_nil_iff] at hes
    rw [hes]; rfl
  | cons l ls ih =>
    have hld := hid l (by simp)
    by_cases ht : l.ahbExpression ≠ none ∧ l.ahbExpression ≠ some []
    · rw [List.filter_cons_of_pos (by simpa using ht), List.map_cons] at hes
      cases es with
      | nil => cases hes
      | cons x es =>
        rw [List.map_cons, List.cons.injEq] at hes
        obtain ⟨hx', hes'⟩ := hes
        rw [Prod.mk.injEq, Prod.mk.injEq] at hx'
        obtain ⟨q1, q2, q3⟩ := hx'
        have hxe : x.ahbExpression ≠ [] := by
          intro h0
          rw [h0] at q3
          exact ht.2 q3.symm
        have hname : strip (l.name.getD []) = x.meaning := by
          cases hn : l.name with
          | none => rw [hn] at q2; cases q2
          | some n => rw [hn] at q2; simpa [trim_eq] using q2.symm
        have hreq : l.fieldRequirement? = some ⟨de.dataElementId, some (x.qualifier, x.meaning), x.ahbExpression⟩ := by
          simp [AhbLine.fieldRequirement?, hld, ← q3, hxe, ← q1, trim_eq, hname]
        rw [List.filterMap_cons_some hreq, List.map_cons,
          ih (fun l' h' => hid l' (by simp [h'])) es hes']
    · rw [List.filter_cons_of_neg (by simpa using ht)] at hes
      have hreq : l.fieldRequirement? = none := by
        simp only [AhbLine.fieldRequirement?, hld]
        cases he : l.ahbExpression with
        | none => rfl
        | some e =>
          by_cases h0 : e = []
          · simp [h0]
          · exact absurd ⟨by simp [he], by simp [he, h0]⟩ ht
      rw [List.filterMap_cons_none hreq]
      exact ih (fun l' h' => hid l' (by simp [h'])) es hes

/-- a free text states the requirement of its first line -/
theorem merge_free_requirements {ls : List AhbLine} {stk de} (hmer : mergeLinesWithSameDataElement ls stk = .ok de)
    {first rest} (hfr : ls = first :: rest) (hv : first.valuePoolEntry = none) :
    first.fieldRequirement?.toList = (DocItem.dataElement de).fieldRequirements ∧ first.fieldRequirement? ≠ none := by
  obtain ⟨first', rest', hfr', hid, _, _, _, hfree⟩ := C18_merge_result _ _ _ hmer
  have h0 : first' = first := by rw [hfr] at hfr'; cases hfr'; rfl
  subst h0
  obtain ⟨e, he, hk, _⟩ := hfree hv
  have hb : NotBlank e := by
    obtain ⟨_, f', r', d', hf', _, _, _, _, _, _, h2⟩ := merge_ok hmer
    have : f' = first' := by rw [hfr] at hf'; cases hf'; rfl
    subst this
    obtain ⟨_, e', _, he', hb⟩ := h2 hv
    rw [he] at he'
    cases he'
    exact hb
  have hen : e ≠ [] := by
    rintro rfl
    obtain ⟨c, hc, _⟩ := hb
    cases hc
  have hfd := hid first' (by rw [hfr]; simp)
  constructor
  · simp only [DocItem.fieldRequirements, hk]
    simp [AhbLine.fieldRequirement?, hfd, he, hv, hen]
  · simp [AhbLine.fieldRequirement?, hfd, he, hen]

/-- a run without data element states nothing on data elements -/
theorem run_without_fields {reader : MigLookup} {posStr} (r : Run) (hde : ∀ l ∈ r.lines, l.dataElement = none)
    (used : List PyStr) :
    (r.created reader posStr used).flatMap DocItem.fieldRequirements = [] ∧
      r.lines.filterMap AhbLine.fieldRequirement? = [] := by
  constructor
  · have hhd : r.hasDataElement = false := by
      simp only [Run.hasDataElement, List.any_eq_false]
      intro l h
      rw [hde l h]
      simp
    unfold Run.created
    split
    · rfl
    · rw [hhd, if_neg (by simp)]
      rw [List.flatMap_append, List.append_eq_nil_iff]
      constructor
      · unfold Run.openedGroup
        split <;> rfl
      · unfold Run.createdSegment
        split <;> rfl
  · rw [List.filterMap_eq_nil_iff]
    intro l h
    simp [AhbLine.fieldRequirement?, hde l h]

/-- the requirements on data elements of one run are among those of its lines; they are all of them unless the run is a
heading or the lines describe a free text -/
theorem run_fieldRequirements {reader : MigLookup} {posStr} {sgh : Sgh} {lines : List AhbLine} {located}
    (hl : determineLocations sgh lines = .ok located) (r : Run) (hr : r ∈ runsOf located)
    (hm : r.isHeading = false → r.hasDataElement = true → r.hasExpression = true →
      ∃ de, mergeLinesWithSameDataElement r.lines (r.stack reader) = .ok de) (used : List PyStr) :
    ((r.created reader posStr used).flatMap DocItem.fieldRequirements).Sublist
      (r.lines.filterMap AhbLine.fieldRequirement?) ∧
    ((∀ l ∈ lines, l.dataElement ≠ none → l.segmentCode ≠ none) → FreeTextsHaveOneLine lines →
      (r.created reader posStr used).flatMap DocItem.fieldRequirements = r.lines.filterMap AhbLine.fieldRequirement?) := by
  obtain ⟨pre, post, hs, hne, hde, _⟩ := run_slice hl r hr
  have hmem : ∀ l ∈ r.lines, l ∈ lines := fun l h => by rw [hs]; simp [h]
  by_cases hd : r.1.dataElementId = none
  · obtain ⟨h1, h2⟩ := run_without_fields (reader := reader) (posStr := posStr) r (fun l h => by rw [hde l h, hd]) used
    rw [h1, h2]
    exact ⟨List.Sublist.refl _, fun _ _ => rfl⟩
  · obtain ⟨d, hd'⟩ := Option.ne_none_iff_exists'.1 hd
    have hdl : ∀ l ∈ r.lines, l.dataElement = some d := fun l h => by rw [hde l h, hd']
    have hhd : r.hasDataElement = true := by
      obtain ⟨l, h⟩ := List.exists_mem_of_ne_nil _ hne
      rw [Run.hasDataElement, List.any_eq_true]
      exact ⟨l, h, by rw [hdl l h]; rfl⟩
    unfold Run.created
    by_cases hh : r.isHeading = true
    · rw [if_pos hh]
      refine ⟨List.nil_sublist _, fun hcode _ => ?_⟩
      exfalso
      obtain ⟨l, h⟩ := List.exists_mem_of_ne_nil _ hne
      have h1 := hcode l (hmem l h) (by rw [hdl l h]; simp)
      rw [Run.isHeading, List.all_eq_true] at hh
      exact h1 (Option.isNone_iff_eq_none.1 (hh l h))
    · rw [if_neg hh, hhd, if_pos rfl]
      unfold Run.createdDataElement
      by_cases hx : r.hasExpression = true
      · rw [if_pos hx]
        obtain ⟨de, hmer⟩ := hm (by simpa using hh) hhd hx
        rw [hmer]
        obtain ⟨first, rest, hfr, _⟩ := C18_merge_result _ _ _ hmer
        simp only [Option.toList_some, List.flatMap_cons, List.flatMap_nil, List.append_nil]
        by_cases hv : first.valuePoolEntry = none
        · obtain ⟨h1, h2⟩ := merge_free_requirements hmer hfr hv
          obtain ⟨x, hx'⟩ := Option.ne_none_iff_exists'.1 h2
          rw [← h1, hfr, List.filterMap_cons_some hx', hx']
          refine ⟨by simp, fun _ hone => ?_⟩
          have hrest : rest = [] := by
            cases rest with
            | nil => rfl
            | cons b rest =>
              exfalso
              refine hone pre.length first b ?_ ?_ ?_ ?_ hv
              · rw [hs, hfr, List.append_assoc, List.getElem?_append_right (by omega)]; simp
              · rw [hs, hfr, List.append_assoc, List.getElem?_append_right (by omega)]; simp
              · rw [hdl first (by rw [hfr]; simp)]; simp
              · rw [hdl first (by rw [hfr]; simp), hdl b (by rw [hfr]; simp)]
          rw [hrest]
          rfl
        · rw [merge_pool_requirements hmer hfr hv]
          exact ⟨List.Sublist.refl _, fun _ _ => rfl⟩
      · rw [if_neg hx]
        refine ⟨List.nil_sublist _, fun _ _ => ?_⟩
        symm
        simp only [Option.toList_none, List.flatMap_nil]
        rw [List.filterMap_eq_nil_iff]
        intro l h
        have : l.ahbExpression = none := by
          simp only [Run.hasExpression, List.any_eq_true, not_exists, not_and, Bool.not_eq_true,
            Option.isSome_eq_false_iff, Option.isNone_iff_eq_none] at hx
          exact hx l h
        simp [AhbLine.fieldRequirement?, this, hdl l h]

theorem flatMap_sublist {α β : Type} {f g : α → List β} (l : List α) (h : ∀ x ∈ l, (f x).Sublist (g x)) :
    (l.flatMap f).Sublist (l.flatMap g) := by
  induction l with
  | nil => simp
  | cons a l ih =>
    rw [List.flatMap_cons, List.flatMap_cons]
    exact List.Sublist.append (h a (by simp)) (ih fun x hx => h x (by simp [hx]))

/-- what the created items say is among what the runs say, if this holds for every run -/
theorem createdItems_sublist {β : Type} {reader : MigLookup} {posStr} (f : DocItem → List β) (g : Run → List β)
    (runs : List Run) (used : List PyStr)
    (h : ∀ r ∈ runs, ∀ used, ((r.created reader posStr used).flatMap f).Sublist (g r)) :
    ((createdItems reader posStr used runs).flatMap f).Sublist (runs.flatMap g) := by
  induction runs generalizing used with
  | nil => simp [createdItems]
  | cons r runs ih =>
    rw [createdItems, List.flatMap_append, List.flatMap_cons]
    exact List.Sublist.append (h r (by simp) used) (ih _ fun r' hr' => h r' (by simp [hr']))

/-- the lines of a segment, from line `m` on: the first expression is the one of the first line with a segment code, and
only this line states a requirement -/
theorem segment_slice {lines : List AhbLine} (hone : SegmentsHaveOneLine lines) (hagree : HeadingsAgree lines)
    (sc : Option PyStr) (t : List AhbLine) (m : Nat) (rest : List AhbLine) (hdrop : lines.drop m = t ++ rest)
    (hex : ∃ l ∈ t, l.segmentCode ≠ none) (hde : ∀ l ∈ t, l.dataElement = none)
    (hseg : ∀ i < t.length, nextSegmentAt lines (m + i) = sc) :
    ∃ s, (lines.drop m).find? (fun l => l.segmentCode.isSome) = some s ∧
      t.findSome? (fun l => l.ahbExpression.filter fun e => e ≠ []) = s.ahbExpression.filter (fun e => e ≠ []) ∧
      t.filterMap AhbLine.segmentRequirement? = (s.ahbExpression.filter fun e => e ≠ []).toList := by
  induction t generalizing m with
  | nil => obtain ⟨_, h, _⟩ := hex; cases h
  | cons x t ih =>
    have hx : lines[m]? = some x := by
      have := congrArg List.head? hdrop
      simpa [List.head?_drop] using this
    have hnext : lines.drop (m + 1) = t ++ rest := by
      have := congrArg List.tail hdrop
      simpa [List.tail_drop] using this
    have hxd := hde x (by simp)
    by_cases hc : x.segmentCode = none
    · have hex' : ∃ l ∈ t, l.segmentCode ≠ none := by
        obtain ⟨l, hl, hls⟩ := hex
        rcases List.mem_cons.1 hl with rfl | hl
        · exact absurd hc hls
        · exact ⟨l, hl, hls⟩
      obtain ⟨s, h1, h2, h3⟩ := ih (m + 1) hnext hex' (fun l hl => hde l (by simp [hl])) fun i hi => by
        rw [Nat.add_assoc, Nat.add_comm 1 i]
        exact hseg (i + 1) (by simpa using hi)
      have hfind : (lines.drop m).find? (fun l => l.segmentCode.isSome) = some s := by
        rw [hdrop, List.cons_append, List.find?_cons_of_neg (by simp [hc]), ← hnext, h1]
      refine ⟨s, hfind, ?_, ?_⟩
      · rw [List.findSome?_cons, h2]
        cases he : x.ahbExpression with
        | none => rfl
        | some e =>
          by_cases h0 : e = []
          · subst h0; rfl
          · obtain ⟨s', hs', hse⟩ := hagree m x hx hc hxd (by rw [he]; exact Option.some_ne_none e)
              (by rw [he]; exact fun h => h0 (Option.some.inj h))
            rw [hfind] at hs'
            cases hs'
            rw [hse, he]
            have hf : (some e).filter (fun e => decide (e ≠ [])) = some e := by simp [Option.filter, h0]
            rw [hf]
      · rw [List.filterMap_cons_none (by simp [AhbLine.segmentRequirement?, hc]), h3]
    · have ht : t = [] := by
        cases t with
        | nil => rfl
        | cons y t =>
          exfalso
          have hy : lines[m + 1]? = some y := by
            have := congrArg List.head? hnext
            simpa [List.head?_drop] using this
          refine hone m x y hx hy hc hxd (hde y (by simp)) ?_
          rw [hseg 1 (by simp), ← hseg 0 (by simp), Nat.add_zero]
          obtain ⟨c, hc'⟩ := Option.ne_none_iff_exists'.1 hc
          rw [nextSegmentAt, hdrop, List.cons_append, List.findSome?_cons, hc']
      subst ht
      refine ⟨x, ?_, ?_, ?_⟩
      · rw [hdrop, List.cons_append, List.find?_cons_of_pos]
        cases hx' : x.segmentCode with
        | none => exact absurd hx' hc
        | some c => rfl
      · rw [List.findSome?_cons]
        cases x.ahbExpression.filter (fun e => e ≠ []) <;> rfl
      · have : x.segmentRequirement? = x.ahbExpression.filter fun e => e ≠ [] := by
          simp [AhbLine.segmentRequirement?, hc, hxd]
        rw [List.filterMap_cons, this]
        cases x.ahbExpression.filter (fun e => e ≠ []) <;> rfl

/-- the requirements on segments of one run -/
theorem run_segmentRequirements {reader : MigLookup} {posStr} {sgh : Sgh} {lines : List AhbLine} {located}
    (hl : determineLocations sgh lines = .ok located) (r : Run) (hr : r ∈ runsOf located)
    (hone : SegmentsHaveOneLine lines) (hagree : HeadingsAgree lines) (used : List PyStr) :
    (r.created reader posStr used).flatMap (fun x => x.segmentRequirement?.toList) =
      r.lines.filterMap AhbLine.segmentRequirement? := by
  obtain ⟨pre, post, hs, hne, hde, hseg⟩ := run_slice hl r hr
  unfold Run.created
  by_cases hh : r.isHeading = true
  · rw [if_pos hh]
    symm
    rw [List.flatMap_nil, List.filterMap_eq_nil_iff]
    intro l h
    rw [Run.isHeading, List.all_eq_true] at hh
    have := hh l h
    rw [Option.isNone_iff_eq_none] at this
    simp [AhbLine.segmentRequirement?, this]
  · rw [if_neg hh]
    by_cases hd : r.1.dataElementId = none
    · have hde' : ∀ l ∈ r.lines, l.dataElement = none := fun l h => by rw [hde l h, hd]
      have hhd : r.hasDataElement = false := by
        simp only [Run.hasDataElement, List.any_eq_false]
        intro l h
        rw [hde' l h]
        simp
      rw [hhd, if_neg (by simp)]
      have hex : ∃ l ∈ r.lines, l.segmentCode ≠ none := by
        simp only [Run.isHeading, Bool.not_eq_true, List.all_eq_false] at hh
        obtain ⟨l, h1, h2⟩ := hh
        exact ⟨l, h1, Option.isSome_iff_ne_none.1 (by simpa using h2)⟩
      obtain ⟨s, _, h2, h3⟩ := segment_slice hone hagree r.1.segmentCode r.lines pre.length post
        (by rw [hs, List.append_assoc, List.drop_left]) hex hde' hseg
      rw [h3, ← h2, List.flatMap_append]
      have hg : (r.openedGroup reader used).toList.flatMap (fun x => x.segmentRequirement?.toList) = [] := by
        unfold Run.openedGroup
        split <;> rfl
      rw [hg, List.nil_append]
      unfold Run.createdSegment
      have hfe : r.firstExpression = r.lines.findSome? (fun l => l.ahbExpression.filter fun e => e ≠ []) := rfl
      rw [← hfe]
      cases hf : r.firstExpression with
      | none => rfl
      | some e =>
        cases hl' : r.lines with
        | nil => exact absurd hl' hne
        | cons x xs => rfl
    · have hhd : r.hasDataElement = true := by
        obtain ⟨l, h⟩ := List.exists_mem_of_ne_nil _ hne
        rw [Run.hasDataElement, List.any_eq_true]
        refine ⟨l, h, ?_⟩
        rw [hde l h]
        cases h0 : r.1.dataElementId with
        | none => exact absurd h0 hd
        | some d => rfl
      rw [hhd, if_pos rfl]
      have h1 : r.lines.filterMap AhbLine.segmentRequirement? = [] := by
        rw [List.filterMap_eq_nil_iff]
        intro l h
        simp [AhbLine.segmentRequirement?, hde l h, hd]
      rw [h1]
      unfold Run.createdDataElement
      split
      · split <;> rfl
      · rfl

/-- the runs are the longest parts of lines at the same place -/
theorem runs_placeParts (located : List (AhbLine × AhbLocation)) : PlaceParts located ((runsOf located).map Prod.snd) := by
  obtain ⟨h1, h2, h3⟩ := C15_runs located
  refine ⟨by rw [← List.flatMap_def]; exact h1, fun p hp => ?_, fun n a b ha hb x hx y hy hs => ?_⟩
  · obtain ⟨r, hr, rfl⟩ := List.mem_map.1 hp
    obtain ⟨h4, h5⟩ := h2 r hr
    refine ⟨h4, fun x hx y hy => ?_⟩
    obtain ⟨x1, x2, x3, _⟩ := h5 x hx
    obtain ⟨y1, y2, y3, _⟩ := h5 y hy
    exact ⟨x1.trans y1.symm, x2.trans y2.symm, x3.trans y3.symm⟩
  · rw [List.getElem?_map] at ha hb
    obtain ⟨ra, hra, rfl⟩ := Option.map_eq_some_iff.1 ha
    obtain ⟨rb, hrb, rfl⟩ := Option.map_eq_some_iff.1 hb
    have hkx := (groupBy_keys _ _ ra (List.mem_of_getElem? hra)).2 x hx
    have hky := (groupBy_keys _ _ rb (List.mem_of_getElem? hrb)).2 y hy
    apply h3 n ra rb hra hrb
    obtain ⟨s1, s2, s3⟩ := hs
    rw [← hkx, ← hky]
    simp only [removeQualifier, s1, s2, s3]

theorem isHeading_eq (r : Run) : r.isHeading = r.lines.all fun l => decide (l.segmentCode = none) := by
  unfold Run.isHeading
  congr 1
  funext l
  cases l.segmentCode <;> rfl

/-- the requirements on data elements of one run, exactly -/
theorem run_keptFields {reader : MigLookup} {posStr} {sgh : Sgh} {lines : List AhbLine} {located}
    (hl : determineLocations sgh lines = .ok located) (r : Run) (hr : r ∈ runsOf located)
    (hm : r.isHeading = false → r.hasDataElement = true → r.hasExpression = true →
      ∃ de, mergeLinesWithSameDataElement r.lines (r.stack reader) = .ok de) (used : List PyStr) :
    (r.created reader posStr used).flatMap DocItem.fieldRequirements = keptFieldRequirements r.lines := by
  obtain ⟨pre, post, hs, hne, hde, _⟩ := run_slice hl r hr
  unfold keptFieldRequirements
  by_cases hd : r.1.dataElementId = none
  · have hnone : ∀ l ∈ r.lines, l.dataElement = none := fun l h => by rw [hde l h, hd]
    obtain ⟨h1, h2⟩ := run_without_fields (reader := reader) (posStr := posStr) r hnone used
    rw [h1]
    symm
    split
    · rfl
    · cases hfr : r.lines with
      | nil => rfl
      | cons first rest =>
        have : first.fieldRequirement? = none := by
          simp [AhbLine.fieldRequirement?, hnone first (by rw [hfr]; simp)]
        simp only [this]
        rw [hfr] at h2
        split
        · rfl
        · exact h2
  · obtain ⟨d, hd'⟩ := Option.ne_none_iff_exists'.1 hd
    have hdl : ∀ l ∈ r.lines, l.dataElement = some d := fun l h => by rw [hde l h, hd']
    have hhd : r.hasDataElement = true := by
      obtain ⟨l, h⟩ := List.exists_mem_of_ne_nil _ hne
      rw [Run.hasDataElement, List.any_eq_true]
      exact ⟨l, h, by rw [hdl l h]; rfl⟩
    unfold Run.created
    rw [isHeading_eq]
    by_cases hh : (r.lines.all fun l => decide (l.segmentCode = none)) = true
    · rw [if_pos hh, if_pos hh]; rfl
    · rw [if_neg hh, if_neg hh, hhd, if_pos rfl]
      unfold Run.createdDataElement
      by_cases hx : r.hasExpression = true
      · rw [if_pos hx]
        obtain ⟨de, hmer⟩ := hm (by rw [isHeading_eq]; simpa using hh) hhd hx
        rw [hmer]
        obtain ⟨first, rest, hfr, _⟩ := C18_merge_result _ _ _ hmer
        simp only [Option.toList_some, List.flatMap_cons, List.flatMap_nil, List.append_nil]
        rw [hfr]
        simp only
        by_cases hv : first.valuePoolEntry = none
        · rw [if_pos hv]
          exact (merge_free_requirements hmer hfr hv).1.symm
        · rw [if_neg hv, merge_pool_requirements hmer hfr hv, hfr]
      · rw [if_neg hx]
        have hnoexp : ∀ l ∈ r.lines, l.fieldRequirement? = none := by
          intro l h
          have : l.ahbExpression = none := by
            simp only [Run.hasExpression, List.any_eq_true, not_exists, not_and, Bool.not_eq_true,
              Option.isSome_eq_false_iff, Option.isNone_iff_eq_none] at hx
            exact hx l h
          simp [AhbLine.fieldRequirement?, this, hdl l h]
        symm
        cases hfr : r.lines with
        | nil => rfl
        | cons first rest =>
          simp only [hnoexp first (by rw [hfr]; simp)]
          rw [hfr] at hnoexp
          split
          · rfl
          · exact List.filterMap_eq_nil_iff.2 hnoexp

/-- the requirement on the segment of one run, exactly -/
theorem run_keptSegment {reader : MigLookup} {posStr} {sgh : Sgh} {lines : List AhbLine} {located}
    (hl : determineLocations sgh lines = .ok located) (r : Run) (hr : r ∈ runsOf located) (used : List PyStr) :
    (r.created reader posStr used).flatMap (fun x => x.segmentRequirement?.toList) = (keptSegmentRequirement r.lines).toList := by
  obtain ⟨pre, post, hs, hne, hde, hseg⟩ := run_slice hl r hr
  have hhd : r.hasDataElement = r.lines.any fun l => decide (l.dataElement ≠ none) := by
    unfold Run.hasDataElement
    congr 1
    funext l
    cases l.dataElement <;> rfl
  unfold keptSegmentRequirement Run.created
  rw [isHeading_eq, hhd]
  by_cases hh : (r.lines.all fun l => decide (l.segmentCode = none)) = true
  · rw [if_pos hh, hh]; rfl
  · rw [if_neg hh, Bool.eq_false_iff.2 hh, Bool.false_or]
    by_cases hx : (r.lines.any fun l => decide (l.dataElement ≠ none)) = true
    · rw [if_pos hx, if_pos hx]
      unfold Run.createdDataElement
      split
      · split <;> rfl
      · rfl
    · rw [if_neg hx, if_neg hx, List.flatMap_append]
      have hg : (r.openedGroup reader used).toList.flatMap (fun x => x.segmentRequirement?.toList) = [] := by
        unfold Run.openedGroup
        split <;> rfl
      rw [hg, List.nil_append]
      unfold Run.createdSegment
      have hfe : r.firstExpression = r.lines.findSome? (fun l => l.ahbExpression.filter fun e => e ≠ []) := rfl
      rw [← hfe]
      cases hf : r.firstExpression with
      | none => rfl
      | some e =>
        cases hl' : r.lines with
        | nil => exact absurd hl' hne
        | cons x xs => rfl

end Verif
