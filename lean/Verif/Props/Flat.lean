import Verif.Proofs.FlatSort
import Verif.Proofs.Discriminator
import Verif.Proofs.Matching
/-!
# Properties C22–C26: flat AHBs
-/

namespace Verif

/-- **C23** the segment groups of the lines: each group key of a line, nothing else, each once, in the order of the
first occurrence. -/
theorem C23_get_segment_groups (f : FlatAhb) :
    (∀ k, k ∈ f.getSegmentGroups ↔ ∃ l ∈ f.lines, l.segmentGroupKey = k) ∧
    f.getSegmentGroups.Nodup ∧
    f.getSegmentGroups.Pairwise (fun a b => (f.lines.map AhbLine.segmentGroupKey).idxOf a <
      (f.lines.map AhbLine.segmentGroupKey).idxOf b) := by
  obtain ⟨h1, h2, _⟩ := available_spec f.lines [] List.nodup_nil
  refine ⟨fun k => ?_, h1, ?_⟩
  · unfold FlatAhb.getSegmentGroups; rw [h2]; simp
  · have := available_order [] f.lines [] (by simp) List.Pairwise.nil
    simp only [List.nil_append] at this
    exact this

/-- lines of two interleaved groups between two lines without group -/
def exInterleaved : List AhbLine :=
  [{ segmentCode := some py!"UNH" }, { segmentGroupKey := some py!"SG4", dataElement := some py!"7495" },
   { segmentGroupKey := some py!"SG2", segmentCode := some py!"NAD" },
   { segmentGroupKey := some py!"SG4", dataElement := some py!"C0001" }, { segmentCode := some py!"UNT" }]

def exInterleavedFlat : FlatAhb := { ahbMeta := { pruefidentifikator := py!"11042" }, lines := exInterleaved }

example : exInterleavedFlat.getSegmentGroups = [none, some py!"SG4", some py!"SG2"] := by decide

/-- sorting lines that are well formed -/
theorem sort_of_wellFormed (f : FlatAhb) (hwf : ∀ l ∈ f.lines, l.WellFormed) :
    ∃ g, f.sortLinesBySegmentGroups = .ok g ∧ FlatAhb.new g.ahbMeta g.lines = .ok g ∧ g.ahbMeta = f.ahbMeta ∧
      g.lines.Perm f.lines ∧
      (∀ k, g.lines.filter (fun l => decide (l.segmentGroupKey = k)) =
        f.lines.filter (fun l => decide (l.segmentGroupKey = k))) ∧
      Contiguous AhbLine.segmentGroupKey g.lines ∧
      g.lines.Pairwise (fun a b => (f.lines.map AhbLine.segmentGroupKey).idxOf a.segmentGroupKey ≤
        (f.lines.map AhbLine.segmentGroupKey).idxOf b.segmentGroupKey) ∧
      g.sortLinesBySegmentGroups = .ok g := by
  obtain ⟨hmem, hnd, hord⟩ := C23_get_segment_groups f
  have hmem' : ∀ l ∈ f.lines, l.segmentGroupKey ∈ f.getSegmentGroups := fun l hl => (hmem _).2 ⟨l, hl, rfl⟩
  have hperm := perm_blocks f.lines f.getSegmentGroups hnd hmem'
  have hfil : ∀ k, (f.getSegmentGroups.flatMap fun k => f.lines.filter fun l => decide (l.segmentGroupKey = k)).filter
      (fun l => decide (l.segmentGroupKey = k)) = f.lines.filter fun l => decide (l.segmentGroupKey = k) := by
    intro k
    refine filter_blocks _ _ hnd k ?_
    by_cases hk : k ∈ f.getSegmentGroups
    · exact .inl hk
    · exact .inr fun l hl h => hk ((hmem k).2 ⟨l, hl, h⟩)
  have hcheck : FlatAhb.checkLines
      (f.getSegmentGroups.flatMap fun k => f.lines.filter fun l => decide (l.segmentGroupKey = k)) = .ok () :=
    (checkLines_iff _).2 ⟨fun l hl => hwf l (hperm.mem_iff.1 hl), check_blocks _ _ hnd⟩
  have hpw : (f.getSegmentGroups.flatMap fun k => f.lines.filter fun l => decide (l.segmentGroupKey = k)).Pairwise
      (fun a b => (f.lines.map AhbLine.segmentGroupKey).idxOf a.segmentGroupKey ≤
        (f.lines.map AhbLine.segmentGroupKey).idxOf b.segmentGroupKey) :=
    pairwise_blocks f.lines f.getSegmentGroups
      (fun a b => (f.lines.map AhbLine.segmentGroupKey).idxOf a ≤ (f.lines.map AhbLine.segmentGroupKey).idxOf b)
      (hord.imp fun h => Nat.le_of_lt h) (fun _ => Nat.le_refl _)
  have hs : f.sortLinesBySegmentGroups = .ok { ahbMeta := f.ahbMeta, lines := (f.getSegmentGroups.flatMap fun k =>
      f.lines.filter fun l => decide (l.segmentGroupKey = k)) } := by
    unfold FlatAhb.sortLinesBySegmentGroups
    rw [sortedLines_eq _ _ hnd hmem']
    simp only [bind, Except.bind, hcheck]
    rfl
  refine ⟨_, hs, by unfold FlatAhb.new; rw [hcheck]; rfl, rfl, hperm, hfil, ?_, hpw, ?_⟩
  · refine contiguous_of_pairwise _ (f.lines.map AhbLine.segmentGroupKey) _ ?_ hpw
    intro l hl
    exact List.mem_map.2 ⟨l, hperm.mem_iff.1 hl, rfl⟩
  · have hg : FlatAhb.getSegmentGroups { ahbMeta := f.ahbMeta, lines := (f.getSegmentGroups.flatMap fun k =>
        f.lines.filter fun l => decide (l.segmentGroupKey = k)) } = f.getSegmentGroups := by
      have := available_blocks f.lines f.getSegmentGroups [] (by simpa using hnd)
        (fun k hk => by obtain ⟨l, hl, h⟩ := (hmem k).1 hk; exact List.mem_map.2 ⟨l, hl, h⟩)
      exact this
    unfold FlatAhb.sortLinesBySegmentGroups
    rw [hg, sortedLines_eq _ _ hnd (fun l hl => hmem' l (hperm.mem_iff.1 hl))]
    have : (f.getSegmentGroups.flatMap fun k => (f.getSegmentGroups.flatMap fun k =>
        f.lines.filter fun l => decide (l.segmentGroupKey = k)).filter fun l => decide (l.segmentGroupKey = k)) =
        f.getSegmentGroups.flatMap fun k => f.lines.filter fun l => decide (l.segmentGroupKey = k) :=
      List.flatMap_congr fun k _ => hfil k
    rw [this]
    simp only [bind, Except.bind, hcheck]
    rfl

/-- **C22** sorting a valid flat AHB succeeds (the result passes the validators again), keeps the metadata, returns a
permutation of the lines in which the lines of every segment group keep their order, stand next to each other, and the
groups follow each other in the order of their first occurrence. Sorting the result again returns the same. -/
theorem C22_sort (f : FlatAhb) (hvalid : FlatAhb.new f.ahbMeta f.lines = .ok f) :
    ∃ g, f.sortLinesBySegmentGroups = .ok g ∧ FlatAhb.new g.ahbMeta g.lines = .ok g ∧ g.ahbMeta = f.ahbMeta ∧
      g.lines.Perm f.lines ∧
      (∀ k, g.lines.filter (fun l => decide (l.segmentGroupKey = k)) =
        f.lines.filter (fun l => decide (l.segmentGroupKey = k))) ∧
      Contiguous AhbLine.segmentGroupKey g.lines ∧
      g.lines.Pairwise (fun a b => (f.lines.map AhbLine.segmentGroupKey).idxOf a.segmentGroupKey ≤
        (f.lines.map AhbLine.segmentGroupKey).idxOf b.segmentGroupKey) ∧
      g.sortLinesBySegmentGroups = .ok g := by
  refine sort_of_wellFormed f ?_
  unfold FlatAhb.new at hvalid
  cases hc : FlatAhb.checkLines f.lines with
  | ok u => exact ((checkLines_iff _).1 hc).1
  | error e => rw [hc] at hvalid; cases hvalid

example : FlatAhb.new exInterleavedFlat.ahbMeta exInterleavedFlat.lines = .ok exInterleavedFlat := by decide +kernel
example : (exInterleavedFlat.sortLinesBySegmentGroups.toOption.map fun g => g.lines.map AhbLine.segmentGroupKey) =
    some [none, none, some py!"SG4", some py!"SG4", some py!"SG2"] := by
  -- `List.mergeSort` does not reduce in the kernel; the helper theorem about the second step does the sorting
  have h1 : (exInterleavedFlat.getSegmentGroups).Nodup := by decide
  have h2 : ∀ l ∈ exInterleavedFlat.lines, l.segmentGroupKey ∈ exInterleavedFlat.getSegmentGroups := by decide
  unfold FlatAhb.sortLinesBySegmentGroups
  rw [sortedLines_eq _ _ h1 h2]
  decide +kernel

/-- **C22** the static helper raises a `ValueError` exactly if the given order misses a group of the lines. -/
theorem C22_incomplete_order (lines : List AhbLine) (order : List (Option PyStr)) :
    sortedLinesBySegmentGroups lines order = .error .valueError ↔ ∃ l ∈ lines, l.segmentGroupKey ∉ order := by
  unfold sortedLinesBySegmentGroups
  simp only
  split
  · rename_i h
    simp only [reduceCtorEq, false_iff, not_exists, not_and, Classical.not_not]
    intro l hl
    simpa using List.all_eq_true.1 h l (List.mem_mergeSort.2 hl)
  · rename_i h
    simp only [true_iff]
    simpa using h

/-- **C24 (exact acceptance)** a flat AHB is accepted iff the lines are well formed and at most two of the maximal
chunks (a new chunk starts where a line with segment group follows a line without) contain a line of the section
"Abschnitts-Kontrollsegment"; otherwise the constructor raises a `ValueError`. -/
theorem C24_exact_acceptance (m : AhbMetaInformation) (lines : List AhbLine) :
    (FlatAhb.new m lines = .ok { ahbMeta := m, lines := lines } ∧
      (∀ l ∈ lines, l.WellFormed) ∧ ∃ pieces, CutBeforeGroups lines pieces ∧ controlPieces pieces ≤ 2) ∨
    (FlatAhb.new m lines = .error .valueError ∧
      ¬ ((∀ l ∈ lines, l.WellFormed) ∧ ∃ pieces, CutBeforeGroups lines pieces ∧ controlPieces pieces ≤ 2)) := by
  have h := checkLines_iff lines
  have hc : checkNearlyAllHaveSg lines = true ↔ ∃ pieces, CutBeforeGroups lines pieces ∧ controlPieces pieces ≤ 2 := by
    simp only [cutBeforeGroups_iff, exists_eq_left', checkNearlyAllHaveSg, controlPieces_eq,
      Bool.not_eq_true', decide_eq_false_iff_not, gt_iff_lt, Nat.not_lt]
  rw [hc] at h
  cases hr : FlatAhb.checkLines lines with
  | ok u => exact .inl ⟨by simp [FlatAhb.new, hr, bind, Except.bind]; rfl, h.1 hr⟩
  | error e =>
    refine .inr ⟨?_, fun hh => ?_⟩
    · have he : e = .valueError := by
        unfold FlatAhb.checkLines at hr
        split at hr
        · exact (Except.error.inj hr).symm
        · split at hr
          · exact (Except.error.inj hr).symm
          · exact absurd hr (by simp)
      simp [FlatAhb.new, hr, he, bind, Except.bind]
    · rw [h.2 hh] at hr; exact absurd hr (by simp)

/-- **C24 (partial)** an accepted flat AHB has only well formed lines; and a list of well formed lines whose lines
without segment group occur only at the beginning and at the end is always accepted. Missing: an accepted list need not
have lines without segment group only at the ends (see `C24_gap_accepted`). -/
theorem C24_acceptance_partial (m : AhbMetaInformation) (lines : List AhbLine) :
    (∀ f, FlatAhb.new m lines = .ok f → f = { ahbMeta := m, lines := lines } ∧ ∀ l ∈ lines, l.WellFormed) ∧
    ((∀ l ∈ lines, l.WellFormed) → NoSgOnlyAtTheEnds lines →
      FlatAhb.new m lines = .ok { ahbMeta := m, lines := lines }) := by
  constructor
  · intro f hf
    rcases C24_exact_acceptance m lines with ⟨h, hw, _⟩ | ⟨h, _⟩
    · rw [h] at hf; exact ⟨(Except.ok.inj hf).symm, hw⟩
    · rw [h] at hf; exact absurd hf (by simp)
  · intro hw he
    have := (checkLines_iff lines).2 ⟨hw, checkNearly_of_length (splitWhen_ends he)⟩
    simp [FlatAhb.new, this, bind, Except.bind]; rfl

/-- lines with and without segment group in turns -/
def exGaps : List AhbLine :=
  [{}, { segmentGroupKey := some py!"SG2" }, {}, { segmentGroupKey := some py!"SG3" }, {},
   { segmentGroupKey := some py!"SG4" }, {}]

/-- **C24 (the claim is false)** lines without segment group in between are accepted although there is no control
segment at all: the helper that should remove the control segments keeps only them. -/
theorem C24_gap_accepted : ∃ m lines f, FlatAhb.new m lines = .ok f ∧ ¬ NoSgOnlyAtTheEnds lines ∧
    ∀ l ∈ lines, l.sectionName = none := by
  refine ⟨{ pruefidentifikator := py!"11042" }, exGaps, { ahbMeta := { pruefidentifikator := py!"11042" }, lines := exGaps },
    by decide +kernel, ?_, by decide⟩
  rintro ⟨pre, mid, post, h, h1, h2, h3⟩
  -- the second line has a group: it is the first of `mid`, the third one has none: it is the first of `post`
  have key : ∀ i < 7, ∀ l, exGaps[i]? = some l → (l.segmentGroupKey = none ↔ i % 2 = 0) := by
    intro i hi
    have : i = 0 ∨ i = 1 ∨ i = 2 ∨ i = 3 ∨ i = 4 ∨ i = 5 ∨ i = 6 := by omega
    rcases this with rfl | rfl | rfl | rfl | rfl | rfl | rfl <;>
      (intro l hl; simp only [exGaps, List.getElem?_cons_succ, List.getElem?_cons_zero, Option.some.injEq] at hl; subst hl; simp)
  have hlen : pre.length + mid.length + post.length = 7 := by
    have := congrArg List.length h; simp [exGaps] at this; omega
  -- index 1 is not in `pre`, index 2 not in `mid`, index 3 not in `post`
  have hp : pre.length ≤ 1 := by
    by_contra hc
    have hi : 1 < pre.length := by omega
    have e : exGaps[1]? = some pre[1] := by
      rw [h, List.append_assoc, List.getElem?_append_left hi, List.getElem?_eq_getElem hi]
    have := (key 1 (by omega) _ e).1 (h1 _ (List.getElem_mem hi))
    omega
  have hm : pre.length + mid.length ≤ 2 := by
    by_contra hc
    have hi : 2 - pre.length < mid.length := by omega
    have e : exGaps[2]? = some mid[2 - pre.length] := by
      rw [h, List.append_assoc, List.getElem?_append_right (by omega), List.getElem?_append_left hi,
        List.getElem?_eq_getElem hi]
    exact h2 _ (List.getElem_mem hi) ((key 2 (by omega) _ e).2 rfl)
  have hi : 3 - (pre ++ mid).length < post.length := by simp; omega
  have e : exGaps[3]? = some post[3 - (pre ++ mid).length] := by
    rw [h, List.getElem?_append_right (by simp; omega), List.getElem?_eq_getElem hi]
  have := (key 3 (by omega) _ e).1 (h3 _ (List.getElem_mem hi))
  omega

example : NoSgOnlyAtTheEnds exInterleaved ∧ ∀ l ∈ exInterleaved, l.WellFormed :=
  ⟨⟨exInterleaved.take 1, (exInterleaved.drop 1).take 3, exInterleaved.drop 4, by decide, by decide, by decide, by decide⟩,
    fun l hl => (flatOk_iff l).1 ((by decide +kernel : ∀ l ∈ exInterleaved, l.flatOk = true) l hl)⟩

/-- a rejected list: three chunks with control segments -/
example : FlatAhb.new { pruefidentifikator := py!"11042" }
    [{ sectionName := some controlSection }, { segmentGroupKey := some py!"SG2" }, { sectionName := some controlSection },
     { segmentGroupKey := some py!"SG3" }, {}, { segmentGroupKey := some py!"SG3", sectionName := some controlSection }]
    = .error .valueError := by decide +kernel
example : FlatAhb.new { pruefidentifikator := py!"11042" } [{ segmentGroupKey := some py!"SG" }] = .error .valueError := by
  decide +kernel

/-- **C25** the discriminator without name identifies group key, segment code and data element. -/
theorem C25_discriminator_without_name (a b : AhbLine) (ha : a.WellFormed) (hb : b.WellFormed) :
    a.getDiscriminator false = b.getDiscriminator false ↔
      a.segmentGroupKey = b.segmentGroupKey ∧ a.segmentCode = b.segmentCode ∧ a.dataElement = b.dataElement := by
  constructor
  · intro h
    rw [getDiscriminator_false, getDiscriminator_false] at h
    obtain ⟨h1, h2, h3⟩ := base_inj ha hb (x := []) (y := []) (by simpa using h)
    exact ⟨h1, h2, fmtOpt_inj (de_ne_none ha) (de_ne_none hb) (by simpa using h3)⟩
  · rintro ⟨h1, h2, h3⟩
    simp [AhbLine.getDiscriminator, h1, h2, h3]

/-- **C25** the discriminator with name identifies group key, segment code, data element and name (a missing and an
empty name are the same). -/
theorem C25_discriminator_with_name (a b : AhbLine) (ha : a.WellFormed) (hb : b.WellFormed) :
    a.getDiscriminator true = b.getDiscriminator true ↔
      a.segmentGroupKey = b.segmentGroupKey ∧ a.segmentCode = b.segmentCode ∧ a.dataElement = b.dataElement ∧
        a.name.getD [] = b.name.getD [] := by
  constructor
  · intro h
    rw [getDiscriminator_true, getDiscriminator_true] at h
    obtain ⟨h1, h2, h3⟩ := base_inj ha hb h
    obtain ⟨h4, h5⟩ := de_name_inj (plain_sep (fmtDe_plain ha)).2 (plain_sep (fmtDe_plain hb)).2
      (nameDisc_cases a) (nameDisc_cases b) h3
    exact ⟨h1, h2, fmtOpt_inj (de_ne_none ha) (de_ne_none hb) h4, name_inj h5⟩
  · rintro ⟨h1, h2, h3, h4⟩
    rw [getDiscriminator_true, getDiscriminator_true]
    have hn : nameDisc a = nameDisc b := by
      unfold nameDisc
      cases hA : a.name <;> cases hB : b.name <;> simp_all [truthy, AhbLine.fmtOpt]
    rw [hn]
    simp [baseDisc, h1, h2, h3]

/-- the lines of the example meet the hypotheses; the discriminators are what users see in messages -/
example : AhbLine.getDiscriminator
    { segmentGroupKey := some py!"SG4", segmentCode := some py!"NAD", dataElement := some py!"3035",
      name := some py!"MP-ID" } true = py!"SG4->NAD->3035 (MP-ID)" := by decide
/-- without the validation, different lines may share a discriminator -/
example : ({ segmentGroupKey := some py!"SG4", segmentCode := some py!"NAD->3035" } : AhbLine).getDiscriminator true =
    ({ segmentGroupKey := some py!"SG4->NAD", segmentCode := some py!"3035" } : AhbLine).getDiscriminator true := by decide

/-- **C26** a line holds no information iff its six fields are each missing or consist of whitespace only. -/
theorem C26_holds_any_information (l : AhbLine) :
    l.holdsAnyInformation = false ↔
      ∀ field ∈ [l.segmentGroupKey, l.segmentCode, l.dataElement, l.valuePoolEntry, l.name, l.ahbExpression],
        ∀ s, field = some s → ∀ c ∈ s, c ∈ whiteSpace := by
  have key : ∀ o, AhbLine.holdsField o = false ↔ ∀ s, o = some s → ∀ c ∈ s, c ∈ whiteSpace := by
    intro o
    cases o with
    | none => simp [AhbLine.holdsField]
    | some s =>
      have h := strip_ne_nil s
      simp only [AhbLine.holdsField, decide_eq_false_iff_not, gt_iff_lt, Nat.not_lt, Nat.le_zero,
        List.length_eq_zero_iff, Option.some.injEq, forall_eq']
      by_cases hs : strip s = []
      · simp only [hs, true_iff]
        intro c hc
        by_contra hn
        exact (h.2 ⟨c, hc, hn⟩) hs
      · simp only [hs, false_iff]
        obtain ⟨c, hc, hn⟩ := h.1 hs
        intro hh
        exact hn (hh c hc)
  simp only [AhbLine.holdsAnyInformation, Bool.or_eq_false_iff, key, List.mem_cons, List.not_mem_nil, or_false,
    forall_eq_or_imp, forall_eq]
  tauto

/-- **C26** guid, index, section name, segment id and conditions do not matter. -/
theorem C26_other_fields (l : AhbLine) (g : Option Nat) (i : Option Int) (sec sid cond : Option PyStr) :
    ({ l with guid := g, index := i, sectionName := sec, segmentId := sid, conditions := cond } : AhbLine).holdsAnyInformation
      = l.holdsAnyInformation := rfl

example : ({ guid := some 5, sectionName := some py!"Nachrichten-Kopfsegment", name := some py!" \n" } : AhbLine).holdsAnyInformation
    = false := by decide
example : ({ name := some py!" x " } : AhbLine).holdsAnyInformation = true := by decide

end Verif
