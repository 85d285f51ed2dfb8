import Verif.Proofs.FlatEdit
/-!
# C114: flat AHBs that are edited in place
-/

namespace Verif
open List

/-! ## example -/

/-- some lines -/
def exEditLines : Nat → AhbLine
  | 0 => { segmentGroupKey := none, segmentCode := some py!"UNH", dataElement := some py!"0062" }
  | 1 => { segmentGroupKey := some py!"SG4", segmentCode := some py!"IDE", ahbExpression := some py!"Muss" }
  | 2 => { segmentGroupKey := some py!"SG2", segmentCode := some py!"NAD", dataElement := some py!"3035" }
  | _ => {}

/-- a flat AHB, the third line is used twice -/
def exEditFlat : FlatObj :=
  { ahbMeta := { pruefidentifikator := py!"11042" }
    heap := exEditLines, refs := [0, 1, 2, 1] }

/-- **C114** a line stays as the constructor of `AhbLine` demands, whatever is assigned -/
theorem C114_lines_stay_sound (f : FlatObj) (edits : List FlatEdit) (h : ∀ r, (f.heap r).Sound) : ∀ r, ((f.run edits).heap r).Sound := by
  unfold FlatObj.run
  induction edits generalizing f with
  | nil => exact h
  | cons e edits ih =>
    refine ih _ ?_
    cases e with
    | assign i a =>
      simp only [FlatObj.apply, AhbLine.assign]
      by_cases ha : a.check = true
      · simp only [ha, if_true]
        intro r
        by_cases hr : r = i
        · simp only [hr, if_true]
          exact lineAttr_set_sound a _ (h _) ((lineAttr_check_iff a).1 ha)
        · simp only [hr, if_false]
          exact h r
      · simp only [ha, if_false, Bool.false_eq_true]
        exact h
    | setLines refs => simp only [FlatObj.apply]; split <;> exact h
    | mutate refs => exact h
    | sort =>
      simp only [FlatObj.apply]
      split
      · exact h
      · split <;> exact h

/-- **C114** an assignment to an attribute of a line: it takes place iff the value is allowed, and then this attribute of this line has
this value, the other attributes of the line and all other lines are what they were, and the handbook refers to the same lines -/
theorem C114_assign (f : FlatObj) (r : Nat) (a : LineAttr) :
    ((f.apply (.assign r a)).2 = none ↔ a.Allowed) ∧
    (a.Allowed → (∀ n, ((f.apply (.assign r a)).1.heap r).read n = if n = a.target then a.value else (f.heap r).read n) ∧
      (∀ i, i ≠ r → (f.apply (.assign r a)).1.heap i = f.heap i) ∧
      (f.apply (.assign r a)).1.refs = f.refs ∧ (f.apply (.assign r a)).1.ahbMeta = f.ahbMeta) := by
  simp only [FlatObj.apply, AhbLine.assign, ← lineAttr_check_iff]
  by_cases ha : a.check = true
  · simp only [ha, if_true, true_and, true_implies, and_true]
    refine ⟨?_, ?_⟩
    · intro n
      cases a <;> cases n <;> rfl
    · intro i hi
      simp [hi]
  · simp [ha]

example : (LineAttr.index (some 3)).Allowed ∧ ¬ (LineAttr.index (some (-1))).Allowed := by
  refine ⟨?_, ?_⟩
  · rintro _ ⟨⟩; decide
  · intro h; exact absurd (h _ rfl) (by decide)

/-- **C114** a step that raises an exception raises a `ValueError` and changes nothing -/
theorem C114_refused (f : FlatObj) (e : FlatEdit) (x : Exc) (h : (f.apply e).2 = some x) : x = .valueError ∧ (f.apply e).1 = f := by
  cases e with
  | assign r a =>
    simp only [FlatObj.apply, AhbLine.assign] at h ⊢
    by_cases ha : a.check = true
    · simp [ha] at h
    · simp only [ha, Bool.false_eq_true, if_false, Option.some.injEq] at h ⊢
      exact ⟨h.symm, trivial⟩
  | setLines refs =>
    simp only [FlatObj.apply] at h ⊢
    cases hc : FlatAhb.checkLines (refs.map f.heap) with
    | ok u => simp [hc] at h
    | error y =>
      simp only [hc, Option.some.injEq] at h ⊢
      exact ⟨h ▸ checkLines_error hc, trivial⟩
  | mutate refs => simp [FlatObj.apply] at h
  | sort =>
    simp only [FlatObj.apply] at h ⊢
    cases hs : sortedRefsBySegmentGroups f.heap f.refs (availableSegmentGroups [] f.lines) with
    | error y =>
      simp only [hs, Option.some.injEq] at h ⊢
      unfold sortedRefsBySegmentGroups at hs
      simp only at hs
      split at hs
      · cases hs
      · simp only [Except.error.injEq] at hs
        exact ⟨(hs.trans h).symm, trivial⟩
    | ok out =>
      simp only [hs] at h ⊢
      cases hc : FlatAhb.checkLines (out.map f.heap) with
      | ok u => simp [hc] at h
      | error y =>
        simp only [hc, Option.some.injEq] at h ⊢
        exact ⟨h ▸ checkLines_error hc, trivial⟩

/-- **C114** `flat.lines = [...]` is accepted iff the constructor would accept these lines, and then the handbook has these lines -/
theorem C114_set_lines (f : FlatObj) (refs : List Nat) :
    ((f.apply (.setLines refs)).2 = none ↔ AcceptableLines (refs.map f.heap)) ∧
    (AcceptableLines (refs.map f.heap) → (f.apply (.setLines refs)).1 = { f with refs := refs }) := by
  rw [← checkLines_acceptable]
  simp only [FlatObj.apply]
  cases FlatAhb.checkLines (refs.map f.heap) <;> simp

/-- **C114** whatever has been done to the lines before: sorting succeeds iff every line has a well formed segment group, segment code
and data element now. It reorders the references (the lines themselves are not touched): the lines of a segment group keep their order and
stand next to each other, the groups follow each other in the order of their first
lines. The result is what the constructor demands, even if that was not so before. -/
theorem C114_sort (f : FlatObj) :
    ((f.apply .sort).2 = none ↔ ∀ l ∈ f.lines, l.WellFormed) ∧
    ((∀ l ∈ f.lines, l.WellFormed) → ∃ refs, (f.apply .sort).1 = { f with refs := refs } ∧ refs.Perm f.refs ∧
      (∀ k, refs.filter (fun r => decide ((f.heap r).segmentGroupKey = k)) =
        f.refs.filter (fun r => decide ((f.heap r).segmentGroupKey = k))) ∧
      Contiguous (fun r => (f.heap r).segmentGroupKey) refs ∧
      refs.Pairwise (fun a b => (f.lines.map AhbLine.segmentGroupKey).idxOf (f.heap a).segmentGroupKey ≤
        (f.lines.map AhbLine.segmentGroupKey).idxOf (f.heap b).segmentGroupKey) ∧
      AcceptableLines (refs.map f.heap)) := by
  have hmap := sortedRefs_map f.heap f.refs (availableSegmentGroups [] f.lines)
  have key : (∀ l ∈ f.lines, l.WellFormed) → ∃ refs, f.apply .sort = ({ f with refs := refs }, none) ∧ refs.Perm f.refs ∧
      (∀ k, refs.filter (fun r => decide ((f.heap r).segmentGroupKey = k)) =
        f.refs.filter (fun r => decide ((f.heap r).segmentGroupKey = k))) ∧
      Contiguous (fun r => (f.heap r).segmentGroupKey) refs ∧
      refs.Pairwise (fun a b => (f.lines.map AhbLine.segmentGroupKey).idxOf (f.heap a).segmentGroupKey ≤
        (f.lines.map AhbLine.segmentGroupKey).idxOf (f.heap b).segmentGroupKey) ∧
      AcceptableLines (refs.map f.heap) := by
    intro hwf
    obtain ⟨g, hg, hnew, -, -, -, hcont, hord, -⟩ := sort_of_wellFormed { ahbMeta := f.ahbMeta, lines := f.lines } hwf
    unfold FlatAhb.sortLinesBySegmentGroups FlatAhb.getSegmentGroups at hg
    simp only [FlatObj.lines] at hg hmap
    rw [← hmap] at hg
    cases hs : sortedRefsBySegmentGroups f.heap f.refs (availableSegmentGroups [] (f.refs.map f.heap)) with
    | error e => rw [hs] at hg; cases hg
    | ok out =>
      rw [hs] at hg
      simp only [Except.map, bind, Except.bind] at hg
      cases hc : FlatAhb.checkLines (out.map f.heap) with
      | error e => rw [hc] at hg; cases hg
      | ok u =>
        rw [hc] at hg
        simp only [pure, Except.pure, Except.ok.injEq] at hg
        obtain ⟨h1, h2⟩ := sortedRefs_ok _ _ _ hs
        refine ⟨out, ?_, h1, h2, ?_, ?_, (checkLines_acceptable _).1 hc⟩
        · simp only [FlatObj.apply, FlatObj.lines, hs, hc]
        · rw [← hg] at hcont
          exact contiguous_map AhbLine.segmentGroupKey f.heap out hcont
        · rw [← hg] at hord
          exact (List.pairwise_map (f := f.heap)).1 hord
  refine ⟨⟨fun h => ?_, fun h => ?_⟩, fun h => ?_⟩
  · simp only [FlatObj.apply] at h
    cases hs : sortedRefsBySegmentGroups f.heap f.refs (availableSegmentGroups [] f.lines) with
    | error y => simp [hs] at h
    | ok out =>
      simp only [hs] at h
      cases hc : FlatAhb.checkLines (out.map f.heap) with
      | error y => simp [hc] at h
      | ok u =>
        have hp := (sortedRefs_ok _ _ _ hs).1
        intro l hl
        exact ((checkLines_iff _).1 hc).1 l ((hp.map f.heap).mem_iff.2 hl)
  · obtain ⟨refs, h1, -⟩ := key h
    rw [h1]
  · obtain ⟨refs, h1, h2⟩ := key h
    exact ⟨refs, by rw [h1], h2⟩

example : ∀ l ∈ exEditFlat.lines, l.WellFormed := by
  intro l hl
  rw [← flatOk_iff]
  revert l
  decide +kernel

/-- **C114** as long as nothing gets past the validators of the handbook, an acceptable handbook stays acceptable, and sorting it never
raises an exception -/
theorem C114_stays_acceptable (f : FlatObj) (edits : List FlatEdit) (hg : ∀ e ∈ edits, e.Guarded) (h : AcceptableLines f.lines) :
    AcceptableLines (f.run edits).lines ∧ ((f.run edits).apply .sort).2 = none := by
  have key : AcceptableLines (f.run edits).lines := by
    unfold FlatObj.run
    induction edits generalizing f with
    | nil => exact h
    | cons e edits ih =>
      refine ih _ (fun e he => hg e (List.mem_cons_of_mem _ he)) ?_
      have hge := hg e List.mem_cons_self
      cases e with
      | assign r a =>
        by_cases ha : a.check = true
        · simp only [FlatObj.apply, AhbLine.assign, ha, if_true, FlatObj.lines]
          rw [← checkLines_acceptable, ← checkLines_congr f.heap]
          · exact (checkLines_acceptable _).2 h
          · intro i
            by_cases hi : i = r
            · subst hi
              simp only [if_true]
              cases a <;> first | exact ⟨rfl, rfl, rfl, rfl⟩ | exact absurd trivial hge
            · simp only [hi, if_false, and_self]
        · simpa only [FlatObj.apply, AhbLine.assign, ha, Bool.false_eq_true, if_false] using h
      | setLines refs =>
        simp only [FlatObj.apply]
        split
        · rename_i hc
          exact (checkLines_acceptable _).1 hc
        · exact h
      | mutate refs => exact absurd hge id
      | sort =>
        obtain ⟨refs, h1, -, -, -, -, h2⟩ := (C114_sort f).2 h.1
        show AcceptableLines (f.apply .sort).1.lines
        rw [h1]
        exact h2
  exact ⟨key, ((C114_sort _).1).2 key.1⟩

example : AcceptableLines exEditFlat.lines := (checkLines_acceptable _).1 (by decide +kernel)
example : ∀ e ∈ [FlatEdit.assign 1 (.ahbExpression (some py!"Kann")), .assign 1 (.index (some (-3))), .setLines [2, 2, 0], .sort], e.Guarded := by
  simp [FlatEdit.Guarded, LineAttr.Watched]

/-- **C114** without the premise: an assignment to the segment group of a line gets past the validators of the handbook, and the next
sort raises an exception -/
theorem C114_bypass : ∃ (f : FlatObj) (r : Nat) (a : LineAttr), AcceptableLines f.lines ∧ (f.apply (.assign r a)).2 = none ∧
    ¬ AcceptableLines (f.apply (.assign r a)).1.lines ∧ (((f.apply (.assign r a)).1).apply .sort).2 = some .valueError := by
  refine ⟨exEditFlat, 1, .segmentGroupKey (some py!"foo"), (checkLines_acceptable _).1 (by decide +kernel), rfl, ?_, ?_⟩
  · rw [← checkLines_acceptable]
    decide +kernel
  · have hs := (C114_sort ((exEditFlat.apply (.assign 1 (.segmentGroupKey (some py!"foo")))).1)).1
    cases hx : (((exEditFlat.apply (.assign 1 (.segmentGroupKey (some py!"foo")))).1).apply .sort).2 with
    | some x => rw [(C114_refused _ _ x hx).1]
    | none =>
      have := hs.1 hx
      have h2 : ¬ ∀ l ∈ (exEditFlat.apply (.assign 1 (.segmentGroupKey (some py!"foo")))).1.lines, l.flatOk = true := by decide +kernel
      exact absurd (fun l hl => (flatOk_iff l).2 (this l hl)) h2

end Verif
