import Verif.Proofs.Csv
import Verif.Proofs.CsvReader
import Verif.Spec.CsvRaises
/-!
# Lemmas about the exceptions of the CSV reader (C113)
-/

namespace Verif

theorem subscript_error {row : RawRow} {key : PyStr} {e : Exc} :
    row.subscript key = .error e ↔ ¬ row.HasColumn key ∧ e = .keyError := by
  unfold RawRow.subscript RawRow.HasColumn
  cases dictGet key row <;> simp [eq_comm]

theorem indexRaises_iff {merged : PyStr} {row : RawRow} {e : Exc} : artificialRow merged row = .error e ↔ IndexRaises row e := by
  unfold artificialRow IndexRaises
  cases h : row.subscript [] with
  | error e' =>
    have hh := subscript_error.1 h
    obtain ⟨hn, rfl⟩ := hh
    simp only [Bind.bind, Except.bind, Except.error.injEq]
    constructor
    · rintro rfl; exact .inl ⟨hn, rfl⟩
    · rintro (⟨_, rfl⟩ | ⟨h1, _⟩ | ⟨t, ht, _⟩)
      · rfl
      · exact absurd h1 hn
      · exact absurd ⟨_, cell_eq.1 ht⟩ hn
  | ok v =>
    rw [subscript_ok] at h
    have hc := cell_of_get h
    have hcol : row.HasColumn [] := ⟨_, h⟩
    simp only [Bind.bind, Except.bind]
    cases v with
    | none =>
      simp only [Except.error.injEq]
      constructor
      · rintro rfl; exact .inr (.inl ⟨hcol, hc, rfl⟩)
      · rintro (⟨h1, _⟩ | ⟨_, _, rfl⟩ | ⟨t, ht, _⟩)
        · exact absurd hcol h1
        · rfl
        · rw [hc] at ht; cases ht
    | some t =>
      cases hi : pyInt t with
      | none =>
        simp only [hi, Except.error.injEq]
        have hno : ¬ ∃ i, IntText t i := by
          rintro ⟨i, h⟩
          rw [(pyInt_iff _ _).2 h] at hi
          cases hi
        constructor
        · rintro rfl; exact .inr (.inr ⟨t, hc, hno, rfl⟩)
        · rintro (⟨h1, _⟩ | ⟨_, h1, _⟩ | ⟨t, ht, _, rfl⟩)
          · exact absurd hcol h1
          · rw [hc] at h1; cases h1
          · rfl
      | some i =>
        simp only [hi]
        constructor
        · intro h; cases h
        · rintro (⟨h1, _⟩ | ⟨_, h1, _⟩ | ⟨t', ht, hn, rfl⟩)
          · exact absurd hcol h1
          · rw [hc] at h1; cases h1
          · rw [hc] at ht
            cases ht
            exact absurd ⟨i, (pyInt_iff _ _).1 hi⟩ hn

theorem mergeRaises_short (x : RawRow) (e : Exc) : ¬ MergeRaises [] e ∧ ¬ MergeRaises [x] e := by
  constructor
  · rintro ⟨b, h, r, a, he, _⟩
    cases b <;> simp at he
  · rintro ⟨b, h, r, a, he, _⟩
    rcases b with _ | ⟨y, _ | ⟨z, b⟩⟩ <;> simp at he

theorem mergeRaises_cons (x y : RawRow) (l : List RawRow) (e : Exc) :
    MergeRaises (x :: y :: l) e ↔
      BelowHeadingRaises x y e ∨ ((∀ e', ¬ BelowHeadingRaises x y e') ∧ MergeRaises (y :: l) e) := by
  constructor
  · rintro ⟨b, h, r, a, he, hb, hfirst⟩
    cases b with
    | nil =>
      simp only [List.nil_append, List.cons.injEq] at he
      obtain ⟨rfl, rfl, rfl⟩ := he
      exact .inl hb
    | cons z b =>
      simp only [List.cons_append, List.cons.injEq] at he
      obtain ⟨rfl, he⟩ := he
      right
      constructor
      · cases b with
        | nil =>
          simp only [List.nil_append, List.cons.injEq] at he
          exact hfirst [] x y [] (by simp [he.1])
        | cons w b =>
          simp only [List.cons_append, List.cons.injEq] at he
          exact hfirst [] x y (b ++ [h]) (by simp [he.1])
      · exact ⟨b, h, r, a, he, hb, fun b' h' r' a' he' => hfirst (x :: b') h' r' a' (by simp [he'])⟩
  · rintro (hb | ⟨hn, b, h, r, a, he, hb, hfirst⟩)
    · refine ⟨[], x, y, l, rfl, hb, ?_⟩
      intro b h r a he
      rcases b with _ | ⟨z, b⟩ <;> simp at he
    · refine ⟨x :: b, h, r, a, by simp [he], hb, ?_⟩
      intro b' h' r' a' he'
      cases b' with
      | nil =>
        simp only [List.nil_append, List.cons_append, List.cons.injEq] at he'
        obtain ⟨rfl, he'⟩ := he'
        have hy : y = r' := by
          cases b with
          | nil =>
            simp only [List.nil_append, List.cons.injEq] at he he'
            rw [he.1, he'.1]
          | cons w b =>
            simp only [List.cons_append, List.cons.injEq] at he he'
            rw [he.1, he'.1]
        rw [← hy]
        exact hn
      | cons z b' =>
        simp only [List.cons_append, List.cons.injEq] at he'
        exact hfirst b' h' r' a' he'.2

theorem belowHeading_no {x y : RawRow} (h : sectionOnly? y ≠ none ∨ sectionOnly? x = none) (e : Exc) : ¬ BelowHeadingRaises x y e := by
  rintro ⟨⟨g, hg⟩, hn, _⟩
  rcases h with h | h
  · exact h (sectionOnly?_none _ |>.2 hn)
  · exact (sectionOnly?_none _ |>.1 h) ⟨g, hg⟩

theorem bind_pure_error {α β} {m : PyRes α} {f : α → β} {e : Exc} : (m >>= fun r => pure (f r)) = .error e ↔ m = .error e := by
  cases m <;> simp [Bind.bind, Except.bind, pure, Except.pure]

theorem mergeLoop_error (rows : List RawRow) (merged : PyStr) (x : RawRow) (e : Exc)
    (h : (sectionOnly? x ≠ none ∧ merged.length > 0) ∨ (sectionOnly? x = none ∧ merged = [])) :
    mergeLoop merged rows = .error e ↔ MergeRaises (x :: rows) e := by
  induction rows generalizing merged x with
  | nil =>
    simp only [mergeLoop, reduceCtorEq, false_iff]
    exact (mergeRaises_short x e).2
  | cons y rows ih =>
    rw [mergeRaises_cons]
    cases hy : sectionOnly? y with
    | some g =>
      rw [mergeLoop_some hy, ih _ y (.inl ⟨by simp [hy], by simp; omega⟩)]
      have hno : ∀ e', ¬ BelowHeadingRaises x y e' := belowHeading_no (.inl (by simp [hy]))
      simp [hno]
    | none =>
      rcases h with ⟨hx, hm⟩ | ⟨hx, rfl⟩
      · rw [mergeLoop_heading hy hm]
        have hxs : ∃ g, SectionOnly x g := by
          by_contra hc
          exact hx ((sectionOnly?_none _).2 hc)
        have hys : ¬ ∃ g, SectionOnly y g := (sectionOnly?_none _).1 hy
        have hiff : ∀ e', BelowHeadingRaises x y e' ↔ artificialRow merged y = .error e' := by
          intro e'
          rw [indexRaises_iff]
          exact ⟨fun h => h.2.2, fun h => ⟨hxs, hys, h⟩⟩
        simp only [hiff]
        cases ha : artificialRow merged y with
        | error e' =>
          simp only [Bind.bind, Except.bind, Except.error.injEq]
          constructor
          · exact .inl
          · rintro (h | ⟨h, _⟩)
            · exact h
            · exact absurd rfl (h e')
        | ok a =>
          have : (Except.ok a >>= fun heading => mergeLoop [] rows >>= fun result => pure (heading :: y :: result) : PyRes (List RawRow)) =
              (mergeLoop [] rows >>= fun result => pure (a :: y :: result)) := rfl
          rw [this, bind_pure_error, ih [] y (.inr ⟨hy, rfl⟩)]
          simp
      · rw [mergeLoop_nil hy, bind_pure_error, ih [] y (.inr ⟨hy, rfl⟩)]
        have hno : ∀ e', ¬ BelowHeadingRaises x y e' := belowHeading_no (.inr hx)
        simp [hno]

theorem mergeSectionOnly_error (rows : List RawRow) (e : Exc) : mergeSectionOnlyLines rows = .error e ↔ MergeRaises rows e := by
  unfold mergeSectionOnlyLines
  cases rows with
  | nil =>
    simp only [mergeLoop, reduceCtorEq, false_iff]
    exact (mergeRaises_short [] e).1
  | cons y rows =>
    cases hy : sectionOnly? y with
    | some g =>
      rw [mergeLoop_some hy, mergeLoop_error rows _ y e (.inl ⟨by simp [hy], by simp⟩)]
    | none =>
      rw [mergeLoop_nil hy, bind_pure_error, mergeLoop_error rows [] y e (.inr ⟨hy, rfl⟩)]

/-! ## the rows -/

theorem lineNew_error {l : AhbLine} {e : Exc} (h : AhbLine.new l = .error e) : e = .valueError ∧ l.valid = false := by
  unfold AhbLine.new at h
  split at h
  · cases h
  · rename_i hv
    cases h
    exact ⟨rfl, by simpa using hv⟩

/-- the part of `RowRaises` about rows that are no headings -/
def CsvLineRaises (p : PyStr) (row : RawRow) (e : Exc) : Prop :=
  ((∃ key ∈ [py!"Segment", py!"Datenelement", p], ¬ row.HasColumn key) ∧ e = .keyError) ∨
  ((∀ key ∈ [py!"Segment", py!"Datenelement", p], row.HasColumn key) ∧
    (∃ t, row.cell p = some t ∧ t ≠ [] ∧ ∀ c ∈ t, c ∈ whiteSpace) ∧ e = .valueError)

theorem lineOf_raises {p : PyStr} {guid : Fin (2 ^ 128)} {st : CsvState} {row : RawRow} {group vpe desc : Option PyStr}
    {bed : List (PyStr × PyStr)} {above : List RawRow} (hst : SectionState above st.currentSectionName) {e : Exc}
    (h : rawRowToAhbLine.lineOf p guid st row group vpe desc bed = .error e) : CsvLineRaises p row e := by
  by_cases hcols : ∀ key ∈ [py!"Segment", py!"Datenelement", p], row.HasColumn key
  · have hblank : ∃ t, row.cell p = some t ∧ t ≠ [] ∧ ∀ c ∈ t, c ∈ whiteSpace := by
      by_contra hno
      obtain ⟨r, hr⟩ := lineOf_exists (guid := guid) (group := group) (vpe := vpe) (desc := desc) (bed := bed) hst hcols (by
        intro t ht
        by_contra hc
        simp only [not_or, not_exists, not_and, not_not] at hc
        exact hno ⟨t, ht, hc.1, hc.2⟩)
      rw [hr] at h
      cases h
    refine .inr ⟨hcols, hblank, ?_⟩
    unfold rawRowToAhbLine.lineOf at h
    obtain ⟨name, hn, _⟩ := sectionState_replace hst
    obtain ⟨seg, hseg⟩ := hcols py!"Segment" (by simp)
    obtain ⟨de, hde⟩ := hcols py!"Datenelement" (by simp)
    obtain ⟨ex, hex⟩ := hcols p (by simp)
    rw [hn, subscript_ok.2 hseg, subscript_ok.2 hde, subscript_ok.2 hex] at h
    simp only [Bind.bind, Except.bind, pure, Except.pure] at h
    split at h
    · rename_i hl
      cases h
      exact (lineNew_error hl).1
    · cases h
  · refine .inl ⟨by simpa only [not_forall, exists_prop] using hcols, ?_⟩
    unfold rawRowToAhbLine.lineOf at h
    cases h1 : row.subscript py!"Segment" with
    | error e' => rw [h1] at h; cases h; exact (subscript_error.1 h1).2
    | ok seg =>
    cases h2 : row.subscript py!"Datenelement" with
    | error e' => rw [h1, h2] at h; cases h; exact (subscript_error.1 h2).2
    | ok de =>
    cases h3 : row.subscript p with
    | error e' => rw [h1, h2, h3] at h; cases h; exact (subscript_error.1 h3).2
    | ok ex =>
      rw [subscript_ok] at h1 h2 h3
      exfalso
      apply hcols
      intro key hkey
      simp only [List.mem_cons, List.not_mem_nil, or_false] at hkey
      rcases hkey with rfl | rfl | rfl
      · exact ⟨_, h1⟩
      · exact ⟨_, h2⟩
      · exact ⟨_, h3⟩

theorem rowRaises_not_readable {p : PyStr} {row : RawRow} {e : Exc} (h : RowRaises p row e) : ¬ ReadableRow p row := by
  rintro ⟨h1, ⟨g, hg⟩, h2⟩
  rcases h with ⟨⟨key, hkey, hk⟩, _⟩ | ⟨_, ⟨hn, _⟩ | ⟨⟨g', hg', hor⟩, hl⟩⟩
  · simp only [List.mem_cons, List.not_mem_nil, or_false] at hkey
    rcases hkey with rfl | rfl | rfl | rfl
    · exact hk (h1 _ (by simp))
    · exact hk (h1 _ (by simp))
    · exact hk (h1 _ (by simp))
    · exact hk ⟨_, cell_eq.1 hg⟩
  · rw [hg] at hn; cases hn
  · rw [hg] at hg'
    cases hg'
    rcases h2 with ⟨g', hg', hlen, hno⟩ | ⟨h2, h3⟩
    · rw [hg] at hg'
      cases hg'
      rcases hor with h | h
      · exact hno h
      · omega
    · rcases hl with ⟨⟨key, hkey, hk⟩, _⟩ | ⟨_, ⟨t, ht, hne, hb⟩, _⟩
      · exact hk (h2 key hkey)
      · rcases h3 t ht with h | ⟨c, hc, hw⟩
        · exact hne h
        · exact hw (hb c hc)

theorem rawRow_raises {p : PyStr} {guid : Fin (2 ^ 128)} {st : CsvState} {row : RawRow} {above : List RawRow}
    (hst : SectionState above st.currentSectionName) {e : Exc} (h : rawRowToAhbLine p guid st row = .error e) : RowRaises p row e := by
  unfold rawRowToAhbLine at h
  have miss : ∀ key ∈ [py!"Codes und Qualifier", py!"Beschreibung", py!"Bedingung", py!"Segment Gruppe"], ∀ e',
      row.subscript key = .error e' → RowRaises p row e' := fun key hkey e' he =>
    .inl ⟨⟨key, hkey, (subscript_error.1 he).1⟩, (subscript_error.1 he).2⟩
  cases h1 : row.subscript py!"Codes und Qualifier" with
  | error e' => rw [h1] at h; cases h; exact miss _ (by simp) _ h1
  | ok codes =>
  cases h2 : row.subscript py!"Beschreibung" with
  | error e' => rw [h1, h2] at h; cases h; exact miss _ (by simp) _ h2
  | ok besch =>
  cases h3 : row.subscript py!"Bedingung" with
  | error e' => rw [h1, h2, h3] at h; cases h; exact miss _ (by simp) _ h3
  | ok bed =>
  cases h4 : row.subscript py!"Segment Gruppe" with
  | error e' => rw [h1, h2, h3, h4] at h; cases h; exact miss _ (by simp) _ h4
  | ok gruppe =>
  rw [h1, h2, h3, h4] at h
  simp only [Bind.bind, Except.bind] at h
  rw [subscript_ok] at h1 h2 h3 h4
  have c4 := cell_of_get h4
  right
  refine ⟨?_, ?_⟩
  · intro key hkey
    simp only [List.mem_cons, List.not_mem_nil, or_false] at hkey
    rcases hkey with rfl | rfl | rfl | rfl
    · exact ⟨_, h1⟩
    · exact ⟨_, h2⟩
    · exact ⟨_, h3⟩
    · exact ⟨_, h4⟩
  · split at h
    · rename_i hg
      obtain ⟨g, rfl, hlg⟩ := (isSegmentGroup_iff _).1 hg
      exact .inr ⟨⟨g, c4, .inl hlg⟩, lineOf_raises hst h⟩
    · cases gruppe with
      | none => cases h; exact .inl ⟨c4, rfl⟩
      | some g =>
        simp only at h
        split at h
        · cases h
        · rename_i hlen
          exact .inr ⟨⟨g, c4, .inr (by omega)⟩, lineOf_raises hst h⟩

/-- a row raises at most one exception -/
theorem rowRaises_unique {p : PyStr} {row : RawRow} {e e' : Exc} (h : RowRaises p row e) (h' : RowRaises p row e') : e = e' := by
  rcases h with ⟨⟨k, hk, hn⟩, rfl⟩ | ⟨hall, h⟩ <;> rcases h' with ⟨⟨k', hk', hn'⟩, rfl⟩ | ⟨hall', h'⟩
  · rfl
  · exact absurd (hall' k hk) hn
  · exact absurd (hall k' hk') hn'
  · rcases h with ⟨hc, rfl⟩ | ⟨⟨g, hg, _⟩, h⟩ <;> rcases h' with ⟨hc', rfl⟩ | ⟨⟨g', hg', _⟩, h'⟩
    · rfl
    · rw [hc] at hg'; cases hg'
    · rw [hc'] at hg; cases hg
    · rcases h with ⟨⟨k, hk, hn⟩, rfl⟩ | ⟨hall2, _, rfl⟩ <;> rcases h' with ⟨⟨k', hk', hn'⟩, rfl⟩ | ⟨hall2', _, rfl⟩
      · rfl
      · exact absurd (hall2' k hk) hn
      · exact absurd (hall2 k' hk') hn'
      · rfl

theorem rawRow_error {p : PyStr} {guid : Fin (2 ^ 128)} {st : CsvState} {row : RawRow} {above : List RawRow}
    (hst : SectionState above st.currentSectionName) {e : Exc} :
    rawRowToAhbLine p guid st row = .error e ↔ RowRaises p row e := by
  constructor
  · exact rawRow_raises hst
  · intro h
    cases hr : rawRowToAhbLine p guid st row with
    | ok r => exact absurd (rawRow_ok (st' := r.1) (o := r.2) hst hr).2.2.1 (rowRaises_not_readable h)
    | error e' => rw [rowRaises_unique h (rawRow_raises hst hr)]

theorem readLoop_error {p : PyStr} {guid : Nat → Fin (2 ^ 128)} (rows : List RawRow) (i : Nat) (st : CsvState)
    (above : List RawRow) (hst : SectionState above st.currentSectionName) (e : Exc) :
    readLoop p guid i st rows = .error e ↔ FirstRowRaises p rows e := by
  induction rows generalizing i st above with
  | nil =>
    simp only [readLoop, reduceCtorEq, false_iff]
    rintro ⟨b, r, a, h, _⟩
    cases b <;> simp at h
  | cons row rows ih =>
    unfold readLoop
    cases h1 : rawRowToAhbLine p (guid i) st row with
    | error e' =>
      have hr := rawRow_raises hst h1
      simp only [Bind.bind, Except.bind, Except.error.injEq]
      constructor
      · rintro rfl
        exact ⟨[], row, rows, rfl, by simp, hr⟩
      · rintro ⟨b, r, a, h, hb, hr'⟩
        cases b with
        | nil =>
          simp only [List.nil_append, List.cons.injEq] at h
          rw [← h.1] at hr'
          exact rowRaises_unique hr hr'
        | cons z b =>
          simp only [List.cons_append, List.cons.injEq] at h
          exact absurd (h.1 ▸ hb z (by simp)) (rowRaises_not_readable hr)
    | ok x =>
      obtain ⟨st1, o⟩ := x
      obtain ⟨_, e2, e3, _⟩ := rawRow_ok hst h1
      have hstep : ((Except.ok (st1, o) : PyRes (CsvState × Option AhbLine)) >>= fun x => readLoop p guid (i + 1) x.1 rows >>= fun y =>
          match x.2 with
          | none => pure (y.1, y.2)
          | some l => pure (y.1, { l with index := some (i : Int) } :: y.2)) = .error e ↔ readLoop p guid (i + 1) st1 rows = .error e := by
        simp only [Bind.bind, Except.bind]
        cases readLoop p guid (i + 1) st1 rows with
        | error e' => rfl
        | ok y => cases o <;> simp [pure, Except.pure]
      refine Iff.trans hstep ?_
      rw [ih (i + 1) st1 _ e2]
      constructor
      · rintro ⟨b, r, a, rfl, hb, hr⟩
        refine ⟨row :: b, r, a, rfl, ?_, hr⟩
        intro z hz
        rcases List.mem_cons.1 hz with rfl | hz
        · exact e3
        · exact hb z hz
      · rintro ⟨b, r, a, h, hb, hr⟩
        cases b with
        | nil =>
          simp only [List.nil_append, List.cons.injEq] at h
          exact absurd (h.1 ▸ e3) (rowRaises_not_readable hr)
        | cons z b =>
          simp only [List.cons_append, List.cons.injEq] at h
          exact ⟨b, r, a, h.2, fun w hw => hb w (by simp [hw]), hr⟩

end Verif
