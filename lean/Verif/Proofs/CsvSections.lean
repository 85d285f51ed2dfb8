import Verif.Proofs.CsvPrefix
import Verif.Spec.CsvSections
/-!
# Sections of a CSV file
-/

namespace Verif

theorem mem_dictUpdate_over {k : PyStr} {t : PyStr} {D : List (PyStr × PyStr)} (hD : (D.map Prod.fst).Nodup) (Q : List (PyStr × PyStr)) :
    (k, t) ∈ dictUpdate D Q ↔ (k, t) ∈ dictUpdate [] Q ∨ ((¬ ∃ t', (k, t') ∈ dictUpdate [] Q) ∧ (k, t) ∈ D) := by
  induction Q using List.reverseRecOn with
  | nil => simp [dictUpdate]
  | append_singleton Q q ih =>
    rw [dictUpdate_append, dictUpdate_append]
    change (k, t) ∈ dictSet q.1 q.2 _ ↔ (k, t) ∈ dictSet q.1 q.2 _ ∨ ((¬ ∃ t', (k, t') ∈ dictSet q.1 q.2 _) ∧ _)
    have hn : ((dictUpdate ([] : List (PyStr × PyStr)) Q).map Prod.fst).Nodup := nodup_dictUpdate (by simp)
    simp only [mem_dictSet (nodup_dictUpdate hD), mem_dictSet hn, ih]
    by_cases hk : k = q.1
    · subst hk; simp
    · simp [hk]

/-- a block that ends with a row that is no heading -/
theorem mergeLoop_append {b : List RawRow} (a : List RawRow) : ∀ merged : PyStr, (a = [] → merged = []) →
    (∀ r, a.getLast? = some r → sectionOnly? r = none) →
    mergeLoop merged (a ++ b) = (mergeLoop merged a >>= fun x => mergeLoop [] b >>= fun y => pure (x ++ y)) := by
  induction a with
  | nil =>
    intro merged h _
    rw [h rfl, List.nil_append, show mergeLoop [] ([] : List RawRow) = .ok [] by rw [mergeLoop]]
    simp only [bind, Except.bind, pure, Except.pure, List.nil_append]
    cases mergeLoop [] b <;> rfl
  | cons row a ih =>
    intro merged _ hl
    rw [List.cons_append]
    have hl' : ∀ r, a.getLast? = some r → sectionOnly? r = none := fun r hr => hl r (by rw [List.getLast?_cons, hr]; rfl)
    cases hs : sectionOnly? row with
    | some g =>
      rw [mergeLoop_some hs, mergeLoop_some hs]
      refine ih _ ?_ hl'
      rintro rfl
      have := hl row rfl
      rw [hs] at this
      cases this
    | none =>
      by_cases hm : merged = []
      · subst hm
        rw [mergeLoop_nil hs, mergeLoop_nil hs, ih [] (fun _ => rfl) hl']
        simp only [bind, Except.bind, pure, Except.pure]
        cases mergeLoop [] a with
        | error e => rfl
        | ok x => cases mergeLoop [] b <;> rfl
      · have hlen : merged.length > 0 := List.length_pos_of_ne_nil hm
        rw [mergeLoop_heading hs hlen, mergeLoop_heading hs hlen, ih [] (fun _ => rfl) hl']
        simp only [bind, Except.bind, pure, Except.pure]
        cases artificialRow merged row with
        | error e => rfl
        | ok hd =>
          cases mergeLoop [] a with
          | error e => rfl
          | ok x => cases mergeLoop [] b <;> rfl

/-- the columns of every CSV file with an AHB -/
def fixedColumns : List PyStr :=
  [[], py!"Segment Gruppe", py!"Segment", py!"Datenelement", py!"Codes und Qualifier", py!"Beschreibung", py!"Bedingung"]

/-- the first row of a block that begins with a heading -/
theorem merged_head {b out : List RawRow} (hb : ∀ r, b.head? = some r → ∃ g, SectionOnly r g)
    (h : mergeLoop [] b = .ok out) : out = [] ∨ ∃ hd rest, out = hd :: rest ∧ ∀ key, hd.HasColumn key → key ∈ fixedColumns := by
  have hm : Merged b out := mergeLoop_merged b [] [] .nil out h
  cases hm with
  | nil _ => exact .inl rfl
  | row hr _ => exact absurd (hb _ rfl) hr
  | @headings hs gs r hd rows out ne hg hr hh rest => exact .inr ⟨hd, _, rfl, hh.2.2.2⟩

/-- the expression column is none of the fixed columns -/
theorem choose_fixed {pruefi : Option PyStr} {fields : Option (List PyStr)} {p : PyStr} (hp : ∀ s, pruefi = some s → s ∈ fixedColumns → s = [])
    (h : choosePruefidentifikator pruefi fields = .ok p) : p ∉ fixedColumns := by
  intro hmem
  unfold choosePruefidentifikator at h
  by_cases ht : truthy pruefi = true
  · simp only [ht, if_true, Except.ok.injEq] at h
    cases pruefi with
    | none => cases ht
    | some s =>
      subst h
      have := hp s rfl hmem
      subst this
      cases ht
  · simp only [ht, Bool.false_eq_true, if_false] at h
    cases hc : getNameOfExpressionColumn fields with
    | none => rw [hc] at h; cases h
    | some n =>
      rw [hc] at h
      have hn : n = p := by
        split at h
        · exact Except.ok.inj h
        · cases h
      subst hn
      unfold getNameOfExpressionColumn at hc
      cases fields with
      | none => cases hc
      | some names =>
        have h1 := List.find?_some hc
        have h2 : ∀ n ∈ fixedColumns, (pruefiRe.pyMatch n).isSome = false := by decide +kernel
        rw [h2 n hmem] at h1
        cases h1

/-- what a row is read as does not depend on the GUIDs and the conditions so far -/
def readAs (r : PyRes (CsvState × Option AhbLine)) : PyRes (Option PyStr × Option AhbLine) :=
  r.map fun x => (x.1.currentSectionName, x.2.map AhbLine.withoutPosition)

theorem new_guid (g g' : Fin (2 ^ 128)) (l : AhbLine) :
    (AhbLine.new { l with guid := some g.val }).map AhbLine.withoutPosition =
      (AhbLine.new { l with guid := some g'.val }).map AhbLine.withoutPosition := by
  unfold AhbLine.new AhbLine.valid
  simp only [g.isLt, g'.isLt]
  split <;> split <;> rfl

theorem lineOf_same {p : PyStr} {g g' : Fin (2 ^ 128)} {st st' : CsvState} {row : RawRow} (hs : st.currentSectionName = st'.currentSectionName)
    (group vpe desc : Option PyStr) (bed bed' : List (PyStr × PyStr)) :
    readAs (rawRowToAhbLine.lineOf p g st row group vpe desc bed) = readAs (rawRowToAhbLine.lineOf p g' st' row group vpe desc bed') := by
  unfold rawRowToAhbLine.lineOf readAs
  rw [hs]
  simp only [bind, Except.bind, pure, Except.pure]
  cases row.subscript py!"Segment" with
  | error e => rfl
  | ok seg =>
    cases row.subscript py!"Datenelement" with
    | error e => rfl
    | ok de =>
      cases row.subscript p with
      | error e => rfl
      | ok ex =>
        cases replaceHardcodedSectionNames st'.currentSectionName with
        | error e => rfl
        | ok name =>
          simp only []
          have := new_guid g g' (.mk none group (orNone? seg) (orNone? de) none vpe desc (orNone? ex) none name none)
          simp only [] at this
          revert this
          generalize AhbLine.new _ = x
          generalize AhbLine.new _ = y
          intro this
          cases x <;> cases y <;> simp_all [Except.map]

theorem rawRow_readAs {p : PyStr} {g g' : Fin (2 ^ 128)} {st st' : CsvState} {row : RawRow} (hs : st.currentSectionName = st'.currentSectionName) :
    readAs (rawRowToAhbLine p g st row) = readAs (rawRowToAhbLine p g' st' row) := by
  unfold rawRowToAhbLine
  simp only [bind, Except.bind]
  cases row.subscript py!"Codes und Qualifier" with
  | error e => rfl
  | ok codes =>
    cases row.subscript py!"Beschreibung" with
    | error e => rfl
    | ok besch =>
      cases row.subscript py!"Bedingung" with
      | error e => rfl
      | ok bed =>
        cases row.subscript py!"Segment Gruppe" with
        | error e => rfl
        | ok gruppe =>
          simp only []
          split
          · exact lineOf_same hs _ _ _ _ _
          · cases gruppe with
            | none => rfl
            | some g =>
              simp only []
              split
              · rfl
              · exact lineOf_same hs _ _ _ _ _

theorem lineOf_missing {p : PyStr} {row : RawRow} (hp : row.subscript p = .error .keyError) {g g' : Fin (2 ^ 128)} {st st' : CsvState}
    (group vpe desc : Option PyStr) (bed bed' : List (PyStr × PyStr)) :
    readAs (rawRowToAhbLine.lineOf p g st row group vpe desc bed) = readAs (rawRowToAhbLine.lineOf p g' st' row group vpe desc bed') := by
  unfold rawRowToAhbLine.lineOf readAs
  simp only [bind, Except.bind, hp]

/-- a heading row is read as the same in every state -/
theorem rawRow_heading {p : PyStr} {g g' : Fin (2 ^ 128)} {st st' : CsvState} {row : RawRow} (hp : row.subscript p = .error .keyError) :
    readAs (rawRowToAhbLine p g st row) = readAs (rawRowToAhbLine p g' st' row) := by
  unfold rawRowToAhbLine
  simp only [bind, Except.bind]
  cases row.subscript py!"Codes und Qualifier" with
  | error e => rfl
  | ok codes =>
    cases row.subscript py!"Beschreibung" with
    | error e => rfl
    | ok besch =>
      cases row.subscript py!"Bedingung" with
      | error e => rfl
      | ok bed =>
        cases row.subscript py!"Segment Gruppe" with
        | error e => rfl
        | ok gruppe =>
          simp only []
          split
          · exact lineOf_missing hp _ _ _ _ _
          · cases gruppe with
            | none => rfl
            | some g =>
              simp only []
              split
              · rfl
              · exact lineOf_missing hp _ _ _ _ _

def linesAs (r : PyRes (CsvState × List AhbLine)) : PyRes (List AhbLine) := r.map fun x => x.2.map AhbLine.withoutPosition

theorem readLoop_step {p : PyStr} {guid guid' : Nat → Fin (2 ^ 128)} {i j : Nat} {st st' : CsvState} {row : RawRow} {rows : List RawRow}
    (h : readAs (rawRowToAhbLine p (guid i) st row) = readAs (rawRowToAhbLine p (guid' j) st' row))
    (ih : ∀ s s' : CsvState, s.currentSectionName = s'.currentSectionName →
      linesAs (readLoop p guid (i + 1) s rows) = linesAs (readLoop p guid' (j + 1) s' rows)) :
    linesAs (readLoop p guid i st (row :: rows)) = linesAs (readLoop p guid' j st' (row :: rows)) := by
  simp only [readLoop, bind, Except.bind]
  cases h1 : rawRowToAhbLine p (guid i) st row with
  | error e =>
    cases h2 : rawRowToAhbLine p (guid' j) st' row with
    | error e' => rw [h1, h2] at h; cases h; rfl
    | ok y => rw [h1, h2] at h; cases h
  | ok x =>
    cases h2 : rawRowToAhbLine p (guid' j) st' row with
    | error e' => rw [h1, h2] at h; cases h
    | ok y =>
      rw [h1, h2] at h
      obtain ⟨s1, o1⟩ := x
      obtain ⟨s2, o2⟩ := y
      simp only [readAs, Except.map, Except.ok.injEq, Prod.mk.injEq] at h
      have := ih s1 s2 h.1
      simp only []
      cases h3 : readLoop p guid (i + 1) s1 rows with
      | error e =>
        cases h4 : readLoop p guid' (j + 1) s2 rows with
        | error e' => rw [h3, h4] at this; cases this; rfl
        | ok y => rw [h3, h4] at this; cases this
      | ok x =>
        cases h4 : readLoop p guid' (j + 1) s2 rows with
        | error e' => rw [h3, h4] at this; cases this
        | ok y =>
          rw [h3, h4] at this
          simp only [linesAs, Except.map, Except.ok.injEq] at this
          cases o1 with
          | none =>
            cases o2 with
            | none => simp only [linesAs, Except.map, pure, Except.pure, this]
            | some l2 => cases h.2
          | some l1 =>
            cases o2 with
            | none => cases h.2
            | some l2 =>
              have hl : l1.withoutPosition = l2.withoutPosition := Option.some.inj h.2
              simp only [linesAs, Except.map, pure, Except.pure, List.map_cons, this, Except.ok.injEq, List.cons.injEq, and_true]
              exact hl

theorem readLoop_linesAs {p : PyStr} {guid guid' : Nat → Fin (2 ^ 128)} (rows : List RawRow) : ∀ (i j : Nat) (st st' : CsvState),
    st.currentSectionName = st'.currentSectionName →
    linesAs (readLoop p guid i st rows) = linesAs (readLoop p guid' j st' rows) := by
  induction rows with
  | nil => intro i j st st' _; rfl
  | cons row rows ih => intro i j st st' hs; exact readLoop_step (rawRow_readAs hs) (fun s s' h => ih _ _ s s' h)

/-- a block that begins with a heading row is read the same in every state -/
theorem readLoop_section {p : PyStr} (hp : p ∉ fixedColumns) {guid guid' : Nat → Fin (2 ^ 128)} {i j : Nat} {st st' : CsvState}
    {rows : List RawRow} (h : rows = [] ∨ ∃ hd rest, rows = hd :: rest ∧ ∀ key, hd.HasColumn key → key ∈ fixedColumns) :
    linesAs (readLoop p guid i st rows) = linesAs (readLoop p guid' j st' rows) := by
  rcases h with rfl | ⟨hd, rest, rfl, h⟩
  · rfl
  · refine readLoop_step (rawRow_heading ?_) (fun s s' h => readLoop_linesAs _ _ _ s s' h)
    unfold RawRow.subscript
    cases hg : dictGet p hd with
    | none => rfl
    | some v => exact absurd (h p ⟨v, hg⟩) hp

theorem readLoop_append {p : PyStr} {guid : Nat → Fin (2 ^ 128)} {b : List RawRow} {st1 st' : CsvState} {l2 : List AhbLine} (a : List RawRow) :
    ∀ (i : Nat) (st : CsvState) (l1 : List AhbLine), readLoop p guid i st a = .ok (st1, l1) →
      readLoop p guid (i + a.length) st1 b = .ok (st', l2) → readLoop p guid i st (a ++ b) = .ok (st', l1 ++ l2) := by
  induction a with
  | nil => intro i st l1 h1 h2; cases h1; exact h2
  | cons row a ih =>
    intro i st l1 h1 h2
    rw [List.cons_append]
    simp only [readLoop, bind, Except.bind] at h1 ⊢
    cases hr : rawRowToAhbLine p (guid i) st row with
    | error e => rw [hr] at h1; cases h1
    | ok x =>
      obtain ⟨st2, line⟩ := x
      rw [hr] at h1
      simp only [] at h1 ⊢
      cases hl : readLoop p guid (i + 1) st2 a with
      | error e => rw [hl] at h1; cases h1
      | ok y =>
        obtain ⟨st3, lines⟩ := y
        rw [hl] at h1
        have hi : i + (row :: a).length = i + 1 + a.length := by simp only [List.length_cons]; omega
        rw [hi] at h2
        cases line with
        | none => cases h1; rw [ih _ _ _ hl h2]; rfl
        | some l => cases h1; rw [ih _ _ _ hl h2]; rfl

theorem reader_new {guid : Nat → Fin (2 ^ 128)} {records : List (List PyStr)} {pruefi : Option PyStr} {p : PyStr} {merged : List RawRow}
    {st : CsvState} {lines : List AhbLine} (h1 : choosePruefidentifikator pruefi (dictReaderFields records) = .ok p)
    (h2 : mergeSectionOnlyLines (dictReaderRows records) = .ok merged) (h3 : readLoop p guid 0 {} merged = .ok (st, lines)) :
    CsvReader.new guid records pruefi = .ok { rows := lines, pruefidentifikator := p, bedingungen := st.bedingungen } := by
  unfold CsvReader.new
  simp only [bind, Except.bind, h1, h2, h3]
  rfl

end Verif
