import Verif.Proofs.CsvTwice
import Verif.Props.Csv
/-!
# C127: merging section headings a second time
-/

namespace Verif

/-- **C127, as it should be:** merging the section headings of rows whose headings have been merged already changes nothing. -/
def C127_statement : Prop := ∀ rows out : List RawRow, mergeSectionOnlyLines rows = .ok out → mergeSectionOnlyLines out = .ok out

/-- two headings, the first one with a blank behind it and the second one with a blank in front of it -/
def exBlankRows : List RawRow :=
  [csvRow [py!"0", py!"Nachrichten- ", [], [], [], [], [], []],
   csvRow [py!"1", py!" Kopfsegment", [], [], [], [], [], []],
   csvRow [py!"2", [], py!"UNH", [], [], [], [], []]]

/-- **C127 is false**: of three blanks in a row (here one behind the first heading, one in front of the second one and the one in between)
two are left, so merging once more removes a further one. -/
theorem C127_counterexample : ¬ C127_statement := by
  intro h
  have h1 : mergeSectionOnlyLines exBlankRows = .ok
      [([([], some py!"1"), (py!"Segment Gruppe", some py!"Nachrichten-  Kopfsegment")] ++ contentKeys.map fun key => (key, some [])),
       csvRow [py!"2", [], py!"UNH", [], [], [], [], []]] := by decide +kernel
  exact absurd (h _ _ h1) (by decide +kernel)

/-- **C127 (exactly)** merging once more changes nothing if and only if no heading in the result contains two blanks in a row. -/
theorem C127_exact {rows out : List RawRow} (h : mergeSectionOnlyLines rows = .ok out) :
    mergeSectionOnlyLines out = .ok out ↔ ∀ row ∈ out, ∀ g, SectionOnly row g → ¬ py!"  " <:+: g :=
  (mergeLoop_twice rows [] out h).2

/-- **C127 (second pass)** merging once more never fails and keeps the number of rows. -/
theorem C127_second_pass {rows out : List RawRow} (h : mergeSectionOnlyLines rows = .ok out) :
    ∃ out', mergeSectionOnlyLines out = .ok out' ∧ out'.length = out.length :=
  (mergeLoop_twice rows [] out h).1

/-- **C127 (partial)** for headings without surrounding whitespace and without two blanks in a row merging twice is like merging once.
Missing: other headings, for which it may be false (`C127_counterexample`; see `C127_exact`). -/
theorem C127_tidy_partial {rows out : List RawRow} (h : mergeSectionOnlyLines rows = .ok out)
    (ht : ∀ row ∈ rows, ∀ g, SectionOnly row g → trim g = g ∧ ¬ py!"  " <:+: g) : mergeSectionOnlyLines out = .ok out := by
  rw [C127_exact h]
  have hm := C42_merge h
  clear h
  induction hm with
  | nil => intro row hrow; cases hrow
  | @row r rows out hr _ ih =>
    intro row hrow g hg
    rcases List.mem_cons.1 hrow with rfl | hrow
    · exact absurd ⟨g, hg⟩ hr
    · exact ih (fun x hx => ht x (List.mem_cons_of_mem _ hx)) row hrow g hg
  | @headings hs gs r hd rows out ne hgs hr hh _ ih =>
    intro row hrow g hg
    rcases List.mem_cons.1 hrow with rfl | hrow
    · have hall : ∀ g ∈ gs, g ≠ [] ∧ strip g = g ∧ ¬ py!"  " <:+: g := by
        intro g hg
        obtain ⟨x, hx, hxg⟩ := forall₂_mem hgs.flip hg
        have := ht x (List.mem_append_left _ hx) g hxg
        rw [trim_eq] at this
        exact ⟨hxg.2.1, this⟩
      have hge : g = joinedHeading gs := Option.some.inj (hg.1.symm.trans hh.2.1)
      rw [hge, joinedHeading_eq gs hall]
      exact join_no_double gs hall
    · rcases List.mem_cons.1 hrow with rfl | hrow
      · exact absurd ⟨g, hg⟩ hr
      · exact ih (fun x hx => ht x (List.mem_append_right _ (List.mem_cons_of_mem _ hx))) row hrow g hg

/-- the headings of the example of C42 -/
example : ∃ out, mergeSectionOnlyLines exCsvRows = .ok out ∧ mergeSectionOnlyLines out = .ok out ∧ out.length = 4 ∧
    ∃ row ∈ out, sectionOnly? row = some py!"Nachrichten- Kopfsegment" := ⟨_, rfl, by decide +kernel⟩

/-- the rows of this example meet the hypothesis -/
example : ∀ row ∈ exCsvRows, ∀ g, SectionOnly row g → trim g = g ∧ ¬ py!"  " <:+: g := by
  have h : ∀ row ∈ exCsvRows, ∀ g, sectionOnly? row = some g → trim g = g ∧ ¬ py!"  " <:+: g := by
    intro row hrow g
    simp only [exCsvRows, List.mem_cons, List.not_mem_nil, or_false] at hrow
    rcases hrow with rfl | rfl | rfl | rfl | rfl | rfl <;> intro hg <;>
      first | (cases hg; done) | (cases hg; decide +kernel)
  exact fun row hrow g hg => h row hrow g ((sectionOnly?_iff row g).2 hg)

end Verif
