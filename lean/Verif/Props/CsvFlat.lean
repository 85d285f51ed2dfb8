import Verif.Proofs.CsvFlat
import Verif.Proofs.FlatEdit
import Verif.Props.CsvFile
/-!
# C115: which CSV files become a flat AHB
-/

namespace Verif

/-- **C115** the lines of a CSV file that can be read become a flat AHB iff in every row that is no heading and holds any information,
segment group, segment and data element are empty or look as they should, and (see C24) the lines without segment group that are directly
followed by a line with one cut the lines into pieces of which at most two contain a line of the section "Abschnitts-Kontrollsegment".
Otherwise a `ValueError` is raised. -/
theorem C115_exact {guid : Nat → Fin (2 ^ 128)} {records : List (List PyStr)} {pruefi : Option PyStr} {r : CsvReader} {merged : List RawRow}
    (h : CsvReader.new guid records pruefi = .ok r) (hm : mergeSectionOnlyLines (dictReaderRows records) = .ok merged) :
    ((∃ f, r.toFlatAhb = .ok f) ↔
      (∀ row ∈ merged, (¬ ∃ g, IsHeadingRow row g) → ¬ row.Blank r.pruefidentifikator → row.Convertible) ∧
      ∃ pieces, CutBeforeGroups (r.rows.filter AhbLine.holdsAnyInformation) pieces ∧ controlPieces pieces ≤ 2) ∧
    ((¬ ∃ f, r.toFlatAhb = .ok f) ↔ r.toFlatAhb = .error .valueError) := by
  obtain ⟨p, merged', st, lines, h1, h2, h3, rfl⟩ := reader_ok h
  rw [hm] at h2
  cases h2
  obtain ⟨_, _, h4⟩ := readLoop_ok merged 0 {} st [] (.inl ⟨by simp, rfl⟩) lines h3
  obtain ⟨e1, e2, e3⟩ := linesOf_lines merged [] 0 lines h4
  simp only [Nat.zero_add, List.nil_append] at e1 e2
  have hx : ∀ r : CsvReader, r.toFlatAhb = FlatAhb.new { pruefidentifikator := r.pruefidentifikator }
      (r.rows.filter AhbLine.holdsAnyInformation) := fun _ => rfl
  refine ⟨?_, ?_⟩
  · have hwf : (∀ l ∈ lines.filter AhbLine.holdsAnyInformation, l.WellFormed) ↔
        ∀ row ∈ merged, (¬ ∃ g, IsHeadingRow row g) → ¬ row.Blank p → row.Convertible := by
      constructor
      · intro hl row hrow hh hb
        obtain ⟨j, hj⟩ := List.mem_iff_getElem?.1 hrow
        obtain ⟨l, hlm, hli⟩ := e2 j row hj hh
        obtain ⟨j', row', hj', hi', _, hline⟩ := e1 l hlm
        have : j = j' := by
          rw [hli, Option.some.injEq] at hi'
          exact_mod_cast hi'
        subst this
        rw [hj, Option.some.injEq] at hj'
        subst hj'
        refine (lineOfRow_wellFormed hline).1 (hl l (List.mem_filter.2 ⟨hlm, ?_⟩))
        by_contra hc
        exact hb ((lineOfRow_blank hline).1 (by simpa using hc))
      · intro hr l hl
        obtain ⟨hl, hi⟩ := List.mem_filter.1 hl
        obtain ⟨j, row, hj, _, hh, hline⟩ := e1 l hl
        refine (lineOfRow_wellFormed hline).2 (hr row (List.mem_iff_getElem?.2 ⟨j, hj⟩) hh fun hb => ?_)
        rw [(lineOfRow_blank hline).2 hb] at hi
        cases hi
    rw [hx, ← hwf]
    have := checkLines_acceptable (lines.filter AhbLine.holdsAnyInformation)
    unfold AcceptableLines at this
    rw [← this]
    unfold FlatAhb.new
    simp only [bind, Except.bind, pure, Except.pure]
    cases FlatAhb.checkLines (lines.filter AhbLine.holdsAnyInformation) with
    | ok u => simp
    | error e => simp
  · constructor
    · intro hn
      rcases C43_to_flat_ahb_succeeds { rows := lines, pruefidentifikator := p, bedingungen := st.bedingungen } with hs | hs
      · exact absurd ⟨_, hs⟩ hn
      · exact hs
    · rintro hv ⟨f, hf⟩
      rw [hv] at hf
      cases hf

example : ∃ r merged, CsvReader.new (fun n => Fin.ofNat _ n) exCsvRecords none = .ok r ∧
    mergeSectionOnlyLines (dictReaderRows exCsvRecords) = .ok merged ∧ ∃ f, r.toFlatAhb = .ok f := by
  refine ⟨_, _, rfl, rfl, ?_⟩
  exact ⟨_, rfl⟩

/-- **C115** without a heading "Abschnitts-Kontrollsegment" the second condition is always met -/
theorem C115_no_control_section_partial {guid : Nat → Fin (2 ^ 128)} {records : List (List PyStr)} {pruefi : Option PyStr} {r : CsvReader}
    {merged : List RawRow} (h : CsvReader.new guid records pruefi = .ok r)
    (hm : mergeSectionOnlyLines (dictReaderRows records) = .ok merged)
    (hc : ∀ row ∈ merged, ∀ g, IsHeadingRow row g → trim g ≠ py!"Abschnitts-Kontrollsegment") :
    (∃ f, r.toFlatAhb = .ok f) ↔
      ∀ row ∈ merged, (¬ ∃ g, IsHeadingRow row g) → ¬ row.Blank r.pruefidentifikator → row.Convertible := by
  rw [(C115_exact h hm).1]
  refine ⟨fun hh => hh.1, fun hh => ⟨hh, ?_⟩⟩
  refine ⟨_, (cutBeforeGroups_iff _ _).2 rfl, ?_⟩
  have hz : controlPieces (splitWhen noSgToSg (r.rows.filter AhbLine.holdsAnyInformation)) = 0 := by
    unfold controlPieces
    rw [List.countP_eq_zero]
    intro b hb
    simp only [decide_eq_true_eq, not_exists, not_and]
    intro l hl hs
    have hl : l ∈ r.rows := by
      have := List.mem_flatten.2 ⟨b, hb, hl⟩
      rw [splitWhen_flatten] at this
      exact (List.mem_filter.1 this).1
    obtain ⟨p, merged', st, lines, h1, h2, h3, rfl⟩ := reader_ok h
    rw [hm] at h2
    cases h2
    obtain ⟨_, _, h4⟩ := readLoop_ok merged 0 {} st [] (.inl ⟨by simp, rfl⟩) lines h3
    obtain ⟨e1, e2, e3⟩ := linesOf_lines merged [] 0 lines h4
    simp only [Nat.zero_add, List.nil_append] at e1
    obtain ⟨j, row, hj, _, _, hline⟩ := e1 l hl
    rcases hline.sectionName with ⟨_, hn⟩ | ⟨before, hrow, after, g, habove, hg, _, ⟨_, hn⟩ | ⟨_, t, ht, hn⟩⟩
    · rw [hs] at hn; cases hn
    · rw [hs] at hn; cases hn
    · rw [hs, Option.some.injEq] at hn
      subst hn
      have hmem : hrow ∈ merged := List.mem_of_mem_take (by rw [habove]; simp)
      rcases ht with ⟨_, h⟩ | ⟨_, h⟩ | ⟨_, h⟩ | ⟨_, _, _, h⟩
      · exact absurd h (by decide)
      · exact absurd h (by decide)
      · exact absurd h (by decide)
      · exact hc hrow hmem g hg h.symm
  omega

example : ∃ merged, mergeSectionOnlyLines (dictReaderRows exCsvRecords) = .ok merged ∧ 3 ≤ merged.length ∧
    ∀ row ∈ merged, ∀ g, IsHeadingRow row g → trim g ≠ py!"Abschnitts-Kontrollsegment" := by
  refine ⟨_, rfl, by decide +kernel, ?_⟩
  rintro row hrow g ⟨hg, _⟩ ht
  have key : ∀ row ∈ (mergeSectionOnlyLines (dictReaderRows exCsvRecords)).toOption.getD [],
      (row.cell py!"Segment Gruppe").map trim ≠ some py!"Abschnitts-Kontrollsegment" := by decide +kernel
  refine key row hrow ?_
  rw [hg, Option.map_some, ht]

/-- a file with the incomplete segment group "SG" -/
def exBadGroupText : PyStr :=
  py!",Segment Gruppe,Segment,Datenelement,Codes und Qualifier,Beschreibung,11042,Bedingung\n0,SG,NAD,3035,MS,Absender,X,\n"

def exBadGroupFile : Bytes := encodeUtf8 exBadGroupText

def exBadGroupRecords : List (List PyStr) :=
  [[[], py!"Segment Gruppe", py!"Segment", py!"Datenelement", py!"Codes und Qualifier", py!"Beschreibung", py!"11042",
    py!"Bedingung"],
   [py!"0", py!"SG", py!"NAD", py!"3035", py!"MS", py!"Absender", py!"X", []]]

/-- **C115** the sanity check of CSV files (it only reads the file) does not suffice: a file that passes it, wherever it is stored, need not
be convertible to a flat AHB -/
theorem C115_check_does_not_suffice : ∃ content, (∀ env guid p w, ReadableAt env w.fs p content →
      (checkFileCanBeParsedAsAhbCsv env guid p w).1 = .ok ()) ∧
    ∀ guid r, CsvReader.ofBytes guid ',' content none = .ok r → r.toFlatAhb = .error .valueError := by
  have key : ∀ guid, ∃ r, CsvReader.ofBytes guid ',' exBadGroupFile none = .ok r ∧ r.toFlatAhb = .error .valueError := by
    intro guid
    have h2 : csvRecords ',' {} (fileLines (universalNewlines exBadGroupText)) = (exBadGroupRecords, none) := by decide +kernel
    have h3 : CsvReader.ofBytes guid ',' exBadGroupFile none = CsvReader.new guid exBadGroupRecords none := by
      rw [CsvReader.ofBytes, exBadGroupFile, decodeUtf8_encodeUtf8]
      simp only [bind, Except.bind, h2, CsvReader.ofRecords]
    rw [h3]
    obtain ⟨r, h4⟩ := (C43_reader_succeeds guid exBadGroupRecords none).2
      ((C43_reader_succeeds (fun _ => 0) exBadGroupRecords none).1 ⟨_, rfl⟩)
    have h5 : mergeSectionOnlyLines (dictReaderRows exBadGroupRecords) = .ok (dictReaderRows exBadGroupRecords) := by decide +kernel
    refine ⟨r, h4, (C115_exact h4 h5).2.1 fun hf => ?_⟩
    have hrow : ∃ row ∈ dictReaderRows exBadGroupRecords, row.cell py!"Segment Gruppe" = some py!"SG" := by decide +kernel
    obtain ⟨row, hrow, hcell⟩ := hrow
    have hlook : LooksLikeGroup py!"SG" := .inl ⟨by decide, by decide +kernel, by decide⟩
    have := ((C115_exact h4 h5).1.1 hf).1 row hrow (by
      rintro ⟨g, hg, h3, _⟩
      rw [hcell, Option.some.injEq] at hg
      subst hg
      exact absurd h3 (by decide)) (fun hb => hb.1 ⟨_, hcell, hlook⟩)
    exact absurd ((flatSgRe_iff _).2 (this.1 _ hcell hlook)) (by decide +kernel)
  refine ⟨exBadGroupFile, ?_, ?_⟩
  · intro env guid p w hr
    obtain ⟨r, h, _⟩ := key guid
    exact (C64_check_file env guid p w).1.2 ⟨_, r, hr, h⟩
  · intro guid r h
    obtain ⟨r', h', he⟩ := key guid
    rw [h] at h'
    cases h'
    exact he

end Verif
