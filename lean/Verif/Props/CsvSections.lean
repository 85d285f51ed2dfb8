import Verif.Proofs.CsvSections
import Verif.Props.Csv
/-!
# C129: the sections of a CSV file are read independently of each other
-/

namespace Verif

/-- where a file may be divided: above a heading, the row in front of which is no heading -/
def Divides (header : List PyStr) (first second : List (List PyStr)) : Prop :=
  (∀ r, (dictReaderRows (header :: first)).getLast? = some r → ¬ ∃ g, SectionOnly r g) ∧
  ∀ r, (dictReaderRows (header :: second)).head? = some r → ∃ g, SectionOnly r g

/-- **C129** a file can be read if and only if the sections above and below any of its headings can be read as files of their own
(each with the header); its rows are the rows of the first file followed by the rows of the second one, apart from the random GUIDs and the
positions, and its conditions are those of the first file overwritten by those of the second one. A given pruefidentifikator must not be the
name of one of the other columns. -/
theorem C129_sections (guid guid₁ guid₂ : Nat → Fin (2 ^ 128)) {header : List PyStr} {first second : List (List PyStr)} (pruefi : Option PyStr)
    (hpruefi : ∀ s, pruefi = some s → s ∉ [py!"Segment Gruppe", py!"Segment", py!"Datenelement", py!"Codes und Qualifier", py!"Beschreibung",
      py!"Bedingung"]) (hd : Divides header first second) :
    ((∃ whole, CsvReader.new guid (header :: (first ++ second)) pruefi = .ok whole) ↔
      (∃ r₁, CsvReader.new guid₁ (header :: first) pruefi = .ok r₁) ∧ ∃ r₂, CsvReader.new guid₂ (header :: second) pruefi = .ok r₂) ∧
    ∀ whole r₁ r₂, CsvReader.new guid (header :: (first ++ second)) pruefi = .ok whole → CsvReader.new guid₁ (header :: first) pruefi = .ok r₁ →
      CsvReader.new guid₂ (header :: second) pruefi = .ok r₂ →
      whole.rows.map AhbLine.withoutPosition = r₁.rows.map AhbLine.withoutPosition ++ r₂.rows.map AhbLine.withoutPosition ∧
        OverwrittenBy r₁.extractConditionTexts r₂.extractConditionTexts whole.extractConditionTexts := by
  have hrows : dictReaderRows (header :: (first ++ second)) = dictReaderRows (header :: first) ++ dictReaderRows (header :: second) := by
    simp [dictReaderRows]
  have hmerge := mergeLoop_append (b := dictReaderRows (header :: second)) (dictReaderRows (header :: first)) [] (fun _ => rfl)
    (fun r hr => (sectionOnly?_none r).2 (hd.1 r hr))
  have hfix : ∀ {p : PyStr} {fields : Option (List PyStr)}, choosePruefidentifikator pruefi fields = .ok p → p ∉ fixedColumns :=
    choose_fixed fun s hs hmem => by
      rcases List.mem_cons.1 hmem with rfl | h
      · rfl
      · exact absurd h (hpruefi s hs)
  have hs0 : SectionState [] none := .inl ⟨by simp, rfl⟩
  refine ⟨⟨?_, ?_⟩, ?_⟩
  · rintro ⟨whole, h⟩
    obtain ⟨p, merged, st, lines, h1, h2, h3, rfl⟩ := reader_ok h
    rw [mergeSectionOnlyLines, hrows, hmerge] at h2
    cases ha : mergeLoop [] (dictReaderRows (header :: first)) with
    | error e => rw [ha] at h2; cases h2
    | ok x =>
      cases hb : mergeLoop [] (dictReaderRows (header :: second)) with
      | error e => rw [ha, hb] at h2; cases h2
      | ok y =>
        rw [ha, hb] at h2
        cases h2
        obtain ⟨st1, l1, l2, h4, h5, rfl⟩ := readLoop_prefix _ _ _ _ h3
        have e1 := readLoop_linesAs (p := p) (guid := guid) (guid' := guid₁) x 0 0 {} {} rfl
        have e2 := readLoop_section (hfix h1) (p := p) (guid := guid) (guid' := guid₂) (i := 0 + x.length) (j := 0) (st := st1) (st' := {})
          (merged_head hd.2 hb)
        rw [h4] at e1
        rw [h5] at e2
        constructor
        · cases hx : readLoop p guid₁ 0 {} x with
          | error e => rw [hx] at e1; cases e1
          | ok r => obtain ⟨s, ls⟩ := r; exact ⟨_, reader_new h1 ha hx⟩
        · cases hx : readLoop p guid₂ 0 {} y with
          | error e => rw [hx] at e2; cases e2
          | ok r => obtain ⟨s, ls⟩ := r; exact ⟨_, reader_new h1 hb hx⟩
  · rintro ⟨⟨r₁, hr1⟩, ⟨r₂, hr2⟩⟩
    obtain ⟨p, x, s1, l1, h1, ha, h3, rfl⟩ := reader_ok hr1
    obtain ⟨p', y, s2, l2, h1', hb, h3', rfl⟩ := reader_ok hr2
    have : p' = p := by
      rw [show dictReaderFields (header :: second) = dictReaderFields (header :: first) from rfl, h1] at h1'
      exact (Except.ok.inj h1').symm
    subst this
    have e1 := readLoop_linesAs (p := p') (guid := guid) (guid' := guid₁) x 0 0 {} {} rfl
    rw [h3] at e1
    cases hx : readLoop p' guid 0 {} x with
    | error e => rw [hx] at e1; cases e1
    | ok r =>
      obtain ⟨s, ls⟩ := r
      have e2 := readLoop_section (hfix h1) (p := p') (guid := guid) (guid' := guid₂) (i := 0 + x.length) (j := 0) (st := s) (st' := {})
        (merged_head hd.2 hb)
      rw [h3'] at e2
      cases hy : readLoop p' guid (0 + x.length) s y with
      | error e => rw [hy] at e2; cases e2
      | ok r =>
        obtain ⟨s', ls'⟩ := r
        refine ⟨_, reader_new h1 (merged := x ++ y) ?_ (readLoop_append _ _ _ _ hx hy)⟩
        rw [mergeSectionOnlyLines, hrows, hmerge]
        rw [mergeSectionOnlyLines] at ha hb
        rw [ha, hb]
        rfl
  · rintro whole r₁ r₂ h hr1 hr2
    obtain ⟨p, merged, st, lines, h1, h2, h3, rfl⟩ := reader_ok h
    obtain ⟨p₁, x, s1, l1, h1₁, ha, h3₁, rfl⟩ := reader_ok hr1
    obtain ⟨p₂, y, s2, l2, h1₂, hb, h3₂, rfl⟩ := reader_ok hr2
    have hp1 : p₁ = p := by
      rw [show dictReaderFields (header :: first) = dictReaderFields (header :: (first ++ second)) from rfl, h1] at h1₁
      exact (Except.ok.inj h1₁).symm
    have hp2 : p₂ = p := by
      rw [show dictReaderFields (header :: second) = dictReaderFields (header :: (first ++ second)) from rfl, h1] at h1₂
      exact (Except.ok.inj h1₂).symm
    subst hp1 hp2
    rw [mergeSectionOnlyLines] at ha hb
    rw [mergeSectionOnlyLines, hrows, hmerge, ha, hb] at h2
    cases h2
    have c := (readLoop_ok _ _ _ _ [] hs0 _ h3).2.1
    have c1 := (readLoop_ok _ _ _ _ [] hs0 _ h3₁).2.1
    have c2 := (readLoop_ok _ _ _ _ [] hs0 _ h3₂).2.1
    obtain ⟨st1, k1, k2, h4, h5, rfl⟩ := readLoop_prefix _ _ _ _ h3
    have e1 := readLoop_linesAs (p := p₂) (guid := guid) (guid' := guid₁) x 0 0 {} {} rfl
    have e2 := readLoop_section (hfix h1) (p := p₂) (guid := guid) (guid' := guid₂) (i := 0 + x.length) (j := 0) (st := st1) (st' := {})
      (merged_head hd.2 hb)
    rw [h4, h3₁] at e1
    rw [h5, h3₂] at e2
    simp only [linesAs, Except.map, Except.ok.injEq] at e1 e2
    refine ⟨by simp only [List.map_append, e1, e2], fun k t => ?_⟩
    show (k, t) ∈ st.bedingungen ↔ (k, t) ∈ s2.bedingungen ∨ (¬ ∃ t', (k, t') ∈ s2.bedingungen) ∧ (k, t) ∈ s1.bedingungen
    rw [c, c1, c2, List.flatMap_append, dictUpdate_append]
    exact mem_dictUpdate_over (nodup_dictUpdate (by simp)) _

/-- records that form one section or several: the first row is a heading, the last row is not -/
def IsSection (header : List PyStr) (records : List (List PyStr)) : Prop :=
  ∃ first rows last, dictReaderRows (header :: records) = first :: (rows ++ [last]) ∧ (∃ g, SectionOnly first g) ∧ ¬ ∃ g, SectionOnly last g

/-- **C129 (all sections)** a file that consists of sections can be read if and only if each section can be read as a file of its own (with the
header), and its rows are the rows of the sections one after the other, apart from the random GUIDs and the positions. -/
theorem C129_all_sections (guid : Nat → Fin (2 ^ 128)) {header : List PyStr} (pruefi : Option PyStr)
    (hpruefi : ∀ s, pruefi = some s → s ∉ [py!"Segment Gruppe", py!"Segment", py!"Datenelement", py!"Codes und Qualifier", py!"Beschreibung",
      py!"Bedingung"]) (sections : List (List (List PyStr))) (hne : sections ≠ []) (hs : ∀ s ∈ sections, IsSection header s) :
    ((∃ whole, CsvReader.new guid (header :: sections.flatten) pruefi = .ok whole) ↔
      ∀ s ∈ sections, ∃ r, CsvReader.new guid (header :: s) pruefi = .ok r) ∧
    ∀ whole rs, CsvReader.new guid (header :: sections.flatten) pruefi = .ok whole →
      List.Forall₂ (fun s r => CsvReader.new guid (header :: s) pruefi = .ok r) sections rs →
      whole.rows.map AhbLine.withoutPosition = (rs.flatMap CsvReader.rows).map AhbLine.withoutPosition := by
  induction sections with
  | nil => exact absurd rfl hne
  | cons s rest ih =>
    cases rest with
    | nil =>
      simp only [List.flatten_cons, List.flatten_nil, List.append_nil, List.mem_singleton, forall_eq, true_and]
      intro whole rs hw hf
      cases hf with
      | cons h hf =>
        cases hf
        rw [hw] at h
        cases h
        simp
    | cons s' rest =>
      have hdiv : Divides header s (s' :: rest).flatten := by
        constructor
        · intro r hr
          obtain ⟨f, rows, l, h1, _, h3⟩ := hs s (by simp)
          rw [h1, List.getLast?_cons, List.getLast?_append] at hr
          simp only [List.getLast?_singleton, Option.some_or, Option.getD_some, Option.some.injEq] at hr
          subst hr
          exact h3
        · intro r hr
          obtain ⟨f, rows, l, h1, h2, _⟩ := hs s' (by simp)
          have : dictReaderRows (header :: (s' :: rest).flatten) = dictReaderRows (header :: s') ++ dictReaderRows (header :: rest.flatten) := by
            simp [dictReaderRows]
          rw [this, h1] at hr
          cases hr
          exact h2
      obtain ⟨iff1, rows1⟩ := ih (by simp) (fun x hx => hs x (List.mem_cons_of_mem _ hx))
      obtain ⟨iff2, rows2⟩ := C129_sections guid guid guid pruefi hpruefi hdiv
      rw [List.flatten_cons]
      refine ⟨?_, ?_⟩
      · rw [iff2, iff1]
        simp only [List.forall_mem_cons]
      · intro whole rs hw hf
        cases hf with
        | @cons _ r _ rs h hf =>
          obtain ⟨w2, hw2⟩ := (iff2.1 ⟨whole, hw⟩).2
          rw [(rows2 whole r w2 hw h hw2).1, rows1 w2 rs hw2 hf]
          simp

def exHeader : List PyStr := [[], py!"Segment Gruppe", py!"Segment", py!"Datenelement", py!"Codes und Qualifier", py!"Beschreibung", py!"11042",
  py!"Bedingung"]

def exFirst : List (List PyStr) :=
  [[py!"1", py!"Nachrichten-Kopfsegment", [], [], [], [], [], []], [py!"2", [], py!"UNH", [], [], [], [], []],
   [py!"3", [], py!"UNH", py!"0065", py!"UTILMD", py!"Stammdaten", py!"X [1]", py!"[1] Wenn A [2] Wenn B"]]

def exSecond (heading : PyStr) : List (List PyStr) :=
  [[py!"4", heading, [], [], [], [], [], []], [py!"5", py!"SG2", py!"NAD", py!"3035", py!"MS", py!"Absender", py!"X", py!"[2] Wenn C"]]

/-- a file with two sections -/
example : Divides exHeader exFirst (exSecond py!"Absender") ∧
    ((CsvReader.new (fun n => Fin.ofNat _ n) (exHeader :: (exFirst ++ exSecond py!"Absender")) none).toOption.map fun r =>
      (r.rows.map (·.sectionName), r.extractConditionTexts)) =
      some ([some py!"Nachrichten-Kopfsegment", some py!"Nachrichten-Kopfsegment", some py!"Absender"],
        [(py!"1", py!"Wenn A"), (py!"2", py!"Wenn C")]) := by
  refine ⟨⟨fun r hr => ?_, fun r hr => ⟨py!"Absender", ?_⟩⟩, by decide +kernel⟩
  · rw [← sectionOnly?_none, ← Option.some.inj hr]
    decide +kernel
  · rw [← sectionOnly?_iff, ← Option.some.inj hr]
    decide +kernel

/-- a file with three sections -/
example : ∀ s ∈ [exFirst, exSecond py!"Absender", exSecond py!"Empfänger"], IsSection exHeader s := by
  have h : ∀ s ∈ [exFirst, exSecond py!"Absender", exSecond py!"Empfänger"], (dictReaderRows (exHeader :: s)).length ≥ 2 ∧
      ((dictReaderRows (exHeader :: s)).head?.bind sectionOnly?).isSome = true ∧
      ((dictReaderRows (exHeader :: s)).getLast?.bind sectionOnly?) = none := by decide +kernel
  intro s hs
  obtain ⟨h1, h2, h3⟩ := h s hs
  generalize hr : dictReaderRows (exHeader :: s) = rows at h1 h2 h3
  match rows, h1 with
  | f :: x :: rest, _ =>
    rcases List.eq_nil_or_concat (x :: rest) with h | ⟨init, l, hl⟩
    · cases h
    · rw [List.concat_eq_append] at hl
      refine ⟨f, init, l, by rw [hr, hl], ?_, ?_⟩
      · obtain ⟨g, hg⟩ := Option.isSome_iff_exists.1 h2
        exact ⟨g, (sectionOnly?_iff _ _).1 hg⟩
      · rw [hl, List.getLast?_cons, List.getLast?_append] at h3
        exact (sectionOnly?_none _).1 h3

/-- with a short heading, both the whole file and its second section fail -/
example : CsvReader.new (fun n => Fin.ofNat _ n) (exHeader :: (exFirst ++ exSecond py!"ab")) none = .error .keyError ∧
    CsvReader.new (fun n => Fin.ofNat _ n) (exHeader :: exSecond py!"ab") none = .error .keyError := by decide +kernel

/-- **C129 (necessity)** if the name of another column is given as pruefidentifikator and a heading is short, the section name of the row
above goes on below it: the two sections are not independent. -/
theorem C129_other_column : ∃ whole r₁ r₂,
    CsvReader.new (fun n => Fin.ofNat _ n) (exHeader :: (exFirst ++ exSecond py!"ab")) (some py!"Segment") = .ok whole ∧
    CsvReader.new (fun n => Fin.ofNat _ n) (exHeader :: exFirst) (some py!"Segment") = .ok r₁ ∧
    CsvReader.new (fun n => Fin.ofNat _ n) (exHeader :: exSecond py!"ab") (some py!"Segment") = .ok r₂ ∧
    whole.rows.map AhbLine.withoutPosition ≠ r₁.rows.map AhbLine.withoutPosition ++ r₂.rows.map AhbLine.withoutPosition := by
  have h : ∀ r : PyRes CsvReader, r.toOption.isSome = true → ∃ x, r = .ok x := by
    intro r hr
    cases r with
    | error e => cases hr
    | ok x => exact ⟨x, rfl⟩
  obtain ⟨w, hw⟩ := h (CsvReader.new (fun n => Fin.ofNat _ n) (exHeader :: (exFirst ++ exSecond py!"ab")) (some py!"Segment")) (by decide +kernel)
  obtain ⟨a, ha⟩ := h (CsvReader.new (fun n => Fin.ofNat _ n) (exHeader :: exFirst) (some py!"Segment")) (by decide +kernel)
  obtain ⟨b, hb⟩ := h (CsvReader.new (fun n => Fin.ofNat _ n) (exHeader :: exSecond py!"ab") (some py!"Segment")) (by decide +kernel)
  refine ⟨w, a, b, hw, ha, hb, fun he => ?_⟩
  have key : ((CsvReader.new (fun n => Fin.ofNat _ n) (exHeader :: (exFirst ++ exSecond py!"ab")) (some py!"Segment")).toOption.map
      fun r => r.rows.map AhbLine.withoutPosition) ≠
      ((CsvReader.new (fun n => Fin.ofNat _ n) (exHeader :: exFirst) (some py!"Segment")).toOption.bind fun r =>
        (CsvReader.new (fun n => Fin.ofNat _ n) (exHeader :: exSecond py!"ab") (some py!"Segment")).toOption.map fun r' =>
          r.rows.map AhbLine.withoutPosition ++ r'.rows.map AhbLine.withoutPosition) := by decide +kernel
  rw [hw, ha, hb] at key
  exact key (congrArg some he)

end Verif
