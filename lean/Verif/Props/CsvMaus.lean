import Verif.Spec.CsvMaus
import Verif.Props.Csv
import Verif.Props.Requirements
import Verif.Props.Pipeline
/-!
# C122: from the rows of a CSV file to the requirements of a MAUS
-/

namespace Verif

/-! ## the rows and the lines -/

theorem separated_unique {x y a b a' b' : Option PyStr} (h : Separated x y a b) (h' : Separated x y a' b') : a = a' ∧ b = b' := by
  rcases h with ⟨h1, h2, h3⟩ | ⟨h1, h2, h3⟩ <;> rcases h' with ⟨h4, h5, h6⟩ | ⟨h4, h5, h6⟩
  · exact ⟨h2.trans h5.symm, h3.trans h6.symm⟩
  · exact absurd h1 h4
  · exact absurd h4 h1
  · exact ⟨h2.trans h5.symm, h3.trans h6.symm⟩

/-- **C122** a row states at most one requirement on a data element, and at most one for a segment -/
theorem rowStates_unique (p : PyStr) (row : RawRow) :
    (∀ q q', RowStatesField p row q → RowStatesField p row q' → q = q') ∧
    ∀ e e', RowStatesSegment p row e → RowStatesSegment p row e' → e = e' := by
  refine ⟨?_, ?_⟩
  · rintro ⟨d, x, e⟩ ⟨d', x', e'⟩ ⟨_, _, h1, _, h2, _, a, b, h3, h4⟩ ⟨_, _, h1', _, h2', _, a', b', h3', h4'⟩
    obtain ⟨rfl, rfl⟩ := separated_unique h3 h3'
    simp only at h1 h2 h4 h1' h2' h4'
    rw [h1] at h1'
    rw [h2] at h2'
    cases h1'
    cases h2'
    rw [h4, h4']
  · rintro e e' ⟨_, _, _, _, h, _⟩ ⟨_, _, _, _, h', _⟩
    rw [h] at h'
    cases h'
    rfl

theorem statedBy_unique {β : Type} {states : RawRow → β → Prop} (hu : ∀ row x y, states row x → states row y → x = y) {rows : List RawRow}
    {xs ys : List β} (h : StatedBy states rows xs) (h' : StatedBy states rows ys) : xs = ys := by
  induction h generalizing ys with
  | nil => cases h'; rfl
  | skip h _ ih =>
    cases h' with
    | skip _ h' => exact ih h'
    | state hx _ => exact absurd hx (h _)
  | state h _ ih =>
    cases h' with
    | skip hx _ => exact absurd h (hx _)
    | state hx h' => rw [hu _ _ _ h hx, ih h']

/-- the lines of rows state what the rows state -/
theorem linesOf_stated {β : Type} {states : RawRow → β → Prop} {f : AhbLine → Option β} {p : PyStr} {good : RawRow → Prop}
    (hhead : ∀ row, (∃ g, IsHeadingRow row g) → ∀ x, ¬ states row x)
    (hline : ∀ above row l, LineOfRow p above row l → (¬ ∃ g, IsHeadingRow row g) → good row → ∀ x, states row x ↔ f l = some x)
    (rows above : List RawRow) (i : Nat) (ls : List AhbLine) (h : LinesOf p above i rows ls) (hg : ∀ row ∈ rows, good row) :
    StatedBy states rows (ls.filterMap f) := by
  induction rows generalizing above i ls with
  | nil =>
    simp only [LinesOf] at h
    subst h
    exact .nil
  | cons row rows ih =>
    rw [LinesOf] at h
    have hg' : ∀ row ∈ rows, good row := fun r hr => hg r (List.mem_cons_of_mem _ hr)
    rcases h with ⟨hh, h⟩ | ⟨hh, l, ls, rfl, _, hl, h⟩
    · exact .skip (hhead row hh) (ih _ _ _ h hg')
    · have key := hline above row l hl hh (hg row List.mem_cons_self)
      cases hf : f l with
      | none =>
        rw [List.filterMap_cons_none hf]
        refine .skip (fun x hx => ?_) (ih _ _ _ h hg')
        rw [key, hf] at hx
        cases hx
      | some x =>
        rw [List.filterMap_cons_some hf]
        exact .state ((key x).2 hf) (ih _ _ _ h hg')

/-- merging the headings changes nothing -/
theorem merged_stated {β : Type} {states : RawRow → β → Prop} (hsec : ∀ row, (∃ g, SectionOnly row g) → ∀ x, ¬ states row x)
    (hhr : ∀ gs r h, HeadingRow gs r h → ∀ x, ¬ states h x) {rows out : List RawRow} (h : Merged rows out) {xs : List β}
    (hs : StatedBy states out xs) : StatedBy states rows xs := by
  have skips : ∀ (hs rows : List RawRow) (xs : List β), (∀ r ∈ hs, ∃ g, SectionOnly r g) → StatedBy states rows xs →
      StatedBy states (hs ++ rows) xs := by
    intro hs rows xs hh h
    induction hs with
    | nil => exact h
    | cons r hs ih =>
      exact .skip (hsec r (hh r List.mem_cons_self)) (ih fun r hr => hh r (List.mem_cons_of_mem _ hr))
  induction h generalizing xs with
  | nil h =>
    cases hs
    have := skips _ [] [] h .nil
    rwa [List.append_nil] at this
  | row h _ ih =>
    cases hs with
    | skip hn hs => exact .skip hn (ih hs)
    | state hx hs => exact .state hx (ih hs)
  | headings ne hg hr hh _ ih =>
    rename_i hs' gs r h' rows out _
    have hall : ∀ r ∈ hs', ∃ g, SectionOnly r g := by
      intro r hr
      clear ne hh hs
      induction hg with
      | nil => cases hr
      | cons h _ ih' =>
        rcases List.mem_cons.1 hr with rfl | hr
        · exact ⟨_, h⟩
        · exact ih' hr
    cases hs with
    | state hx _ => exact absurd hx (hhr _ _ _ hh _)
    | skip _ hs =>
      refine skips _ _ _ hall ?_
      cases hs with
      | skip hn hs => exact .skip hn (ih hs)
      | state hx hs => exact .state hx (ih hs)

/-- after merging, headings have neither segment nor data element -/
theorem merged_good {rows out : List RawRow} (h : Merged rows out) : ∀ row ∈ out, (¬ ∃ g, SectionOnly row g) ∨
    (row.cell py!"Segment" = some [] ∧ row.cell py!"Datenelement" = some []) := by
  induction h with
  | nil => intro _ hm; cases hm
  | row h _ ih =>
    intro row hm
    rcases List.mem_cons.1 hm with rfl | hm
    · exact .inl h
    · exact ih row hm
  | headings _ _ hr hh _ ih =>
    intro row hm
    rcases List.mem_cons.1 hm with rfl | hm
    · exact .inr ⟨hh.2.2.1 _ (by simp), hh.2.2.1 _ (by simp)⟩
    · rcases List.mem_cons.1 hm with rfl | hm
      · exact .inl hr
      · exact ih row hm

theorem nonEmpty_eq_some {x : Option PyStr} {s : PyStr} : nonEmpty x = some s ↔ x = some s ∧ s ≠ [] := by
  rcases x with _ | ⟨_ | ⟨c, t⟩⟩
  · simp [nonEmpty]
  · simp only [nonEmpty, reduceCtorEq, Option.some.injEq, false_iff, not_and, Decidable.not_not]
    exact fun h => h.symm
  · simp only [nonEmpty, Option.some.injEq]
    exact ⟨fun h => ⟨h, h ▸ List.cons_ne_nil _ _⟩, fun h => h.1⟩

theorem nonEmpty_eq_none {x : Option PyStr} : nonEmpty x = none ↔ ∀ s, x = some s → s = [] := by
  rcases x with _ | ⟨_ | ⟨c, t⟩⟩ <;> simp [nonEmpty]

theorem separated_trimmed {x y a b : Option PyStr} (h : Separated x y a b) : trim (b.getD []) = b.getD [] := by
  have key : ∀ z, trim ((nonBlank z).getD []) = (nonBlank z).getD [] := by
    intro z
    cases z with
    | none => rfl
    | some s =>
      simp only [nonBlank]
      split
      · rfl
      · simp only [Option.getD_some, trim_eq, strip_strip]
  rcases h with ⟨_, _, rfl⟩ | ⟨_, _, rfl⟩ <;> exact key _

theorem line_field {p : PyStr} {above : List RawRow} {row : RawRow} {l : AhbLine} (hl : LineOfRow p above row l)
    (hh : ¬ ∃ g, IsHeadingRow row g) (hg : (¬ ∃ g, SectionOnly row g) ∨ (row.cell py!"Segment" = some [] ∧ row.cell py!"Datenelement" = some []))
    (q : FieldRequirement) : RowStatesField p row q ↔ l.fieldRequirement? = some q := by
  have hsep := hl.entry
  have htrim := separated_trimmed hsep
  constructor
  · rintro ⟨_, _, h1, h2, h3, h4, a, b, h5, h6⟩
    obtain ⟨ha, hb⟩ := separated_unique h5 hsep
    subst ha hb
    have hd : l.dataElement = some q.dataElement := by rw [hl.dataElement, nonEmpty_eq_some]; exact ⟨h1, h2⟩
    have he : l.ahbExpression = some q.expression := by rw [hl.expression, nonEmpty_eq_some]; exact ⟨h3, h4⟩
    simp only [AhbLine.fieldRequirement?, hd, he, if_neg h4, htrim, ← h6]
  · intro h
    unfold AhbLine.fieldRequirement? at h
    split at h
    · rename_i d e hd he
      split at h
      · cases h
      · rename_i hne
        cases h
        rw [hl.dataElement, nonEmpty_eq_some] at hd
        rw [hl.expression, nonEmpty_eq_some] at he
        refine ⟨?_, hh, hd.1, hd.2, he.1, he.2, _, _, hsep, by simp only [htrim]⟩
        rcases hg with hg | ⟨_, hg⟩
        · exact hg
        · rw [hd.1] at hg
          cases hg
          exact absurd rfl hd.2
    · cases h

theorem line_segment {p : PyStr} {above : List RawRow} {row : RawRow} {l : AhbLine} (hl : LineOfRow p above row l)
    (hh : ¬ ∃ g, IsHeadingRow row g) (hg : (¬ ∃ g, SectionOnly row g) ∨ (row.cell py!"Segment" = some [] ∧ row.cell py!"Datenelement" = some []))
    (e : PyStr) : RowStatesSegment p row e ↔ l.segmentRequirement? = some e := by
  constructor
  · rintro ⟨_, _, ⟨s, h1, h2⟩, h3, h4, h5⟩
    have hs : l.segmentCode = some s := by rw [hl.segment, nonEmpty_eq_some]; exact ⟨h1, h2⟩
    have hd : l.dataElement = none := by rw [hl.dataElement, nonEmpty_eq_none]; exact h3
    have he : l.ahbExpression = some e := by rw [hl.expression, nonEmpty_eq_some]; exact ⟨h4, h5⟩
    simp [AhbLine.segmentRequirement?, hs, hd, he, h5]
  · intro h
    unfold AhbLine.segmentRequirement? at h
    split at h
    · rename_i hc
      obtain ⟨hs, hd⟩ := hc
      rw [Option.filter_eq_some_iff] at h
      obtain ⟨he, hne⟩ := h
      cases hs' : l.segmentCode with
      | none => exact absurd hs' hs
      | some s =>
        rw [hl.segment, nonEmpty_eq_some] at hs'
        rw [hl.dataElement, nonEmpty_eq_none] at hd
        rw [hl.expression, nonEmpty_eq_some] at he
        refine ⟨?_, hh, ⟨s, hs'⟩, hd, he⟩
        rcases hg with hg | ⟨hg, _⟩
        · exact hg
        · rw [hs'.1] at hg
          cases hg
          exact absurd rfl hs'.2
    · cases h

/-- the flat AHB states what the rows state -/
theorem flat_stated {guid : Nat → Fin (2 ^ 128)} {records : List (List PyStr)} {pruefi : Option PyStr} {r : CsvReader} {flat : FlatAhb}
    (h : CsvReader.new guid records pruefi = .ok r) (hf : r.toFlatAhb = .ok flat) :
    StatedBy (RowStatesField r.pruefidentifikator) (dictReaderRows records) (flat.lines.filterMap AhbLine.fieldRequirement?) ∧
    StatedBy (RowStatesSegment r.pruefidentifikator) (dictReaderRows records) (flat.lines.filterMap AhbLine.segmentRequirement?) := by
  obtain ⟨_, keep, hlines, hkeep⟩ := C43_to_flat_ahb hf
  obtain ⟨p, merged, st, lines, h1, h2, h3, rfl⟩ := reader_ok h
  obtain ⟨hread, _, h4⟩ := readLoop_ok merged 0 {} st [] (.inl ⟨by simp, rfl⟩) lines h3
  have hm := C42_merge h2
  have hgood := merged_good hm
  have hblank : ∀ l ∈ lines, keep l = false → l.ahbExpression = none := by
    intro l hl hk
    obtain ⟨j, row, hj, _, hh, hrow⟩ := (linesOf_lines merged [] 0 lines h4).1 l hl
    rw [hrow.expression, nonEmpty_eq_none]
    intro t ht
    rcases (hread row (List.mem_of_getElem? hj)).2.2 with hx | ⟨_, hx⟩
    · exact absurd hx hh
    · rcases hx t ht with rfl | ⟨c, hc, hw⟩
      · rfl
      · by_cases hne : t = []
        · exact hne
        · have he : l.ahbExpression = some t := by rw [hrow.expression, nonEmpty_eq_some]; exact ⟨ht, hne⟩
          exact absurd ((hkeep l).1 hk _ (by simp) t he c hc) hw
  have hfilter : ∀ {β : Type} (f : AhbLine → Option β), (∀ l, l.ahbExpression = none → f l = none) →
      (lines.filter keep).filterMap f = lines.filterMap f := by
    intro β f hf
    have : ∀ ls : List AhbLine, (∀ l ∈ ls, l ∈ lines) → (ls.filter keep).filterMap f = ls.filterMap f := by
      intro ls hls
      induction ls with
      | nil => rfl
      | cons l ls ih =>
        have ih := ih fun l hl => hls l (List.mem_cons_of_mem _ hl)
        cases hk : keep l with
        | true => rw [List.filter_cons_of_pos hk, List.filterMap_cons, List.filterMap_cons, ih]
        | false =>
          rw [List.filter_cons_of_neg (by rw [hk]; decide), List.filterMap_cons_none (hf l (hblank l (hls l List.mem_cons_self) hk)), ih]
    exact this lines fun _ h => h
  simp only at hlines
  rw [hlines]
  refine ⟨?_, ?_⟩
  · rw [hfilter _ fun l hl => by simp only [AhbLine.fieldRequirement?, hl]; split <;> simp_all]
    refine merged_stated (fun row hs x hx => hx.1 hs) (fun gs r' h' hh x hx => ?_) hm
      (linesOf_stated (fun row hh x hx => hx.2.1 hh) (fun above row l hl hh hg x => line_field hl hh hg x) merged [] 0 lines h4 hgood)
    obtain ⟨_, _, hd, hne, _⟩ := hx
    rw [hh.2.2.1 _ (by simp)] at hd
    injection hd with hd
    exact hne hd.symm
  · rw [hfilter _ fun l hl => by simp only [AhbLine.segmentRequirement?, hl]; split <;> rfl]
    refine merged_stated (fun row hs x hx => hx.1 hs) (fun gs r' h' hh x hx => ?_) hm
      (linesOf_stated (fun row hh x hx => hx.2.1 hh) (fun above row l hl hh hg x => line_segment hl hh hg x) merged [] 0 lines h4 hgood)
    obtain ⟨_, _, ⟨s, hs, hne⟩, _⟩ := hx
    rw [hh.2.2.1 _ (by simp)] at hs
    cases hs
    exact hne rfl

/-! ## the way to the MAUS -/

/-- **C122 (full statement)** The requirements of the MAUS, from top to bottom, are exactly those which the rows of the CSV file state, from
top to bottom. This is false of the code: `C122_counterexample`. -/
def C122_statement : Prop :=
  ∀ (guid : Nat → Fin (2 ^ 128)) (records : List (List PyStr)) (pruefi : Option PyStr) (r : CsvReader) (flat flat' : FlatAhb)
    (reader : MigLookup) (posStr : AhbLocation → PyStr) (sgh : Sgh) (deep : DeepAhb),
    CsvReader.new guid records pruefi = .ok r → r.toFlatAhb = .ok flat → toDeepAhb reader posStr flat sgh = .ok (flat', deep) →
    StatedBy (RowStatesField r.pruefidentifikator) (dictReaderRows records) ((documentOrder deep.lines).flatMap DocItem.fieldRequirements) ∧
    StatedBy (RowStatesSegment r.pruefidentifikator) (dictReaderRows records) ((documentOrder deep.lines).filterMap DocItem.segmentRequirement?)

/-- **C122** what the rows state is determined: there is exactly one list of requirements on data elements, and one of expressions of
segments -/
theorem C122_stated {guid : Nat → Fin (2 ^ 128)} {records : List (List PyStr)} {pruefi : Option PyStr} {r : CsvReader} {flat : FlatAhb}
    (h : CsvReader.new guid records pruefi = .ok r) (hf : r.toFlatAhb = .ok flat) :
    (∀ fields, StatedBy (RowStatesField r.pruefidentifikator) (dictReaderRows records) fields ↔
      fields = flat.lines.filterMap AhbLine.fieldRequirement?) ∧
    ∀ segments, StatedBy (RowStatesSegment r.pruefidentifikator) (dictReaderRows records) segments ↔
      segments = flat.lines.filterMap AhbLine.segmentRequirement? := by
  obtain ⟨h1, h2⟩ := flat_stated h hf
  refine ⟨fun fields => ⟨fun hs => ?_, ?_⟩, fun segments => ⟨fun hs => ?_, ?_⟩⟩
  · exact statedBy_unique (fun row => (rowStates_unique _ row).1) hs h1
  · rintro rfl; exact h1
  · exact statedBy_unique (fun row => (rowStates_unique _ row).2) hs h2
  · rintro rfl; exact h2

/-- **C122** nothing is invented, changed, repeated or moved: the requirements of the MAUS on data elements are some of those which the rows
of the CSV file state, in their order -/
theorem C122_nothing_invented {guid : Nat → Fin (2 ^ 128)} {records : List (List PyStr)} {pruefi : Option PyStr} {r : CsvReader}
    {flat flat' : FlatAhb} (h : CsvReader.new guid records pruefi = .ok r) (hf : r.toFlatAhb = .ok flat) (reader : MigLookup)
    (posStr : AhbLocation → PyStr) (sgh : Sgh) (deep : DeepAhb) (hd : toDeepAhb reader posStr flat sgh = .ok (flat', deep)) :
    ∃ fields, StatedBy (RowStatesField r.pruefidentifikator) (dictReaderRows records) fields ∧
      ((documentOrder deep.lines).flatMap DocItem.fieldRequirements).Sublist fields :=
  ⟨_, (flat_stated h hf).1, C83_nothing_invented reader posStr flat flat' sgh deep hd⟩

/-- **C122 (partial)** The full statement holds if rows with a data element have a segment, a data element without value pool has one row, a
segment has one row without data element, and the expression of the heading of a group is the one of the segment that opens the group
(these premises are about the lines of the flat AHB; C43 says which row a line comes from). -/
theorem C122_kept_partial {guid : Nat → Fin (2 ^ 128)} {records : List (List PyStr)} {pruefi : Option PyStr} {r : CsvReader}
    {flat flat' : FlatAhb} (h : CsvReader.new guid records pruefi = .ok r) (hf : r.toFlatAhb = .ok flat) (reader : MigLookup)
    (posStr : AhbLocation → PyStr) (sgh : Sgh) (deep : DeepAhb) (hd : toDeepAhb reader posStr flat sgh = .ok (flat', deep)) :
    ((∀ l ∈ flat.lines, l.dataElement ≠ none → l.segmentCode ≠ none) → FreeTextsHaveOneLine flat.lines →
      StatedBy (RowStatesField r.pruefidentifikator) (dictReaderRows records)
        ((documentOrder deep.lines).flatMap DocItem.fieldRequirements)) ∧
    (SegmentsHaveOneLine flat.lines → HeadingsAgree flat.lines →
      StatedBy (RowStatesSegment r.pruefidentifikator) (dictReaderRows records)
        ((documentOrder deep.lines).filterMap DocItem.segmentRequirement?)) := by
  refine ⟨fun h1 h2 => ?_, fun h1 h2 => ?_⟩
  · rw [C83_requirements_kept_partial reader posStr flat flat' sgh deep hd h1 h2]
    exact (flat_stated h hf).1
  · rw [C84_segments_kept_partial reader posStr flat flat' sgh deep hd h1 h2]
    exact (flat_stated h hf).2

/-- **C122** the same for the command line tool: the file that it has written is the JSON text of a MAUS which asks for nothing that the rows
of the CSV file do not state; and under the premises of `C122_kept_partial` it asks for exactly what they state -/
theorem C122_command {guid : Nat → Fin (2 ^ 128)} {delimiter : Char} {content : Bytes} {pruefi : Option PyStr} {flat : FlatAhb}
    (h : FlatAhbOfCsv guid delimiter content pruefi flat) (env : CliEnv) (o : CliOptions) (w : FileWorld) (sgh : Sgh) (root : Xml)
    (hs : InputsStored env w.fs o flat sgh root) (p : FsPath) (hc : o.checkPath = none) (ho : o.outputPath = some p)
    (hok : (cliCommand env o w).1 = .ok ()) :
    ∃ text records maus fields, decodeUtf8 content = .ok text ∧ csvRecords delimiter {} (fileLines text) = (records, none) ∧
      (cliCommand env o w).2.fs.contentAt p = some (mausBytes maus) ∧
      StatedBy (RowStatesField flat.ahbMeta.pruefidentifikator) (dictReaderRows records) fields ∧
      ((documentOrder maus.lines).flatMap DocItem.fieldRequirements).Sublist fields ∧
      ((∀ l ∈ flat.lines, l.dataElement ≠ none → l.segmentCode ≠ none) → FreeTextsHaveOneLine flat.lines →
        (documentOrder maus.lines).flatMap DocItem.fieldRequirements = fields) ∧
      (SegmentsHaveOneLine flat.lines → HeadingsAgree flat.lines →
        StatedBy (RowStatesSegment flat.ahbMeta.pruefidentifikator) (dictReaderRows records)
          ((documentOrder maus.lines).filterMap DocItem.segmentRequirement?)) := by
  obtain ⟨flat', maus, hd, hcont⟩ := (C100_command h env o w sgh root hs p hc ho).2.1 hok
  obtain ⟨r, h1, h2⟩ := h
  unfold CsvReader.ofBytes at h1
  simp only [bind, Except.bind] at h1
  cases ht : decodeUtf8 content with
  | error e => rw [ht] at h1; cases h1
  | ok text =>
    rw [ht] at h1
    simp only at h1
    have hp := (C43_to_flat_ahb h2).1
    match hrec : csvRecords delimiter {} (fileLines text), h1 with
    | (records, none), h1 =>
      have hnew : CsvReader.new guid records pruefi = .ok r := h1
      obtain ⟨s1, s2⟩ := flat_stated hnew h2
      refine ⟨text, records, maus, _, rfl, hrec, hcont, by rw [hp]; exact s1,
        C83_nothing_invented _ _ flat flat' sgh maus hd, fun a b => ?_, fun a b => ?_⟩
      · exact C83_requirements_kept_partial _ _ flat flat' sgh maus hd a b
      · rw [hp]
        exact (C122_kept_partial hnew h2 _ _ sgh maus hd).2 a b
    | ([], some e), h1 => cases h1
    | (header :: rest, some e), h1 =>
      simp only [CsvReader.ofRecords, bind, Except.bind] at h1
      split at h1 <;> cases h1

/-- a CSV file in which name and first name have the same data element -/
def exTwoNames (first : PyStr) : List (List PyStr) :=
  [[[], py!"Segment Gruppe", py!"Segment", py!"Datenelement", py!"Codes und Qualifier", py!"Beschreibung", py!"11042", py!"Bedingung"],
   [py!"0", py!"Nachrichten-Kopfsegment", [], [], [], [], [], []],
   [py!"1", [], py!"UNH", [], [], [], py!"Muss", []],
   [py!"2", [], py!"UNH", py!"0062", py!"Referenz", [], py!"X", []],
   [py!"3", py!"Absender", [], [], [], [], [], []],
   [py!"4", py!"SG2", [], [], [], [], py!"Muss", []],
   [py!"5", py!"SG2", py!"NAD", [], [], [], py!"Muss", []],
   [py!"6", py!"SG2", py!"NAD", py!"3035", py!"Absender", py!"MS", py!"X", []],
   [py!"7", py!"SG2", py!"NAD", py!"3036", py!"Name", [], py!"X", []],
   [py!"8", py!"SG2", py!"NAD", first, py!"Vorname", [], py!"S [3]", []]]

/-- **C122 (counterexample)** the requirement on the first name is lost -/
theorem C122_counterexample : ¬ C122_statement := by
  intro hst
  have h : (((CsvReader.new (fun _ => 0) (exTwoNames py!"3036") none).bind CsvReader.toFlatAhb).bind fun f =>
      (toDeepAhb exReader exPosStr f exSgh).map fun d =>
        (((documentOrder d.2.lines).flatMap DocItem.fieldRequirements).length, (f.lines.filterMap AhbLine.fieldRequirement?).length)) =
      .ok (3, 4) := by decide +kernel
  cases hr : CsvReader.new (fun _ => 0) (exTwoNames py!"3036") none with
  | error e => rw [hr] at h; cases h
  | ok r =>
    rw [hr] at h
    simp only [Except.bind] at h
    cases hf : r.toFlatAhb with
    | error e => rw [hf] at h; cases h
    | ok f =>
      rw [hf] at h
      simp only at h
      cases hd : toDeepAhb exReader exPosStr f exSgh with
      | error e => rw [hd] at h; cases h
      | ok d =>
        rw [hd] at h
        simp only [Except.map, Except.ok.injEq, Prod.mk.injEq] at h
        have hs := (hst _ _ _ r f d.1 exReader exPosStr exSgh d.2 hr hf hd).1
        rw [((C122_stated hr hf).1 _).1 hs] at h
        rw [h.1] at h
        exact absurd h.2 (by decide)

/-- the premises of `C122_kept_partial` are met by the example with another data element for the first name: all four requirements on data
elements and the expressions of the segments arrive -/
theorem exTwoNames_premises : ∃ r flat d, CsvReader.new (fun _ => 0) (exTwoNames py!"3124") none = .ok r ∧ r.toFlatAhb = .ok flat ∧
    toDeepAhb exReader exPosStr flat exSgh = .ok d ∧ (∀ l ∈ flat.lines, l.dataElement ≠ none → l.segmentCode ≠ none) ∧
    FreeTextsHaveOneLine flat.lines ∧ ((documentOrder d.2.lines).flatMap DocItem.fieldRequirements).length = 4 := by
  have h : (((CsvReader.new (fun _ => 0) (exTwoNames py!"3124") none).bind CsvReader.toFlatAhb).bind fun f =>
      (toDeepAhb exReader exPosStr f exSgh).map fun d =>
        (((documentOrder d.2.lines).flatMap DocItem.fieldRequirements).length, f.lines.map fun l =>
          (l.dataElement.isSome, l.segmentCode.isSome), (f.lines.zip f.lines.tail).all fun x =>
          x.1.dataElement.isNone || decide (x.1.dataElement ≠ x.2.dataElement) || x.1.valuePoolEntry.isSome)) =
      .ok (4, [(false, true), (true, true), (false, false), (false, true), (true, true), (true, true), (true, true)], true) := by
    decide +kernel
  cases hr : CsvReader.new (fun _ => 0) (exTwoNames py!"3124") none with
  | error e => rw [hr] at h; cases h
  | ok r =>
    rw [hr] at h
    simp only [Except.bind] at h
    cases hf : r.toFlatAhb with
    | error e => rw [hf] at h; cases h
    | ok f =>
      rw [hf] at h
      simp only at h
      cases hd : toDeepAhb exReader exPosStr f exSgh with
      | error e => rw [hd] at h; cases h
      | ok d =>
        rw [hd] at h
        simp only [Except.map, Except.ok.injEq, Prod.mk.injEq] at h
        refine ⟨r, f, d, rfl, hf, hd, ?_, ?_, h.1⟩
        · intro l hl h1 h2
          have hm : (l.dataElement.isSome, l.segmentCode.isSome) ∈ f.lines.map fun l => (l.dataElement.isSome, l.segmentCode.isSome) :=
            List.mem_map_of_mem hl
          rw [h.2.1, h2] at hm
          cases hx : l.dataElement with
          | none => exact h1 hx
          | some x =>
            rw [hx] at hm
            simp at hm
        · intro n a b ha hb h1 h2 h3
          have hz : (f.lines.zip f.lines.tail)[n]? = some (a, b) := by
            rw [List.getElem?_zip_eq_some]
            exact ⟨ha, by rw [List.getElem?_tail]; exact hb⟩
          have := List.all_eq_true.1 h.2.2 (a, b) (List.mem_of_getElem? hz)
          simp only [Bool.or_eq_true, decide_eq_true_eq, h3, Option.isSome_none, Bool.false_eq_true, or_false] at this
          rcases this with h4 | h4
          · cases hx : a.dataElement with
            | none => exact h1 hx
            | some x => rw [hx] at h4; cases h4
          · exact h4 h2

/-- the premises of `C122_command`: the example of C100 -/
example : ∃ flat, FlatAhbOfCsv (fun n => Fin.ofNat _ n) ',' (encodeUtf8 exPipelineCsv) none flat ∧
    InputsStored exCliEnv (exFs flat) (exOptions none (some exOut)) flat exSgh exMig ∧
    (cliCommand exCliEnv (exOptions none (some exOut)) ⟨exFs flat, []⟩).1 = .ok () := by
  obtain ⟨flat, h1, _, _, ⟨r1, r2⟩, h3⟩ := exPipeline_flat
  exact ⟨flat, h1, exFs_stored flat, ex_output (flatOfCsv_constructed h1) h3 []⟩

end Verif
