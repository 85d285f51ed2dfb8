import Verif.Proofs.CsvPruefi
import Verif.Props.Csv
import Verif.Props.Relabel
/-!
# C131: the pruefidentifikator only selects the expressions
-/

namespace Verif

/-- **C131** if a CSV file can be read with two pruefidentifikators, then the two readings have the same rows, apart from the expressions, and the
same conditions. -/
theorem C131_only_expressions {guid : Nat → Fin (2 ^ 128)} {records : List (List PyStr)} {p q : Option PyStr} {r r' : CsvReader}
    (h : CsvReader.new guid records p = .ok r) (h' : CsvReader.new guid records q = .ok r') :
    r.rows.map (fun l => { l with ahbExpression := none }) = r'.rows.map (fun l => { l with ahbExpression := none }) ∧
      r.extractConditionTexts = r'.extractConditionTexts := by
  obtain ⟨p, merged, st, lines, h1, h2, h3, rfl⟩ := reader_ok h
  obtain ⟨q, merged', st', lines', h1', h2', h3', rfl⟩ := reader_ok h'
  rw [h2] at h2'
  cases h2'
  obtain ⟨rfl, hl⟩ := readLoop_pruefi _ _ _ _ _ _ _ h3 h3'
  exact ⟨hl, rfl⟩

/-- **C131 (every column)** if a CSV file can be read with a pruefidentifikator, then it can be read with every other column of the header whose
cells are missing, empty or not blank. -/
theorem C131_every_column {guid : Nat → Fin (2 ^ 128)} {header : List PyStr} {records : List (List PyStr)} {p q : PyStr} {r : CsvReader}
    (hp : p ∉ ahbColumns) (h : CsvReader.new guid (header :: records) (some p) = .ok r) (hq : q ∈ header) (hq0 : q ≠ [])
    (hc : ∀ record ∈ records, ∀ c, cellAt header record q = some (some c) → c = [] ∨ strip c ≠ []) :
    ∃ r', CsvReader.new guid (header :: records) (some q) = .ok r' ∧ r'.pruefidentifikator = q := by
  obtain ⟨p', merged, st, lines, h1, h2, h3, rfl⟩ := reader_ok h
  have hp0 : p ≠ [] := fun h0 => hp (by rw [h0]; decide)
  have e1 := choose_expression (header := header) (.inl ⟨rfl, hp0⟩ : OnlyExpressionColumn (some p) header p)
  have e2 := choose_expression (header := header) (.inl ⟨rfl, hq0⟩ : OnlyExpressionColumn (some q) header q)
  have : p' = p := Except.ok.inj (h1.symm.trans e1)
  subst this
  have hrows : ∀ row ∈ dictReaderRows (header :: records), ReadableToo p' q row := by
    intro row hm
    obtain ⟨record, hrec, rfl⟩ := List.mem_map.1 hm
    have hne : record ≠ [] := by
      have := (List.mem_filter.1 hrec).2
      intro h0
      rw [h0] at this
      cases this
    have hcell := dictGet_row (row_of_record header record hne) q
    refine .inl ⟨record[lastColumn header q]?, ?_, ?_⟩
    · rw [hcell, cellAt, if_pos hq]
    · intro c h0
      refine hc record (List.mem_filter.1 hrec).1 c ?_
      rw [cellAt, if_pos hq, h0]
  obtain ⟨⟨st', lines'⟩, h4⟩ := readLoop_too merged (mergeLoop_too hp _ hrows _ _ h2) _ _ _ h3
  exact ⟨_, reader_new e2 h2 h4, rfl⟩

/-- **C131 (flat AHB)** in the flat AHBs, too, the lines are the same apart from the expressions if every row says something besides its
expression. -/
theorem C131_flat {guid : Nat → Fin (2 ^ 128)} {records : List (List PyStr)} {p q : Option PyStr} {r r' : CsvReader} {f f' : FlatAhb}
    (h : CsvReader.new guid records p = .ok r) (h' : CsvReader.new guid records q = .ok r') (hf : r.toFlatAhb = .ok f) (hf' : r'.toFlatAhb = .ok f')
    (hi : ∀ l ∈ r.rows, ({ l with ahbExpression := none } : AhbLine).holdsAnyInformation = true) :
    f.lines.map (fun l => { l with ahbExpression := none }) = f'.lines.map (fun l => { l with ahbExpression := none }) := by
  obtain ⟨hl, _⟩ := C131_only_expressions h h'
  have hx : ∀ (r : CsvReader) (f : FlatAhb), r.toFlatAhb = .ok f → f.lines = r.rows.filter AhbLine.holdsAnyInformation := by
    intro r f h
    have hx : r.toFlatAhb = FlatAhb.new { pruefidentifikator := r.pruefidentifikator } (r.rows.filter AhbLine.holdsAnyInformation) := rfl
    rw [hx] at h
    unfold FlatAhb.new at h
    simp only [bind, Except.bind, pure, Except.pure] at h
    split at h
    · cases h
    · cases h; rfl
  have hmono : ∀ l : AhbLine, ({ l with ahbExpression := none } : AhbLine).holdsAnyInformation = true → l.holdsAnyInformation = true := by
    intro l
    have hn : AhbLine.holdsField none = false := rfl
    simp only [AhbLine.holdsAnyInformation, hn, Bool.or_false, Bool.or_eq_true]
    exact Or.inl
  rw [hx r f hf, hx r' f' hf']
  have e1 : r.rows.filter AhbLine.holdsAnyInformation = r.rows := List.filter_eq_self.2 fun l hm => hmono l (hi l hm)
  have e2 : r'.rows.filter AhbLine.holdsAnyInformation = r'.rows := List.filter_eq_self.2 fun l hm => by
    refine hmono l ?_
    have : ({ l with ahbExpression := none } : AhbLine) ∈ r.rows.map (fun l => { l with ahbExpression := none }) := by
      rw [hl]
      exact List.mem_map.2 ⟨l, hm, rfl⟩
    obtain ⟨l', hm', he⟩ := List.mem_map.1 this
    rw [← he]
    exact hi l' hm'
  rw [e1, e2, hl]

/-- **C131 (locations)** then the lines of the two flat AHBs have the same locations, too, or neither can be located. -/
theorem C131_locations {guid : Nat → Fin (2 ^ 128)} {records : List (List PyStr)} {p q : Option PyStr} {r r' : CsvReader} {f f' : FlatAhb}
    (h : CsvReader.new guid records p = .ok r) (h' : CsvReader.new guid records q = .ok r') (hf : r.toFlatAhb = .ok f) (hf' : r'.toFlatAhb = .ok f')
    (hi : ∀ l ∈ r.rows, ({ l with ahbExpression := none } : AhbLine).holdsAnyInformation = true) (sgh : Sgh) :
    SameOutcome (fun x x' => x.map Prod.snd = x'.map Prod.snd) (determineLocations sgh f.lines) (determineLocations sgh f'.lines) := by
  refine C93_locations sgh ?_
  have e := C131_flat h h' hf hf' hi
  generalize f.lines = a at e
  generalize f'.lines = b at e
  induction a generalizing b with
  | nil =>
    cases b with
    | nil => exact .nil
    | cons _ _ => cases e
  | cons x a ih =>
    cases b with
    | nil => cases e
    | cons y b =>
      simp only [List.map_cons, List.cons.injEq] at e
      refine .cons ⟨?_, ?_, ?_, ?_⟩ (ih b e.2)
      · have := congrArg AhbLine.segmentGroupKey e.1; exact this
      · have := congrArg AhbLine.segmentCode e.1; exact this
      · have := congrArg AhbLine.dataElement e.1; exact this
      · have := congrArg AhbLine.valuePoolEntry e.1; exact this

def exTwoPruefis : List (List PyStr) :=
  [[[], py!"Segment Gruppe", py!"Segment", py!"Datenelement", py!"Codes und Qualifier", py!"Beschreibung", py!"11042", py!"Bedingung", py!"11043"],
   [py!"1", py!"Kopfsegment", [], [], [], [], [], [], []],
   [py!"2", [], py!"UNH", [], [], [], py!"Muss", [], []],
   [py!"3", [], py!"UNH", py!"0065", py!"UTILMD", py!"Stammdaten", py!"X [1]", py!"[1] Wenn A", py!"X"]]

/-- a file that can be read with two pruefidentifikators -/
example : ((CsvReader.new (fun n => Fin.ofNat _ n) exTwoPruefis (some py!"11042")).toOption.map fun r =>
      (r.rows.map (·.ahbExpression), r.rows.all fun l => ({ l with ahbExpression := none } : AhbLine).holdsAnyInformation)) =
      some ([some py!"Muss", some py!"X [1]"], true) ∧
    ((CsvReader.new (fun n => Fin.ofNat _ n) exTwoPruefis (some py!"11043")).toOption.map fun r => r.rows.map (·.ahbExpression)) =
      some [none, some py!"X"] ∧
    ((CsvReader.new (fun n => Fin.ofNat _ n) exTwoPruefis (some py!"11042")).toOption.bind fun r => r.toFlatAhb.toOption).isSome = true ∧
    ((CsvReader.new (fun n => Fin.ofNat _ n) exTwoPruefis (some py!"11043")).toOption.bind fun r => r.toFlatAhb.toOption).isSome = true := by
  decide +kernel

/-- the two columns of the example meet the hypotheses of `C131_every_column` -/
example : py!"11042" ∉ ahbColumns ∧ py!"11043" ∈ exTwoPruefis.headD [] ∧
    (exTwoPruefis.tail.all fun record => match cellAt (exTwoPruefis.headD []) record py!"11043" with
      | some (some c) => c.isEmpty || !(strip c).isEmpty
      | _ => true) = true := by
  decide +kernel

/-- a blank cell that is not empty raises an exception, so it has to be excluded -/
example : (CsvReader.new (fun n => Fin.ofNat _ n) (exTwoPruefis ++
      [[py!"4", [], py!"BGM", [], [], [], py!"Muss", [], py!" "]]) (some py!"11042")).toOption.isSome = true ∧
    (match CsvReader.new (fun n => Fin.ofNat _ n) (exTwoPruefis ++
      [[py!"4", [], py!"BGM", [], [], [], py!"Muss", [], py!" "]]) (some py!"11043") with
      | .error .valueError => true
      | _ => false) = true := by
  decide +kernel

end Verif
