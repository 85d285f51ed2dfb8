import Verif.Model.CsvText
import Verif.Spec.CsvText
/-! the tokeniser on CSV texts -/

namespace Verif

/-- the end of the input -/
def Tok.finish (t : Tok) : List (List PyStr) × Option Exc :=
  if t.field ≠ [] ∨ t.state = .inQuoted then ([(t.save .startRecord).fields], none) else ([], none)

/-- the records, character by character: `rest` within a line -/
def csvRest (d : Char) (t : Tok) : PyStr → List (List PyStr) × Option Exc
  | [] => match t.step d none with
    | .error e => ([], some e)
    | .ok t' => if t'.state = .startRecord then (t'.fields :: (Tok.finish {}).1, (Tok.finish {}).2) else t'.finish
  | c :: s => match t.step d (some c) with
    | .error e => ([], some e)
    | .ok t' =>
      if c = '\n' then
        match t'.step d none with
        | .error e => ([], some e)
        | .ok t'' =>
          if t''.state = .startRecord then
            let r := if s = [] then Tok.finish {} else csvRest d {} s
            (t''.fields :: r.1, r.2)
          else if s = [] then t''.finish else csvRest d t'' s
      else csvRest d t' s

/-- the records from the beginning of a line -/
def csvStart (d : Char) (t : Tok) (s : PyStr) : List (List PyStr) × Option Exc := if s = [] then t.finish else csvRest d t s

theorem csvRecords_nil (d : Char) (t : Tok) : csvRecords d t [] = t.finish := rfl

theorem fileLines_eq_nil {s : PyStr} : fileLines s = [] ↔ s = [] := by
  cases s with
  | nil => simp [fileLines]
  | cons c s =>
    simp only [fileLines]
    split
    · simp
    · split <;> simp

theorem csvRecords_rest (d : Char) (s : PyStr) : (∀ t, csvRecords d t (fileLines s) = csvStart d t s) := by
  induction s with
  | nil => intro t; rfl
  | cons c s ih =>
    intro t
    simp only [csvStart, if_neg (List.cons_ne_nil c s)]
    simp only [fileLines]
    split
    · rename_i hc
      subst hc
      simp only [csvRecords, Tok.line, csvRest, if_pos]
      cases h1 : t.step d (some '\n') with
      | error e => rfl
      | ok t' =>
        simp only [Bind.bind, Except.bind]
        cases h2 : t'.step d none with
        | error e => rfl
        | ok t'' =>
          simp only [ih, csvStart]
    · rename_i hc
      simp only [csvRest]
      cases hs : fileLines s with
      | nil =>
        have hs' := fileLines_eq_nil.1 hs
        subst hs'
        simp only [csvRecords, Tok.line]
        cases h1 : t.step d (some c) with
        | error e => rfl
        | ok t' =>
          simp only [Bind.bind, Except.bind, if_neg hc, csvRest]
          cases h2 : t'.step d none with
          | error e => rfl
          | ok t'' => rfl
      | cons l ls =>
        simp only [csvRecords, Tok.line]
        have hne : s ≠ [] := fun h => by rw [h] at hs; simp [fileLines] at hs
        cases h1 : t.step d (some c) with
        | error e => rfl
        | ok t' =>
          simp only [Bind.bind, Except.bind, if_neg hc]
          have := ih t'
          rw [hs] at this
          simp only [csvRecords, csvStart, if_neg hne] at this
          exact this

theorem csvRead_eq (d : Char) (text : PyStr) : csvRead d text = csvStart d {} (universalNewlines text) := csvRecords_rest d _ _

/-! ## cells -/

/-- a plain cell -/
theorem csvRest_plain (d : Char) (F : List PyStr) (r : PyStr) :
    ∀ (s f : PyStr) (σ : TokState), (σ = .inField ∨ (σ = .startField ∧ f = [] ∧ s.head? ≠ some '"')) →
      (∀ c ∈ s, c ≠ d ∧ c ≠ '\n' ∧ c ≠ '\r') → (f ++ s).length ≤ fieldSizeLimit →
      csvRest d { state := σ, field := f, fields := F } (s ++ r) =
        csvRest d { state := if s = [] then σ else .inField, field := f ++ s, fields := F } r
  | [], f, σ, _, _, _ => by simp
  | c :: s, f, σ, hσ, hs, hlen => by
    have hc := hs c (by simp)
    have hl : ¬ fieldSizeLimit ≤ f.length := by simp at hlen; omega
    have hstep : Tok.step d { state := σ, field := f, fields := F } (some c) =
        .ok { state := .inField, field := f ++ [c], fields := F } := by
      rcases hσ with rfl | ⟨rfl, rfl, hq⟩
      · simp [Tok.step, hc.1, hc.2.1, hc.2.2, Tok.add, hl]
      · have : c ≠ '"' := by simpa using hq
        simp only [List.length_nil] at hl
        simp [Tok.step, Tok.stepStartField, hc.1, hc.2.1, hc.2.2, Tok.add, hl, this]
    simp only [List.cons_append, csvRest, hstep, if_neg hc.2.1]
    rw [csvRest_plain d F r s (f ++ [c]) .inField (.inl rfl) (fun x hx => hs x (by simp [hx])) (by simpa using hlen)]
    simp

/-- the inside of a quoted cell -/
theorem csvRest_quoted (d : Char) (F : List PyStr) (r : PyStr) :
    ∀ (s f : PyStr), (f ++ s).length ≤ fieldSizeLimit →
      csvRest d { state := .inQuoted, field := f, fields := F } (doubleQuotes s ++ '"' :: r) =
        csvRest d { state := .quoteInQuoted, field := f ++ s, fields := F } r
  | [], f, _ => by simp [doubleQuotes, csvRest, Tok.step]
  | c :: s, f, hlen => by
    have hl : ¬ fieldSizeLimit ≤ f.length := by simp at hlen; omega
    have ih := csvRest_quoted d F r s (f ++ [c]) (by simpa using hlen)
    have hne : doubleQuotes s ++ '"' :: r ≠ [] := by simp
    by_cases hc : c = '"'
    · subst hc
      simp only [doubleQuotes, if_pos, List.cons_append]
      simp only [csvRest, Tok.step, if_pos, Tok.add, if_neg hl]
      simpa using ih
    · simp only [doubleQuotes, if_neg hc, List.cons_append]
      simp only [csvRest, Tok.step, if_neg hc, Tok.add, if_neg hl, if_neg hne]
      simp only [List.append_assoc, List.cons_append, List.nil_append] at ih
      split
      · simp only [reduceCtorEq, if_false]
        rw [ih]
      · rw [ih]

/-- a cell without carriage returns -/
inductive CellN (d : Char) : PyStr → PyStr → Prop
  | plain {s} : s.head? ≠ some '"' → (∀ c ∈ s, c ≠ d ∧ c ≠ '\n' ∧ c ≠ '\r') → CellN d s s
  | quoted {s} : CellN d ('"' :: doubleQuotes s ++ ['"']) s

/-- the tokeniser stands behind a cell -/
def Behind (t : Tok) (c : PyStr) (F : List PyStr) : Prop :=
  t.field = c ∧ t.fields = F ∧ ((t.state = .startField ∧ c = []) ∨ t.state = .inField ∨ t.state = .quoteInQuoted)

theorem csvRest_cell {d : Char} {s c : PyStr} (h : CellN d s c) (hlen : c.length ≤ fieldSizeLimit) (F : List PyStr) :
    ∃ t, Behind t c F ∧ ∀ r, csvRest d { state := .startField, field := [], fields := F } (s ++ r) = csvRest d t r := by
  cases h with
  | plain hq hs =>
    refine ⟨{ state := if s = [] then .startField else .inField, field := s, fields := F }, ⟨rfl, rfl, ?_⟩, fun r => ?_⟩
    · by_cases h : s = [] <;> simp [h]
    · simpa using csvRest_plain d F r s [] .startField (.inr ⟨rfl, rfl, hq⟩) hs (by simpa using hlen)
  | quoted =>
    refine ⟨{ state := .quoteInQuoted, field := c, fields := F }, ⟨rfl, rfl, .inr (.inr rfl)⟩, fun r => ?_⟩
    simp only [List.cons_append, List.append_assoc, List.nil_append]
    have hn : ('"' : Char) ≠ '\n' := by decide
    simp only [csvRest, Tok.step, Tok.stepStartField, if_neg hn]
    simpa using csvRest_quoted d F r c [] (by simpa using hlen)

theorem csvRest_delim {d : Char} (hd : d ≠ '"' ∧ d ≠ '\n' ∧ d ≠ '\r') {t : Tok} {c : PyStr} {F : List PyStr} (h : Behind t c F) (r : PyStr) :
    csvRest d t (d :: r) = csvRest d { state := .startField, field := [], fields := F ++ [c] } r := by
  obtain ⟨st, f, fs⟩ := t
  obtain ⟨h1, h2, h3⟩ := h
  simp only at h1 h2 h3
  subst h1 h2
  have hstep : Tok.step d ⟨st, f, fs⟩ (some d) = .ok { state := .startField, field := [], fields := fs ++ [f] } := by
    rcases h3 with ⟨rfl, _⟩ | rfl | rfl <;> simp [Tok.step, Tok.stepStartField, hd, Tok.save]
  simp only [csvRest, hstep, if_neg hd.2.1]

theorem csvRest_nl {d : Char} (hd : d ≠ '"' ∧ d ≠ '\n' ∧ d ≠ '\r') {t : Tok} {c : PyStr} {F : List PyStr} (h : Behind t c F) (r : PyStr) :
    csvRest d t ('\n' :: r) = ((F ++ [c]) :: (csvStart d {} r).1, (csvStart d {} r).2) := by
  obtain ⟨st, f, fs⟩ := t
  obtain ⟨h1, h2, h3⟩ := h
  simp only at h1 h2 h3
  subst h1 h2
  have hstep : Tok.step d ⟨st, f, fs⟩ (some '\n') = .ok { state := .eatCrnl, field := [], fields := fs ++ [f] } := by
    rcases h3 with ⟨rfl, _⟩ | rfl | rfl <;> simp [Tok.step, Tok.stepStartField, Tok.save, hd.2.1.symm]
  simp only [csvRest, hstep, if_pos]
  simp only [Tok.step, if_pos, csvStart]

theorem csvRest_end {d : Char} {t : Tok} {c : PyStr} {F : List PyStr} (h : Behind t c F) :
    csvRest d t [] = ([F ++ [c]], none) := by
  obtain ⟨st, f, fs⟩ := t
  obtain ⟨h1, h2, h3⟩ := h
  simp only at h1 h2 h3
  subst h1 h2
  rcases h3 with ⟨rfl, _⟩ | rfl | rfl <;> simp [csvRest, Tok.step, Tok.stepStartField, Tok.save, Tok.finish]

/-! ## rows -/

inductive RowN (d : Char) : PyStr → List PyStr → Prop
  | one {s c} : CellN d s c → RowN d s [c]
  | cons {s c t cs} : CellN d s c → RowN d t cs → RowN d (s ++ d :: t) (c :: cs)

theorem csvRest_row {d : Char} (hd : d ≠ '"' ∧ d ≠ '\n' ∧ d ≠ '\r') {s : PyStr} {cs : List PyStr} (h : RowN d s cs) :
    (∀ c ∈ cs, c.length ≤ fieldSizeLimit) → ∀ F : List PyStr, ∃ t c F', F ++ cs = F' ++ [c] ∧ Behind t c F' ∧
      ∀ r, csvRest d { state := .startField, field := [], fields := F } (s ++ r) = csvRest d t r := by
  induction h with
  | one hc =>
    intro hlen F
    obtain ⟨t, ht, hr⟩ := csvRest_cell hc (hlen _ (by simp)) F
    exact ⟨t, _, F, rfl, ht, hr⟩
  | cons hc _ ih =>
    intro hlen F
    obtain ⟨t, ht, hr⟩ := csvRest_cell hc (hlen _ (by simp)) F
    obtain ⟨t', c', F', hF, ht', hr'⟩ := ih (fun x hx => hlen x (by simp [hx])) (F ++ [_])
    refine ⟨t', c', F', by simpa using hF, ht', fun r => ?_⟩
    rw [List.append_assoc, hr, List.cons_append, csvRest_delim hd ht, hr']

theorem CellN.head {d : Char} {s c : PyStr} (h : CellN d s c) : s.head? ≠ some '\n' ∧ s.head? ≠ some '\r' := by
  cases h with
  | plain _ h =>
    cases s with
    | nil => simp
    | cons x s => have := h x (by simp); simpa using this.2
  | quoted => simp

theorem RowN.head {d : Char} (hd : d ≠ '"' ∧ d ≠ '\n' ∧ d ≠ '\r') {s : PyStr} {cs : List PyStr} (h : RowN d s cs) :
    s.head? ≠ some '\n' ∧ s.head? ≠ some '\r' := by
  cases h with
  | one h => exact h.head
  | @cons s c t cs h _ =>
    cases s with
    | nil => simp [hd]
    | cons x s => simpa using h.head

/-- at the beginning of a record a row is treated as at the beginning of a field -/
theorem csvRest_startRecord {d : Char} {s : PyStr} (hs : s ≠ []) (h : s.head? ≠ some '\n' ∧ s.head? ≠ some '\r') (r : PyStr) :
    csvRest d {} (s ++ r) = csvRest d { state := .startField, field := [], fields := [] } (s ++ r) := by
  cases s with
  | nil => exact absurd rfl hs
  | cons c s =>
    simp only [List.head?_cons, ne_eq, Option.some.injEq] at h
    simp only [List.cons_append, csvRest, Tok.step, h.1, h.2, or_self, if_false]
    rfl

theorem csvStart_cons {d : Char} (hd : d ≠ '"' ∧ d ≠ '\n' ∧ d ≠ '\r') {s : PyStr} {cs : List PyStr} (h : RowN d s cs) (hs : s ≠ [])
    (hlen : ∀ c ∈ cs, c.length ≤ fieldSizeLimit) (r : PyStr) :
    csvStart d {} (s ++ '\n' :: r) = (cs :: (csvStart d {} r).1, (csvStart d {} r).2) := by
  obtain ⟨t, c, F, hF, ht, hr⟩ := csvRest_row hd h hlen []
  rw [csvStart, if_neg (by simp), csvRest_startRecord hs (h.head hd), hr, csvRest_nl hd ht]
  simp only [List.nil_append] at hF
  rw [hF]

theorem csvStart_last {d : Char} (hd : d ≠ '"' ∧ d ≠ '\n' ∧ d ≠ '\r') {s : PyStr} {cs : List PyStr} (h : RowN d s cs) (hs : s ≠ [])
    (hlen : ∀ c ∈ cs, c.length ≤ fieldSizeLimit) : csvStart d {} s = ([cs], none) := by
  obtain ⟨t, c, F, hF, ht, hr⟩ := csvRest_row hd h hlen []
  have := csvRest_startRecord (d := d) hs (h.head hd) []
  have hr := hr []
  rw [List.append_nil] at this hr
  rw [csvStart, if_neg hs, this, hr, csvRest_end ht]
  simp only [List.nil_append] at hF
  rw [hF]

theorem csvStart_blank {d : Char} (r : PyStr) :
    csvStart d {} ('\n' :: r) = ([] :: (csvStart d {} r).1, (csvStart d {} r).2) := by
  rw [csvStart, if_neg (by simp)]
  simp [csvRest, Tok.step, csvStart]

/-! ## line ends -/

theorem sameUpToLineEnds_iff {s t : PyStr} : SameUpToLineEnds s t ↔ t = universalNewlines s := by
  constructor
  · intro h
    induction h with
    | nil => rfl
    | crlf _ ih => rw [universalNewlines, ih]
    | @cr s t hs _ ih =>
      subst ih
      cases s with
      | nil => rfl
      | cons c s =>
        rw [universalNewlines]
        intro s' h
        injection h with h1 h2
        subst h1
        simp at hs
    | @char c s t hc _ ih =>
      subst ih
      rw [universalNewlines]
      · intro s' h1; exact absurd h1 hc
      · exact fun h1 => absurd h1 hc
  · rintro rfl
    fun_induction universalNewlines s with
    | case1 => exact .nil
    | case2 s ih => exact .crlf ih
    | case3 s h ih =>
      refine .cr ?_ ih
      intro h'
      cases s with
      | nil => simp at h'
      | cons c s =>
        simp only [List.head?_cons, Option.some.injEq] at h'
        subst h'
        exact h s rfl
    | case4 c s h1 h2 ih => exact .char h2 ih

theorem universalNewlines_append {s : PyStr} : ∀ t : PyStr, (s.getLast? = some '\r' → t.head? ≠ some '\n') →
    universalNewlines (s ++ t) = universalNewlines s ++ universalNewlines t := by
  fun_induction universalNewlines s with
  | case1 => intro t _; rfl
  | case2 s ih =>
    intro t h
    simp only [List.cons_append, universalNewlines]
    rw [ih t]
    intro hl
    refine h ?_
    rw [List.getLast?_cons, List.getLast?_cons, hl]; simp
  | case3 s hs ih =>
    intro t h
    have : s ++ t = [] ∨ (s ++ t).head? ≠ some '\n' := by
      cases s with
      | nil => exact .inr (h (by simp))
      | cons c s =>
        refine .inr ?_
        simp only [List.cons_append, List.head?_cons, ne_eq, Option.some.injEq]
        rintro rfl
        exact hs s rfl
    have e : universalNewlines ('\r' :: (s ++ t)) = '\n' :: universalNewlines (s ++ t) := by
      rw [universalNewlines]
      intro s' hs'
      rw [hs'] at this
      simp at this
    rw [List.cons_append, e, ih t, List.cons_append]
    intro hl
    exact h (by rw [List.getLast?_cons, hl]; simp)
  | case4 c s h1 h2 ih =>
    intro t h
    have e : universalNewlines (c :: (s ++ t)) = c :: universalNewlines (s ++ t) := by
      rw [universalNewlines]
      · intro s' h; exact absurd h h2
      · exact h2
    rw [List.cons_append, e, ih t, List.cons_append]
    intro hl
    exact h (by rw [List.getLast?_cons, hl]; simp)

theorem universalNewlines_id : ∀ {s : PyStr}, '\r' ∉ s → universalNewlines s = s
  | [], _ => rfl
  | c :: s, h => by
    have hc : c ≠ '\r' := fun e => h (by simp [e])
    rw [universalNewlines, universalNewlines_id (fun e => h (by simp [e]))]
    · intro s' e; exact absurd e hc
    · exact hc

theorem universalNewlines_quotes {s t : PyStr} (h : SameUpToLineEnds s t) :
    SameUpToLineEnds (doubleQuotes s) (doubleQuotes t) := by
  induction h with
  | nil => exact .nil
  | crlf _ ih =>
    simp only [doubleQuotes, show ('\r' : Char) ≠ '"' by decide, show ('\n' : Char) ≠ '"' by decide, if_false]
    exact .crlf ih
  | @cr s t hs _ ih =>
    simp only [doubleQuotes, show ('\r' : Char) ≠ '"' by decide, show ('\n' : Char) ≠ '"' by decide, if_false]
    refine .cr ?_ ih
    cases s with
    | nil => simp [doubleQuotes]
    | cons c s =>
      simp only [doubleQuotes]
      split
      · simp
      · simpa using hs
  | @char c s t hc _ ih =>
    simp only [doubleQuotes]
    split
    · exact .char (by decide) (.char (by decide) ih)
    · exact .char hc ih

/-- the universal newline translation of a cell -/
theorem cell_universal {d : Char} {s c : PyStr} (h : CsvCell d s c) :
    CellN d (universalNewlines s) c ∧ s.getLast? ≠ some '\r' ∧ s.head? ≠ some '\n' := by
  cases h with
  | plain hq hs =>
    have hr : '\r' ∉ s := fun h => (hs _ h).2.2 rfl
    rw [universalNewlines_id hr]
    refine ⟨.plain hq hs, fun h => hr (List.mem_of_getLast? h), fun h => ?_⟩
    exact (hs _ (List.mem_of_head? h)).2.1 rfl
  | @quoted s t hst =>
    refine ⟨?_, by rw [List.getLast?_append]; simp, by simp⟩
    have h1 := sameUpToLineEnds_iff.1 (universalNewlines_quotes hst)
    have : universalNewlines ('"' :: (doubleQuotes s ++ ['"'])) = '"' :: doubleQuotes c ++ ['"'] := by
      rw [universalNewlines, universalNewlines_append, ← h1]
      · rfl
      · simp
      · intro s' h; cases h
      · decide
    simp only [List.cons_append] at this ⊢
    rw [this]
    exact .quoted

theorem row_universal {d : Char} (hd : d ≠ '"' ∧ d ≠ '\n' ∧ d ≠ '\r') {s : PyStr} {cs : List PyStr} (h : CsvRow d s cs) :
    RowN d (universalNewlines s) cs ∧ s.getLast? ≠ some '\r' ∧ s.head? ≠ some '\n' := by
  induction h with
  | one h =>
    obtain ⟨h1, h2, h3⟩ := cell_universal h
    exact ⟨.one h1, h2, h3⟩
  | @cons s c t cs hc _ ih =>
    obtain ⟨h1, h2, h3⟩ := cell_universal hc
    refine ⟨?_, ?_, ?_⟩
    · rw [universalNewlines_append _ (fun h => absurd h h2)]
      have : universalNewlines (d :: t) = d :: universalNewlines t := by
        rw [universalNewlines]
        · intro s' e; exact absurd e hd.2.2
        · exact hd.2.2
      rw [this]
      exact .cons h1 ih.1
    · rw [List.getLast?_append, List.getLast?_cons]
      cases ht : t.getLast? with
      | none => simp [hd]
      | some x => simpa [ht] using ih.2.1
    · cases s with
      | nil => simp [hd]
      | cons x s => simpa using h3

theorem universalNewlines_ne_nil {s : PyStr} (h : s ≠ []) : universalNewlines s ≠ [] := by
  fun_cases universalNewlines s <;> simp_all


theorem file_head {d : Char} (hd : d ≠ '"' ∧ d ≠ '\n' ∧ d ≠ '\r') {eol : PyStr} {s : PyStr} {rows : List (List PyStr)}
    (h : CsvFile d eol s rows) (he : eol = ['\r']) : s.head? ≠ some '\n' := by
  cases h with
  | nil => simp
  | last h _ => exact (row_universal hd h).2.2
  | @cons s cs t rows h hne _ =>
    cases s with
    | nil => exact absurd rfl hne
    | cons x s => simpa using (row_universal hd h).2.2
  | blank _ => simp [he]

theorem eol_universal {d : Char} (hd : d ≠ '"' ∧ d ≠ '\n' ∧ d ≠ '\r') {eol : PyStr} (he : IsLineEnd eol) {t : PyStr}
    {rows : List (List PyStr)} (h : CsvFile d eol t rows) : universalNewlines (eol ++ t) = '\n' :: universalNewlines t := by
  rcases he with rfl | rfl | rfl
  · simp [universalNewlines]
  · simp [universalNewlines]
  · have := file_head hd h rfl
    simp only [List.cons_append, List.nil_append]
    rw [universalNewlines]
    intro s' hs'
    rw [hs'] at this
    simp at this

theorem csvRead_file {d : Char} (hd : d ≠ '"' ∧ d ≠ '\n' ∧ d ≠ '\r') {eol : PyStr} (he : IsLineEnd eol) {s : PyStr}
    {rows : List (List PyStr)} (h : CsvFile d eol s rows) :
    (∀ row ∈ rows, ∀ c ∈ row, c.length ≤ fieldSizeLimit) → csvRead d s = (rows, none) := by
  intro hlen
  rw [csvRead_eq]
  induction h with
  | nil => rfl
  | last h hne =>
    exact csvStart_last hd (row_universal hd h).1 (universalNewlines_ne_nil hne) (hlen _ (by simp))
  | @cons s cs t rows h hne ht ih =>
    rw [List.append_assoc, universalNewlines_append _ (fun h' => absurd h' (row_universal hd h).2.1), eol_universal hd he ht,
      csvStart_cons hd (row_universal hd h).1 (universalNewlines_ne_nil hne) (hlen _ (by simp)), ih fun r hr => hlen r (by simp [hr])]
  | @blank t rows ht ih =>
    rw [eol_universal hd he ht, csvStart_blank, ih fun r hr => hlen r (by simp [hr])]

/-! ## no errors in short texts -/

/-- a state in which no error is possible but by a too long field -/
def Tok.Ok (t : Tok) : Prop := t.state ≠ .eatCrnl

theorem step_ok {d : Char} {t : Tok} (ht : t.Ok) {c : Char} (hl : t.field.length < fieldSizeLimit) :
    ∃ t', t.step d (some c) = .ok t' ∧ t'.field.length ≤ t.field.length + 1 ∧ (t'.Ok ∨ (c = '\n' ∨ c = '\r') ∧ t'.state = .eatCrnl) := by
  obtain ⟨st, f, fs⟩ := t
  simp only at hl
  have hl' : ¬ fieldSizeLimit ≤ f.length := by omega
  cases st <;> simp only [Tok.step, Tok.stepStartField, Tok.add, hl', Tok.Ok, Tok.save] at ht ⊢
  · split
    · rename_i h; exact ⟨_, rfl, by simp, .inr ⟨h, rfl⟩⟩
    · split
      · exact ⟨_, rfl, by simp, by simp⟩
      · split
        · exact ⟨_, rfl, by simp, by simp⟩
        · exact ⟨_, rfl, by simp, by simp⟩
  · split
    · rename_i h; exact ⟨_, rfl, by simp, .inr ⟨h, rfl⟩⟩
    · split
      · exact ⟨_, rfl, by simp, by simp⟩
      · split
        · exact ⟨_, rfl, by simp, by simp⟩
        · exact ⟨_, rfl, by simp, by simp⟩
  · split
    · rename_i h; exact ⟨_, rfl, by simp, .inr ⟨h, rfl⟩⟩
    · split
      · exact ⟨_, rfl, by simp, by simp⟩
      · exact ⟨_, rfl, by simp, by simp⟩
  · split
    · exact ⟨_, rfl, by simp, by simp⟩
    · exact ⟨_, rfl, by simp, by simp⟩
  · split
    · exact ⟨_, rfl, by simp, by simp⟩
    · split
      · exact ⟨_, rfl, by simp, by simp⟩
      · split
        · rename_i h; exact ⟨_, rfl, by simp, .inr ⟨h, rfl⟩⟩
        · exact ⟨_, rfl, by simp, by simp⟩
  · exact absurd rfl ht

theorem step_end_ok {d : Char} (t : Tok) : ∃ t', t.step d none = .ok t' ∧ t'.Ok ∧ t'.field.length ≤ t.field.length := by
  obtain ⟨st, f, fs⟩ := t
  cases st <;> simp [Tok.step, Tok.stepStartField, Tok.save, Tok.Ok]

theorem finish_none (t : Tok) : t.finish.2 = none := by unfold Tok.finish; split <;> rfl

theorem csvRest_ok {d : Char} : ∀ (s : PyStr) (t : Tok), t.Ok → '\r' ∉ s → t.field.length + s.length ≤ fieldSizeLimit →
    (csvRest d t s).2 = none
  | [], t, _, _, _ => by
    obtain ⟨t', h1, _, _⟩ := step_end_ok (d := d) t
    simp only [csvRest, h1]
    split
    · exact finish_none _
    · exact finish_none _
  | c :: s, t, ht, hr, hl => by
    simp only [List.length_cons] at hl
    have hr' : '\r' ∉ s := fun h => hr (by simp [h])
    obtain ⟨t', h1, h2, h3⟩ := step_ok (d := d) ht (c := c) (by omega)
    simp only [csvRest, h1]
    split
    · obtain ⟨t'', h4, h5, h6⟩ := step_end_ok (d := d) t'
      simp only [h4]
      split
      · dsimp only
        split
        · exact finish_none _
        · exact csvRest_ok s {} (by simp [Tok.Ok]) hr' (by simp; omega)
      · split
        · exact finish_none _
        · exact csvRest_ok s t'' h5 hr' (by omega)
    · rename_i hc
      refine csvRest_ok s t' ?_ hr' (by omega)
      rcases h3 with h3 | ⟨h | h, _⟩
      · exact h3
      · exact absurd h hc
      · subst h; exact absurd (by simp) hr

theorem universalNewlines_no_cr (s : PyStr) : '\r' ∉ universalNewlines s := by
  fun_induction universalNewlines s with
  | case1 => simp
  | case2 s ih => simpa using ih
  | case3 s _ ih => simpa using ih
  | case4 c s h1 h2 ih => simpa using ⟨fun h => h2 h.symm, ih⟩

theorem universalNewlines_length (s : PyStr) : (universalNewlines s).length ≤ s.length := by
  fun_induction universalNewlines s <;> simp <;> omega

theorem csvRead_ok (d : Char) (s : PyStr) (h : s.length ≤ fieldSizeLimit) : (csvRead d s).2 = none := by
  rw [csvRead_eq, csvStart]
  split
  · exact finish_none _
  · refine csvRest_ok _ _ (by simp [Tok.Ok]) (universalNewlines_no_cr s) ?_
    have := universalNewlines_length s
    simp; omega

theorem step_error {d : Char} {t : Tok} {o : Option Char} {e : Exc} (h : t.step d o = .error e) : e = .other := by
  obtain ⟨st, f, fs⟩ := t
  cases st <;> cases o <;> simp only [Tok.step, Tok.stepStartField, Tok.add] at h <;> grind

theorem csvRest_error {d : Char} {e : Exc} : ∀ (s : PyStr) (t : Tok), (csvRest d t s).2 = some e → e = .other
  | [], t, h => by
    simp only [csvRest] at h
    split at h
    · rename_i e' h'
      cases h
      exact step_error h'
    · split at h
      · rw [finish_none] at h; cases h
      · rw [finish_none] at h; cases h
  | c :: s, t, h => by
    simp only [csvRest] at h
    split at h
    · rename_i e' h'
      cases h
      exact step_error h'
    · split at h
      · split at h
        · rename_i e' h'
          cases h
          exact step_error h'
        · split at h
          · dsimp only at h
            split at h
            · rw [finish_none] at h; cases h
            · exact csvRest_error s _ h
          · split at h
            · rw [finish_none] at h; cases h
            · exact csvRest_error s _ h
      · exact csvRest_error s _ h

theorem csvRead_error {d : Char} {s : PyStr} {e : Exc} (h : (csvRead d s).2 = some e) : e = .other := by
  rw [csvRead_eq, csvStart] at h
  split at h
  · rw [finish_none] at h; cases h
  · exact csvRest_error _ _ h

/-! ## too long fields -/

theorem csvRest_long (d : Char) (F : List PyStr) : ∀ (s f : PyStr) (σ : TokState),
    (σ = .inField ∨ (σ = .startField ∧ f = [] ∧ s.head? ≠ some '"')) →
      (∀ c ∈ s, c ≠ d ∧ c ≠ '\n' ∧ c ≠ '\r') → f.length ≤ fieldSizeLimit → fieldSizeLimit < (f ++ s).length → ∀ r,
      csvRest d { state := σ, field := f, fields := F } (s ++ r) = ([], some .other)
  | [], f, σ, _, _, h1, h2, r => by simp at h2; omega
  | c :: s, f, σ, hσ, hs, h1, h2, r => by
    have hc := hs c (by simp)
    by_cases hl : fieldSizeLimit ≤ f.length
    · have hstep : Tok.step d { state := σ, field := f, fields := F } (some c) = .error .other := by
        rcases hσ with rfl | ⟨rfl, rfl, hq⟩
        · simp [Tok.step, hc.1, hc.2.1, hc.2.2, Tok.add, hl]
        · simp [fieldSizeLimit] at hl
      simp only [List.cons_append, csvRest, hstep]
    · have hstep : Tok.step d { state := σ, field := f, fields := F } (some c) =
          .ok { state := .inField, field := f ++ [c], fields := F } := by
        rcases hσ with rfl | ⟨rfl, rfl, hq⟩
        · simp [Tok.step, hc.1, hc.2.1, hc.2.2, Tok.add, hl]
        · have : c ≠ '"' := by simpa using hq
          simp only [List.length_nil] at hl
          simp [Tok.step, Tok.stepStartField, hc.1, hc.2.1, hc.2.2, Tok.add, hl, this]
      simp only [List.cons_append, csvRest, hstep, if_neg hc.2.1]
      refine csvRest_long d F s (f ++ [c]) .inField (.inl rfl) (fun x hx => hs x (by simp [hx])) ?_ (by simpa using h2) r
      simp; omega

end Verif
