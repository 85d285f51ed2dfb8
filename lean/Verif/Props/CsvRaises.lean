import Verif.Props.CsvText
import Verif.Proofs.CsvRaises
/-!
# Property theorems about the exceptions of the CSV reader (C113)
-/

namespace Verif

theorem choose_ok_iff (given : Option PyStr) (records : List (List PyStr)) (p : PyStr) :
    choosePruefidentifikator given (dictReaderFields records) = .ok p ↔ ExpressionColumn given records p := by
  obtain ⟨h1, h2, h3⟩ := C43_identifier (dictReaderFields records) given
  have hcol : (∃ before after rest, records = (before ++ p :: after) :: rest ∧ UpToNewline IsFiveDigits p ∧
      ∀ m ∈ before, ¬ UpToNewline IsFiveDigits m) ↔ getNameOfExpressionColumn (dictReaderFields records) = some p := by
    rw [C46_expression_column_exact]
    cases records with
    | nil => simp [dictReaderFields]
    | cons r rs => simp [dictReaderFields]
  unfold ExpressionColumn
  rw [hcol]
  match given with
  | some (c :: s) =>
    rw [h1 c s rfl]
    constructor
    · intro h; cases h; exact .inl ⟨rfl, by simp⟩
    · rintro (⟨h, _⟩ | ⟨h | h, _⟩)
      · cases h; rfl
      · cases h
      · cases h
  | none =>
    cases hn : getNameOfExpressionColumn (dictReaderFields records) with
    | none => rw [h3 (.inl rfl) hn]; simp
    | some q => rw [h2 (.inl rfl) q hn]; simp
  | some [] =>
    cases hn : getNameOfExpressionColumn (dictReaderFields records) with
    | none => rw [h3 (.inr rfl) hn]; simp
    | some q =>
      rw [h2 (.inr rfl) q hn]
      simp

theorem choose_error_iff (given : Option PyStr) (records : List (List PyStr)) (e : Exc) :
    choosePruefidentifikator given (dictReaderFields records) = .error e ↔ NoExpressionColumn given records ∧ e = .valueError := by
  obtain ⟨h1, h2, h3⟩ := C43_identifier (dictReaderFields records) given
  have hcol : (∀ header rest, records = header :: rest → ∀ n ∈ header, ¬ UpToNewline IsFiveDigits n) ↔
      getNameOfExpressionColumn (dictReaderFields records) = none := by
    cases records with
    | nil => simp [dictReaderFields, getNameOfExpressionColumn]
    | cons r rs =>
      simp only [dictReaderFields, getNameOfExpressionColumn, List.find?_eq_none, pruefiRe_iff, List.cons.injEq]
      constructor
      · intro h n hn; exact h r rs ⟨rfl, rfl⟩ n hn
      · rintro h _ _ ⟨rfl, rfl⟩ n hn; exact h n hn
  unfold NoExpressionColumn
  rw [hcol]
  by_cases hg : given = none ∨ given = some []
  · cases hn : getNameOfExpressionColumn (dictReaderFields records) with
    | none => rw [h3 hg hn]; simp [hg, eq_comm]
    | some q => rw [h2 hg q hn]; simp
  · match given with
    | some (c :: s) => rw [h1 c s rfl]; simp
    | none => exact absurd (.inl rfl) hg
    | some [] => exact absurd (.inr rfl) hg

/-- **C113** the CSV reader raises exactly the exception of the first thing that goes wrong: no expression column (`ValueError`);
then the first row below a heading whose number cannot be read; then the first of the remaining rows that cannot be read. -/
theorem C113_reader (guid : Nat → Fin (2 ^ 128)) (records : List (List PyStr)) (pruefi : Option PyStr) (e : Exc) :
    CsvReader.new guid records pruefi = .error e ↔ ReaderRaises pruefi records e := by
  unfold CsvReader.new ReaderRaises
  rw [← choose_error_iff]
  simp only [← choose_ok_iff, ← mergeSectionOnly_error]
  cases h1 : choosePruefidentifikator pruefi (dictReaderFields records) with
  | error e' => simp [Bind.bind, Except.bind]
  | ok p =>
    cases h2 : mergeSectionOnlyLines (dictReaderRows records) with
    | error e' => simp [Bind.bind, Except.bind]
    | ok merged =>
      have hr := readLoop_error (p := p) (guid := guid) merged 0 {} [] (.inl ⟨by simp, rfl⟩) e
      cases h3 : readLoop p guid 0 {} merged with
      | error e' =>
        rw [h3] at hr
        simp only [Bind.bind, Except.bind, h3, Except.error.injEq, Except.ok.injEq, exists_eq_left', reduceCtorEq, false_or] at hr ⊢
        exact hr
      | ok y =>
        rw [h3] at hr
        simp only [reduceCtorEq, false_iff] at hr
        simp only [Bind.bind, Except.bind, h3, Except.ok.injEq, exists_eq_left', reduceCtorEq, false_or, hr, pure, Except.pure]

/-- **C113** the same for a text. If the tokeniser stops with an error (a field of more than 131072 characters, see C69), the
missing expression column is still noticed first, unless the error is in the header. -/
theorem C113_text (guid : Nat → Fin (2 ^ 128)) (delimiter : Char) (text : PyStr) (pruefi : Option PyStr) (e : Exc) :
    CsvReader.ofText guid delimiter text pruefi = .error e ↔
      ((csvRead delimiter text).2 = none ∧ ReaderRaises pruefi (csvRead delimiter text).1 e) ∨
      ((csvRead delimiter text).2 ≠ none ∧
        (((csvRead delimiter text).1 ≠ [] ∧ NoExpressionColumn pruefi (csvRead delimiter text).1 ∧ e = .valueError) ∨
         (((csvRead delimiter text).1 = [] ∨ ∃ p, ExpressionColumn pruefi (csvRead delimiter text).1 p) ∧ e = .other))) := by
  unfold CsvReader.ofText
  cases hs : (csvRead delimiter text).2 with
  | none =>
    have hp : csvRead delimiter text = ((csvRead delimiter text).1, none) := by rw [← hs]
    rw [hp]
    simp only [CsvReader.ofRecords, C113_reader, true_and, ne_eq, not_true_eq_false, false_and, or_false]
  | some e0 =>
    have he0 : e0 = .other := csvRead_error hs
    have hp : csvRead delimiter text = ((csvRead delimiter text).1, some .other) := by rw [← he0, ← hs]
    cases hr : (csvRead delimiter text).1 with
    | nil =>
      rw [hr] at hp
      rw [hp]
      simp [CsvReader.ofRecords, eq_comm]
    | cons header rest =>
      rw [hr] at hp
      rw [hp]
      have h1 := choose_error_iff pruefi (header :: rest) e
      have h2 := choose_ok_iff pruefi (header :: rest)
      simp only [dictReaderFields] at h1 h2
      simp only [CsvReader.ofRecords]
      cases hc : choosePruefidentifikator pruefi (some header) with
      | error e' =>
        simp only [hc, reduceCtorEq, false_iff] at h1 h2
        simp only [Bind.bind, Except.bind, ← h1]
        simp [h2]
      | ok p =>
        simp only [hc, reduceCtorEq, false_iff] at h1 h2
        simp only [Bind.bind, Except.bind, h1]
        have : ∃ p, ExpressionColumn pruefi (header :: rest) p := ⟨p, (h2 p).1 rfl⟩
        simp [this, eq_comm]

/-- **C113** the exception is determined: at most one of the cases applies. -/
theorem C113_unique (pruefi : Option PyStr) (records : List (List PyStr)) (e e' : Exc) (h : ReaderRaises pruefi records e)
    (h' : ReaderRaises pruefi records e') : e = e' := by
  rw [← C113_reader (fun _ => 0)] at h h'
  rw [h] at h'
  exact Except.error.inj h'

/-! ## the cases do occur -/

def exRaisesHeader : List PyStr :=
  [[], py!"Segment Gruppe", py!"Segment", py!"Datenelement", py!"Codes und Qualifier", py!"Beschreibung", py!"11042", py!"Bedingung"]

/-- no expression column -/
example : NoExpressionColumn none [[py!"1104", py!"110421"], [py!"1", py!"2"]] :=
  ⟨.inl rfl, by
    rintro _ _ h n hn
    cases h
    have := (choose_error_iff none [[py!"1104", py!"110421"], [py!"1", py!"2"]] .valueError).1 (by decide +kernel)
    exact this.1.2 _ _ rfl n hn⟩

/-- the number of the row below a heading is no integer: the row below the second heading comes too late -/
def exNumberRecords : List (List PyStr) :=
  [exRaisesHeader,
   [py!"0", py!"Nachrichten-Kopfsegment", [], [], [], [], [], []],
   [py!"x", [], py!"UNH", [], [], [], [], []],
   [py!"2", py!"Beginn der Nachricht", [], [], [], [], [], []],
   []]

example : ReaderRaises none exNumberRecords .valueError := (C113_reader (fun _ => 0) _ _ _).1 (by decide +kernel)
example : MergeRaises (dictReaderRows exNumberRecords) .valueError := (mergeSectionOnly_error _ _).1 (by decide +kernel)

/-- the heading is merged before the rows are read: the number below it wins over the earlier row without a segment group -/
def exOrderRecords : List (List PyStr) :=
  [exRaisesHeader, [py!"0"], [py!"1", py!"Nachrichten-Kopfsegment", [], [], [], [], [], []], [py!"x", [], py!"UNH", [], [], [], [], []]]

example : CsvReader.new (fun _ => 0) exOrderRecords none = .error .valueError := by decide +kernel
example : CsvReader.new (fun _ => 0) (exOrderRecords.take 2) none = .error .typeError := by decide +kernel
example : RowRaises py!"11042" (dictReaderRow exRaisesHeader [py!"0"]) .typeError :=
  rawRow_raises (guid := 0) (st := {}) (above := []) (.inl ⟨by simp, rfl⟩) (by rfl)

/-- an expression of blanks below a row that can be read -/
def exBlankRecords : List (List PyStr) :=
  [exRaisesHeader, [py!"0", [], py!"UNH", [], [], [], py!"Muss", []], [py!"1", py!"SG2", py!"NAD", [], [], [], py!"  ", []]]

example : ReaderRaises none exBlankRecords .valueError := (C113_reader (fun _ => 0) _ _ _).1 (by decide +kernel)
example : ReaderRaises (some py!"11043") exBlankRecords .keyError := (C113_reader (fun _ => 0) _ _ _).1 (by decide +kernel)

end Verif
