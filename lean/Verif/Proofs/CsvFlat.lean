import Verif.Spec.CsvFlat
import Verif.Props.Csv
/-! lemmas for the conversion of CSV files to flat AHBs -/

namespace Verif

theorem mem_dropWhile_of_not {α : Type} {p : α → Bool} {c : α} {l : List α} (h : c ∈ l) (hc : p c = false) : c ∈ l.dropWhile p := by
  induction l with
  | nil => cases h
  | cons x l ih =>
    rw [List.dropWhile_cons]
    split
    · rename_i hx
      rcases List.mem_cons.1 h with rfl | h
      · rw [hc] at hx; cases hx
      · exact ih h
    · exact h

theorem trim_white (s : PyStr) : (∀ c ∈ trim s, c ∈ whiteSpace) ↔ ∀ c ∈ s, c ∈ whiteSpace := by
  constructor
  · intro h c hc
    by_contra hw
    refine hw (h c ?_)
    unfold trim
    rw [List.mem_reverse]
    refine mem_dropWhile_of_not ?_ (by simpa using hw)
    rw [List.mem_reverse]
    exact mem_dropWhile_of_not hc (by simpa using hw)
  · intro h c hc
    unfold trim at hc
    rw [List.mem_reverse] at hc
    exact h c ((List.dropWhile_sublist _).mem (List.mem_reverse.1 ((List.dropWhile_sublist _).mem hc)))

theorem nonBlank_white (x : Option PyStr) :
    (∀ s, nonBlank x = some s → ∀ c ∈ s, c ∈ whiteSpace) ↔ ∀ t, x = some t → ∀ c ∈ t, c ∈ whiteSpace := by
  cases x with
  | none => simp [nonBlank]
  | some t =>
    simp only [Option.some.injEq, forall_eq']
    rw [← trim_white t]
    unfold nonBlank
    by_cases h : trim t = []
    · simp [h]
    · simp [h]

theorem nonEmpty_white (x : Option PyStr) :
    (∀ s, nonEmpty x = some s → ∀ c ∈ s, c ∈ whiteSpace) ↔ ∀ t, x = some t → ∀ c ∈ t, c ∈ whiteSpace := by
  match x with
  | none => simp [nonEmpty]
  | some [] => simp [nonEmpty]
  | some (c :: s) => simp [nonEmpty]

theorem nonEmpty_forall (x : Option PyStr) (P : PyStr → Prop) :
    (∀ s, nonEmpty x = some s → P s) ↔ ∀ t, x = some t → t = [] ∨ P t := by
  match x with
  | none => simp [nonEmpty]
  | some [] => simp [nonEmpty]
  | some (c :: s) => simp [nonEmpty]

theorem upperCode_not_white {s : PyStr} (h : IsUpperCode s) : ∃ c ∈ s, c ∉ whiteSpace := by
  obtain ⟨h1, h2, _⟩ := h
  match s with
  | [] => simp at h1
  | c :: s =>
    refine ⟨c, by simp, ?_⟩
    have h := h2 c (by simp)
    have key : ∀ c ∈ py!"ABCDEFGHIJKLMNOPQRSTUVWXYZ0123456789-i", c ∉ whiteSpace := by decide +kernel
    exact key c h

theorem looksLikeGroup_not_white {s : PyStr} (h : LooksLikeGroup s) : ∃ c ∈ s, c ∉ whiteSpace := by
  rcases h with h | ⟨t, rfl, h⟩
  · exact upperCode_not_white h
  · obtain ⟨c, hc, hw⟩ := upperCode_not_white h
    exact ⟨c, by simp [hc], hw⟩

/-- the line of a row holds no information iff the row does not -/
theorem lineOfRow_blank {p : PyStr} {above : List RawRow} {row : RawRow} {l : AhbLine} (h : LineOfRow p above row l) :
    l.holdsAnyInformation = false ↔ row.Blank p := by
  rw [C26_holds_any_information]
  have hg : (∀ s, l.segmentGroupKey = some s → ∀ c ∈ s, c ∈ whiteSpace) ↔ ¬ row.InGroup := by
    rcases h.group with ⟨g, h1, h2, h3⟩ | ⟨h1, h2⟩
    · rw [h3]
      constructor
      · intro hw
        obtain ⟨c, hc, hn⟩ := looksLikeGroup_not_white h2
        exact absurd (hw g rfl c hc) hn
      · exact fun hn => absurd ⟨g, h1, h2⟩ hn
    · rw [h2]
      constructor
      · exact fun _ => h1
      · intro _ s hs; cases hs
  have he : ((∀ s, l.valuePoolEntry = some s → ∀ c ∈ s, c ∈ whiteSpace) ∧ (∀ s, l.name = some s → ∀ c ∈ s, c ∈ whiteSpace)) ↔
      ((∀ t, row.cell py!"Codes und Qualifier" = some t → ∀ c ∈ t, c ∈ whiteSpace) ∧
       (∀ t, row.cell py!"Beschreibung" = some t → ∀ c ∈ t, c ∈ whiteSpace)) := by
    rcases h.entry with ⟨_, h1, h2⟩ | ⟨_, h1, h2⟩
    · rw [h1, h2, nonBlank_white, nonBlank_white]
    · rw [h1, h2, nonBlank_white, nonBlank_white, and_comm]
  unfold RawRow.Blank
  simp only [List.mem_cons, List.not_mem_nil, or_false, forall_eq_or_imp, forall_eq]
  rw [hg, h.segment, h.dataElement, h.expression, nonEmpty_white, nonEmpty_white, nonEmpty_white,
    ← and_assoc (a := ∀ s, l.valuePoolEntry = some s → _), he, and_assoc]

theorem lineOfRow_wellFormed {p : PyStr} {above : List RawRow} {row : RawRow} {l : AhbLine} (h : LineOfRow p above row l) :
    l.WellFormed ↔ row.Convertible := by
  unfold AhbLine.WellFormed RawRow.Convertible
  have hg : (∀ s, l.segmentGroupKey = some s → UpToNewline IsSgKey s) ↔
      ∀ g, row.cell py!"Segment Gruppe" = some g → LooksLikeGroup g → UpToNewline IsSgKey g := by
    rcases h.group with ⟨g, h1, h2, h3⟩ | ⟨h1, h2⟩
    · rw [h3, h1]
      simp [h2]
    · rw [h2]
      constructor
      · intro _ g hc hl
        exact absurd ⟨g, hc, hl⟩ h1
      · intro _ s hs; cases hs
  rw [hg, h.segment, h.dataElement, nonEmpty_forall, nonEmpty_forall]
  exact ⟨fun ⟨a, b, c⟩ => ⟨b, c, a⟩, fun ⟨a, b, c⟩ => ⟨c, a, b⟩⟩

end Verif
