import Verif.Spec.HashOrder
import Verif.Proofs.LocationRead
import Verif.Proofs.DeepOps
/-! lemmas for the iteration order of sets -/

namespace Verif

theorem onlyContains_order {keys : List PyStr} (h : ColumnOrder keys) (row : RawRow) :
    onlyContainsSegmentGruppeIn keys row = onlyContainsSegmentGruppe row := by
  unfold onlyContainsSegmentGruppeIn onlyContainsSegmentGruppe
  rw [Bool.eq_iff_iff, List.all_eq_true, List.all_eq_true]
  exact ⟨fun hh k hk => hh k (h.mem_iff.2 hk), fun hh k hk => hh k (h.mem_iff.1 hk)⟩

theorem sectionOnly_order {keys : List PyStr} (h : ColumnOrder keys) (row : RawRow) : sectionOnlyIn keys row = sectionOnly? row := by
  unfold sectionOnlyIn sectionOnly?
  simp only [onlyContains_order h]
  rfl

theorem dictGet_foldl_keys (keys : List PyStr) (d : RawRow) (k : PyStr) :
    dictGet k (keys.foldl (fun d key => dictSet key (some []) d) d) = if k ∈ keys then some (some []) else dictGet k d := by
  induction keys generalizing d with
  | nil => simp
  | cons x keys ih =>
    rw [List.foldl_cons, ih, dictGet_dictSet]
    by_cases h1 : k ∈ keys
    · simp [h1]
    · by_cases h2 : x = k
      · simp [h2]
      · simp [h1, h2, Ne.symm h2]

theorem dictGet_map_keys (keys : List PyStr) (k : PyStr) :
    dictGet k (keys.map fun key => (key, some ([] : PyStr))) = if k ∈ keys then some (some []) else none := by
  induction keys with
  | nil => simp [dictGet]
  | cons x keys ih =>
    rw [List.map_cons, dictGet, ih]
    by_cases h : x = k
    · simp [h]
    · simp [h, Ne.symm h]

theorem SameRow.refl (a : RawRow) : SameRow a a := fun _ => rfl

theorem sameRow_list_join {a b c : List RawRow} (h : List.Forall₂ SameRow a c) (h' : List.Forall₂ SameRow b c) :
    List.Forall₂ SameRow a b := by
  induction h generalizing b with
  | nil => cases h'; exact .nil
  | cons hab _ ih =>
    cases h' with
    | cons hcb h' => exact .cons (fun k => (hab k).trans (hcb k).symm) (ih h')

theorem artificialRow_order {keys : List PyStr} (h : ColumnOrder keys) (merged : PyStr) (row : RawRow) :
    (∃ e, artificialRowIn keys merged row = .error e ∧ artificialRow merged row = .error e) ∨
    ∃ a b, artificialRowIn keys merged row = .ok a ∧ artificialRow merged row = .ok b ∧ SameRow a b := by
  unfold artificialRowIn artificialRow
  cases row.subscript [] with
  | error e => exact .inl ⟨e, rfl, rfl⟩
  | ok index =>
    simp only [Bind.bind, Except.bind]
    cases index with
    | none => exact .inl ⟨_, rfl, rfl⟩
    | some s =>
      simp only
      cases pyInt s with
      | none => exact .inl ⟨_, rfl, rfl⟩
      | some i =>
        refine .inr ⟨_, _, rfl, rfl, fun k => ?_⟩
        have hk : k ∈ keys ↔ k ∈ contentKeys := h.mem_iff
        have hn : ∀ k ∈ contentKeys, k ≠ [] ∧ k ≠ py!"Segment Gruppe" := by decide
        rw [dictGet_foldl_keys]
        simp only [dictGet, dictGet_map_keys]
        by_cases hc : k ∈ contentKeys
        · rw [if_pos (hk.2 hc), if_neg (Ne.symm (hn k hc).1), if_neg (Ne.symm (hn k hc).2), if_pos hc]
        · rw [if_neg (fun x => hc (hk.1 x)), if_neg hc]

theorem mergeLoop_order {keys : List PyStr} (h : ColumnOrder keys) (rows : List RawRow) (merged : PyStr) :
    SameRows (mergeLoopIn keys merged rows) (mergeLoop merged rows) := by
  induction rows generalizing merged with
  | nil => exact List.Forall₂.nil
  | cons row rows ih =>
    rw [mergeLoopIn, mergeLoop, sectionOnly_order h]
    cases sectionOnly? row with
    | some g => exact ih _
    | none =>
      simp only [Bind.bind, Except.bind, pure, Except.pure]
      have ih := ih []
      split
      · rcases artificialRow_order h merged row with ⟨e, h1, h2⟩ | ⟨a, b, h1, h2, hab⟩
        · rw [h1, h2]
          rfl
        · rw [h1, h2]
          simp only
          cases h3 : mergeLoopIn keys [] rows <;> cases h4 : mergeLoop [] rows <;> rw [h3, h4] at ih
          · exact ih
          · cases ih
          · cases ih
          · exact .cons hab (.cons (.refl _) ih)
      · cases h3 : mergeLoopIn keys [] rows <;> cases h4 : mergeLoop [] rows <;> rw [h3, h4] at ih
        · exact ih
        · cases ih
        · cases ih
        · exact .cons (.refl _) ih

theorem subscript_same {a b : RawRow} (h : SameRow a b) (key : PyStr) : a.subscript key = b.subscript key := by
  unfold RawRow.subscript
  rw [h key]

theorem rawRow_same {a b : RawRow} (h : SameRow a b) (p : PyStr) (guid : Fin (2 ^ 128)) (st : CsvState) :
    rawRowToAhbLine p guid st a = rawRowToAhbLine p guid st b := by
  unfold rawRowToAhbLine rawRowToAhbLine.lineOf
  simp only [subscript_same h]

theorem readLoop_same {a b : List RawRow} (h : List.Forall₂ SameRow a b) (p : PyStr) (guid : Nat → Fin (2 ^ 128)) (i : Nat) (st : CsvState) :
    readLoop p guid i st a = readLoop p guid i st b := by
  induction h generalizing i st with
  | nil => rfl
  | cons hab _ ih =>
    rw [readLoop, readLoop, rawRow_same hab]
    simp only [ih]

theorem reader_order {keys : List PyStr} (h : ColumnOrder keys) (guid : Nat → Fin (2 ^ 128)) (records : List (List PyStr))
    (pruefi : Option PyStr) : CsvReader.newIn keys guid records pruefi = CsvReader.new guid records pruefi := by
  unfold CsvReader.newIn CsvReader.new
  cases choosePruefidentifikator pruefi (dictReaderFields records) with
  | error e => rfl
  | ok p =>
    simp only [Bind.bind, Except.bind]
    have hm := mergeLoop_order h (dictReaderRows records) []
    unfold mergeSectionOnlyLinesIn mergeSectionOnlyLines
    cases h3 : mergeLoopIn keys [] (dictReaderRows records) <;> cases h4 : mergeLoop [] (dictReaderRows records) <;> rw [h3, h4] at hm
    · cases hm; rfl
    · cases hm
    · cases hm
    · simp only [readLoop_same hm]

end Verif
