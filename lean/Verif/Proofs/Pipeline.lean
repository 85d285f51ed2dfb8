import Verif.Spec.Pipeline
import Verif.Spec.Schema
import Verif.Proofs.CsvReader
/-!
# Flat AHBs that have been read from a CSV file pass all validators
-/

namespace Verif

theorem lineOf_valid {p : PyStr} {guid : Fin (2 ^ 128)} {st st' : CsvState} {row : RawRow} {group vpe desc : Option PyStr}
    {bed : List (PyStr × PyStr)} {o : Option AhbLine}
    (h : rawRowToAhbLine.lineOf p guid st row group vpe desc bed = .ok (st', o)) :
    ∀ l, o = some l → l.guid = some guid.val ∧ l.valid = true := by
  unfold rawRowToAhbLine.lineOf AhbLine.new at h
  simp only [bind, Except.bind, pure, Except.pure] at h
  (repeat' split at h) <;> cases h
  rename_i hv
  rintro l ⟨⟩
  split at hv
  · cases hv
    exact ⟨rfl, by assumption⟩
  · cases hv

theorem rawRow_valid {p : PyStr} {guid : Fin (2 ^ 128)} {st st' : CsvState} {row : RawRow} {o : Option AhbLine}
    (h : rawRowToAhbLine p guid st row = .ok (st', o)) : ∀ l, o = some l → l.guid = some guid.val ∧ l.valid = true := by
  unfold rawRowToAhbLine at h
  simp only [bind, Except.bind] at h
  (repeat' split at h) <;> first | cases h; done | exact lineOf_valid h | (cases h; rintro l ⟨⟩)

theorem readLoop_valid {p : PyStr} {guid : Nat → Fin (2 ^ 128)} (rows : List RawRow) : ∀ {i : Nat} {st st' : CsvState} {ls : List AhbLine},
    readLoop p guid i st rows = .ok (st', ls) →
    ∀ l ∈ ls, ∃ j : Nat, l.index = some (j : Int) ∧ l.guid = some (guid j).val ∧ l.valid = true := by
  induction rows with
  | nil => intro i st st' ls h; cases h; simp
  | cons row rows ih =>
    intro i st st' ls h
    rw [readLoop] at h
    cases h1 : rawRowToAhbLine p (guid i) st row with
    | error e => rw [h1] at h; cases h
    | ok x =>
      obtain ⟨s1, o⟩ := x
      rw [h1] at h
      simp only [bind, Except.bind] at h
      cases h2 : readLoop p guid (i + 1) s1 rows with
      | error e => rw [h2] at h; cases h
      | ok y =>
        obtain ⟨s2, ls'⟩ := y
        rw [h2] at h
        cases o with
        | none => cases h; exact ih h2
        | some l =>
          cases h
          rintro l' (_ | ⟨_, hl⟩)
          · obtain ⟨e1, e2⟩ := rawRow_valid h1 l rfl
            refine ⟨i, rfl, e1, ?_⟩
            unfold AhbLine.valid at e2 ⊢
            simp only [Bool.and_eq_true] at e2 ⊢
            exact ⟨⟨e2.1.1, by simp⟩, e2.2⟩
          · exact ih h2 _ hl

theorem ofBytes_new {guid : Nat → Fin (2 ^ 128)} {delimiter : Char} {content : Bytes} {pruefi : Option PyStr} {r : CsvReader}
    (h : CsvReader.ofBytes guid delimiter content pruefi = .ok r) : ∃ records, CsvReader.new guid records pruefi = .ok r := by
  unfold CsvReader.ofBytes at h
  cases hd : decodeUtf8 content with
  | error e => rw [hd] at h; cases h
  | ok text =>
    rw [hd] at h
    simp only [bind, Except.bind] at h
    generalize csvRecords delimiter {} (fileLines text) = x at h
    obtain ⟨records, e⟩ := x
    cases e with
    | none => exact ⟨records, h⟩
    | some e =>
      cases records with
      | nil => cases h
      | cons a l =>
        unfold CsvReader.ofRecords at h
        simp only [bind, Except.bind] at h
        split at h <;> cases h

theorem new_rows_valid {guid : Nat → Fin (2 ^ 128)} {records : List (List PyStr)} {pruefi : Option PyStr} {r : CsvReader}
    (h : CsvReader.new guid records pruefi = .ok r) :
    ∀ l ∈ r.rows, ∃ j : Nat, l.index = some (j : Int) ∧ l.guid = some (guid j).val ∧ l.valid = true := by
  obtain ⟨p, merged, st, lines, _, _, h3, rfl⟩ := reader_ok h
  exact readLoop_valid merged h3

theorem flatOfCsv_constructed {guid : Nat → Fin (2 ^ 128)} {delimiter : Char} {content : Bytes} {pruefi : Option PyStr} {flat : FlatAhb}
    (h : FlatAhbOfCsv guid delimiter content pruefi flat) : flat.Constructed := by
  obtain ⟨r, h1, h2⟩ := h
  obtain ⟨records, h1⟩ := ofBytes_new h1
  unfold CsvReader.toFlatAhb at h2
  simp only [bind, Except.bind] at h2
  split at h2
  · cases h2
  · next m hm =>
    obtain ⟨hm', rfl⟩ : AhbMetaInformation.new m = .ok m ∧ m = { pruefidentifikator := r.pruefidentifikator } := by
      cases hm
      exact ⟨rfl, rfl⟩
    have hf : flat = ⟨{ pruefidentifikator := r.pruefidentifikator }, r.rows.filter AhbLine.holdsAnyInformation⟩ := by
      unfold FlatAhb.new at h2
      cases hc : FlatAhb.checkLines (r.rows.filter AhbLine.holdsAnyInformation) with
      | error e => rw [hc] at h2; cases h2
      | ok u => rw [hc] at h2; cases h2; rfl
    subst hf
    refine ⟨h2, hm', fun l hl => ?_⟩
    obtain ⟨j, _, hg, hv⟩ := new_rows_valid h1 l (List.mem_filter.1 hl).1
    refine ⟨by rw [AhbLine.new, if_pos hv], fun g hg' => ?_⟩
    rw [hg] at hg'
    cases hg'
    exact (guid j).isLt

end Verif
