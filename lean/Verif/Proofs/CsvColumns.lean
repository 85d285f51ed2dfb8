import Verif.Props.Csv
import Verif.Spec.CsvColumns
/-!
# Columns of a CSV file
-/

namespace Verif

/-- rows that agree in some columns -/
def RowsAgreeOn (K : List PyStr) (a b : RawRow) : Prop := ∀ key ∈ K, dictGet key a = dictGet key b

theorem lastColumn_eq {before after : List PyStr} {name : PyStr} (h : name ∉ after) :
    lastColumn (before ++ name :: after) name = before.length := by
  unfold lastColumn
  have : (before ++ name :: after).reverse = after.reverse ++ name :: before.reverse := by simp
  rw [this, List.idxOf_append, if_neg (by simpa using h), List.idxOf_cons_self]
  simp only [List.length_append, List.length_cons, List.length_reverse]
  omega

theorem last_occurrence {header : List PyStr} {name : PyStr} (h : name ∈ header) :
    ∃ before after, header = before ++ name :: after ∧ name ∉ after := by
  obtain ⟨a, b, hab, ha⟩ := List.eq_append_cons_of_mem (List.mem_reverse.2 h)
  refine ⟨b.reverse, a.reverse, ?_, by simpa using ha⟩
  have := congrArg List.reverse hab
  simpa using this

theorem lastColumn_nodup {header : List PyStr} (hn : header.Nodup) {name : PyStr} (h : name ∈ header) :
    lastColumn header name = header.idxOf name := by
  obtain ⟨before, after, rfl, ha⟩ := last_occurrence h
  have hnb : name ∉ before := fun hx => by
    have := (List.nodup_append.1 hn).2.2 name hx name (by simp)
    exact this rfl
  rw [lastColumn_eq ha, List.idxOf_append, if_neg hnb, List.idxOf_cons_self]
  simp

theorem dictGet_row {header record : List PyStr} {row : RawRow} (h : RowOf header record row) (name : PyStr) :
    dictGet name row = cellAt header record name := by
  unfold cellAt
  split
  · rename_i hm
    obtain ⟨before, after, rfl, hna⟩ := last_occurrence hm
    obtain ⟨⟨v, hv⟩, hc⟩ := h.2 before name after rfl hna
    rw [lastColumn_eq hna, hv]
    unfold RawRow.cell at hc
    rw [hv] at hc
    simpa using hc
  · rename_i hm
    cases hg : dictGet name row with
    | none => rfl
    | some v => exact absurd (h.1 name ⟨v, hg⟩) hm

theorem row_of_record (hd r : List PyStr) (hr : r ≠ []) : RowOf hd r (dictReaderRow hd r) := by
  have := C43_rows hd [r]
  simp only [dictReaderRows] at this
  have e : r.isEmpty = false := by cases r with
    | nil => exact absurd rfl hr
    | cons _ _ => rfl
  simp only [hr, e, List.filter_cons, List.filter_nil, ne_eq, not_false_eq_true, decide_true, if_true, Bool.not_false, List.map_cons, List.map_nil] at this
  cases this with
  | cons h _ => exact h

theorem agree_rows {K header header' : List PyStr} {records records' : List (List PyStr)}
    (h : SameCells K header records header' records') :
    List.Forall₂ (RowsAgreeOn K) (dictReaderRows (header :: records)) (dictReaderRows (header' :: records')) := by
  unfold SameCells at h
  simp only [dictReaderRows]
  induction h with
  | nil => exact .nil
  | @cons r r' rs rs' hr _ ih =>
    by_cases he : r = []
    · have he' := hr.1.1 he
      subst he he'
      exact ih
    · have he' : r' ≠ [] := fun h => he (hr.1.2 h)
      have e : r.isEmpty = false := by simpa using he
      have e' : r'.isEmpty = false := by simpa using he'
      simp only [List.filter_cons, e, e', Bool.not_false, if_true, List.map_cons]
      refine .cons (fun key hk => ?_) ih
      rw [dictGet_row (row_of_record _ _ he), dictGet_row (row_of_record _ _ he')]
      exact hr.2 key hk

theorem subscript_agree {K : List PyStr} {a b : RawRow} (h : RowsAgreeOn K a b) {key : PyStr} (hk : key ∈ K) : a.subscript key = b.subscript key := by
  unfold RawRow.subscript
  rw [h key hk]

theorem sectionOnly_agree {K : List PyStr} (hK : ahbColumns ⊆ K) {a b : RawRow} (h : RowsAgreeOn K a b) : sectionOnly? a = sectionOnly? b := by
  have hc : onlyContainsSegmentGruppe a = onlyContainsSegmentGruppe b := by
    unfold onlyContainsSegmentGruppe
    rw [Bool.eq_iff_iff, List.all_eq_true, List.all_eq_true]
    have : ∀ key ∈ contentKeys, dictGet key a = dictGet key b := fun key hk => h key (hK (by
      revert hk; revert key; decide +kernel))
    constructor
    · intro hh key hk; rw [← this key hk]; exact hh key hk
    · intro hh key hk; rw [this key hk]; exact hh key hk
  unfold sectionOnly?
  rw [h _ (hK (by decide)), hc]

theorem artificialRow_agree {K : List PyStr} (hK : ahbColumns ⊆ K) {a b : RawRow} (h : RowsAgreeOn K a b) (merged : PyStr) :
    artificialRow merged a = artificialRow merged b := by
  unfold artificialRow
  rw [subscript_agree h (hK (by decide))]

/-- the same exception or agreeing rows -/
def AgreeRes (K : List PyStr) (x y : PyRes (List RawRow)) : Prop :=
  (∃ e, x = .error e ∧ y = .error e) ∨ ∃ a b, x = .ok a ∧ y = .ok b ∧ List.Forall₂ (RowsAgreeOn K) a b

theorem mergeLoop_agree {K : List PyStr} (hK : ahbColumns ⊆ K) {a b : List RawRow} (h : List.Forall₂ (RowsAgreeOn K) a b) :
    ∀ merged : PyStr, AgreeRes K (mergeLoop merged a) (mergeLoop merged b) := by
  induction h with
  | nil => intro merged; exact .inr ⟨[], [], by rw [mergeLoop], by rw [mergeLoop], .nil⟩
  | @cons r r' rows rows' hr _ ih =>
    intro merged
    have hs := sectionOnly_agree hK hr
    cases hx : sectionOnly? r with
    | some g =>
      rw [mergeLoop_some hx, mergeLoop_some (hs ▸ hx)]
      exact ih _
    | none =>
      have hx' : sectionOnly? r' = none := hs ▸ hx
      rcases ih [] with ⟨e, h1, h2⟩ | ⟨a, b, h1, h2, h3⟩
      · by_cases hm : merged = []
        · subst hm
          rw [mergeLoop_nil hx, mergeLoop_nil hx', h1, h2]
          exact .inl ⟨e, rfl, rfl⟩
        · have hlen : merged.length > 0 := List.length_pos_of_ne_nil hm
          rw [mergeLoop_heading hx hlen, mergeLoop_heading hx' hlen, h1, h2, artificialRow_agree hK hr]
          cases artificialRow merged r' with
          | error e => exact .inl ⟨e, rfl, rfl⟩
          | ok hd => exact .inl ⟨e, rfl, rfl⟩
      · by_cases hm : merged = []
        · subst hm
          rw [mergeLoop_nil hx, mergeLoop_nil hx', h1, h2]
          exact .inr ⟨_, _, rfl, rfl, .cons hr h3⟩
        · have hlen : merged.length > 0 := List.length_pos_of_ne_nil hm
          rw [mergeLoop_heading hx hlen, mergeLoop_heading hx' hlen, h1, h2, artificialRow_agree hK hr]
          cases artificialRow merged r' with
          | error e => exact .inl ⟨e, rfl, rfl⟩
          | ok hd => exact .inr ⟨_, _, rfl, rfl, .cons (fun _ _ => rfl) (.cons hr h3)⟩

theorem rawRow_agree {K : List PyStr} (hK : ahbColumns ⊆ K) {p : PyStr} (hp : p ∈ K) {a b : RawRow} (h : RowsAgreeOn K a b) (guid : Fin (2 ^ 128))
    (st : CsvState) : rawRowToAhbLine p guid st a = rawRowToAhbLine p guid st b := by
  unfold rawRowToAhbLine rawRowToAhbLine.lineOf
  rw [subscript_agree h (hK (show py!"Codes und Qualifier" ∈ ahbColumns by decide)), subscript_agree h (hK (show py!"Beschreibung" ∈ ahbColumns by decide)),
    subscript_agree h (hK (show py!"Bedingung" ∈ ahbColumns by decide)), subscript_agree h (hK (show py!"Segment Gruppe" ∈ ahbColumns by decide)),
    subscript_agree h (hK (show py!"Segment" ∈ ahbColumns by decide)), subscript_agree h (hK (show py!"Datenelement" ∈ ahbColumns by decide)),
    subscript_agree h hp]

theorem readLoop_agree {K : List PyStr} (hK : ahbColumns ⊆ K) {p : PyStr} (hp : p ∈ K) {a b : List RawRow} (h : List.Forall₂ (RowsAgreeOn K) a b)
    (guid : Nat → Fin (2 ^ 128)) : ∀ (i : Nat) (st : CsvState), readLoop p guid i st a = readLoop p guid i st b := by
  induction h with
  | nil => intro i st; rfl
  | cons hr _ ih =>
    intro i st
    simp only [readLoop, rawRow_agree hK hp hr, ih]

theorem choose_expression {given : Option PyStr} {header : List PyStr} {p : PyStr} (h : OnlyExpressionColumn given header p) :
    choosePruefidentifikator given (some header) = .ok p := by
  have hp0 : ∀ q : PyStr, q ≠ [] → truthy (some q) = true := by
    intro q hq
    cases q with
    | nil => exact absurd rfl hq
    | cons _ _ => rfl
  rcases h with ⟨rfl, hp⟩ | ⟨hg, hm, h5, hu⟩
  · simp [choosePruefidentifikator, hp0 p hp]
  · have ht : truthy given = false := by rcases hg with rfl | rfl <;> rfl
    have hpne : p ≠ [] := by
      rintro rfl
      have := h5.1
      cases this
    have hfind : getNameOfExpressionColumn (some header) = some p := by
      rw [C46_expression_column_exact]
      obtain ⟨before, after, hb, hnot⟩ := List.append_of_mem hm |>.elim fun _ _ => List.eq_append_cons_of_mem hm
      refine ⟨before, after, by rw [hb], .inl h5, fun m hmb hx => ?_⟩
      have hum := hu m (by rw [hb]; simp [hmb]) (fun e => hnot (e ▸ hmb))
      rcases hx with hx | ⟨t, hx, rfl⟩
      · exact hum.1 hx
      · exact hum.2 t rfl hx
    simp [choosePruefidentifikator, ht, hfind, hp0 p hpne]

end Verif
