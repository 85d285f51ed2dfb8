import Verif.Proofs.CsvColumns
/-!
# C130: the order of the columns and other columns do not matter
-/

namespace Verif

/-- **C130** two CSV files whose records say the same in the columns of an AHB and in the column with the expressions are read alike: the same
rows, the same conditions, or the same exception. The order of the columns and all other columns do not matter; of several columns with
the same name the last one counts. -/
theorem C130_columns (guid : Nat → Fin (2 ^ 128)) {header header' : List PyStr} {records records' : List (List PyStr)} {pruefi : Option PyStr}
    {p : PyStr} (hp : OnlyExpressionColumn pruefi header p) (hp' : OnlyExpressionColumn pruefi header' p)
    (h : SameCells (p :: ahbColumns) header records header' records') :
    CsvReader.new guid (header :: records) pruefi = CsvReader.new guid (header' :: records') pruefi := by
  have hK : ahbColumns ⊆ p :: ahbColumns := List.subset_cons_self _ _
  unfold CsvReader.new
  rw [show dictReaderFields (header :: records) = some header from rfl, show dictReaderFields (header' :: records') = some header' from rfl,
    choose_expression hp, choose_expression hp']
  simp only [bind, Except.bind, mergeSectionOnlyLines]
  rcases mergeLoop_agree hK (agree_rows h) [] with ⟨e, h1, h2⟩ | ⟨a, b, h1, h2, h3⟩
  · rw [h1, h2]
  · rw [h1, h2]
    simp only [readLoop_agree hK (List.mem_cons_self ..) h3]

/-- **C130 (order)** if the columns of a file are put into another order, with the cells of every record, the file is read alike. -/
theorem C130_order (guid : Nat → Fin (2 ^ 128)) {header header' : List PyStr} {records records' : List (List PyStr)} {pruefi : Option PyStr}
    {p : PyStr} (hn : header.Nodup) (hh : header.Perm header') (hp : OnlyExpressionColumn pruefi header p)
    (hr : List.Forall₂ (fun r r' => (r = [] ∧ r' = []) ∨ r.length = header.length ∧ r'.length = header'.length ∧ (header.zip r).Perm (header'.zip r'))
      records records') (h0 : header ≠ []) :
    CsvReader.new guid (header :: records) pruefi = CsvReader.new guid (header' :: records') pruefi := by
  have hn' : header'.Nodup := hh.nodup_iff.1 hn
  have hp' : OnlyExpressionColumn pruefi header' p := by
    rcases hp with h | ⟨h1, h2, h3, h4⟩
    · exact .inl h
    · exact .inr ⟨h1, hh.mem_iff.1 h2, h3, fun n hm => h4 n (hh.mem_iff.2 hm)⟩
  have hzip : ∀ (hd r : List PyStr) (name c : PyStr), hd.Nodup → r.length = hd.length → name ∈ hd →
      (r[hd.idxOf name]? = some c ↔ (name, c) ∈ hd.zip r) := by
    intro hd r name c hnd hl hm
    induction hd generalizing r with
    | nil => cases hm
    | cons x hd ih =>
      cases r with
      | nil => cases hl
      | cons y r =>
        rw [List.zip_cons_cons, List.mem_cons, Prod.mk.injEq]
        by_cases hx : name = x
        · subst hx
          rw [List.idxOf_cons_self]
          have hno : (name, c) ∉ hd.zip r := fun hz => (List.nodup_cons.1 hnd).1 (List.of_mem_zip hz).1
          simp [hno, eq_comm]
        · rw [List.idxOf_cons_ne _ (fun h => hx h.symm), List.getElem?_cons_succ,
            ih _ (List.nodup_cons.1 hnd).2 (by simpa using hl) (by simpa [hx] using hm)]
          simp [hx]
  refine C130_columns guid hp hp' (hr.imp fun r r' h => ?_)
  rcases h with ⟨rfl, rfl⟩ | ⟨h1, h2, h3⟩
  · refine ⟨Iff.rfl, fun name _ => ?_⟩
    unfold cellAt
    simp only [hh.mem_iff, List.getElem?_nil]
  · have hpos : 0 < header.length := List.length_pos_of_ne_nil h0
    have hpos' : 0 < header'.length := by rw [← hh.length_eq]; exact hpos
    refine ⟨⟨fun h => ?_, fun h => ?_⟩, fun name _ => ?_⟩
    · subst h; simp at h1; omega
    · subst h; simp at h2; omega
    · unfold cellAt
      by_cases hm : name ∈ header
      · rw [if_pos hm, if_pos (hh.mem_iff.1 hm)]
        congr 1
        rw [lastColumn_nodup hn hm, lastColumn_nodup hn' (hh.mem_iff.1 hm)]
        refine Option.ext fun c => ?_
        rw [hzip _ _ _ _ hn h1 hm, hzip _ _ _ _ hn' h2 (hh.mem_iff.1 hm), h3.mem_iff]
      · rw [if_neg hm, if_neg (fun h => hm (hh.mem_iff.2 h))]

/-- the columns of a file are reversed -/
example : let header := exCsvRecords.headD []
    header.Nodup ∧ header.Perm header.reverse ∧ OnlyExpressionColumn none header py!"11042" ∧ header ≠ [] ∧
    List.Forall₂ (fun r r' => (r = [] ∧ r' = []) ∨ r.length = header.length ∧ r'.length = header.reverse.length ∧
      (header.zip r).Perm (header.reverse.zip r')) exCsvRecords.tail (exCsvRecords.tail.map List.reverse) := by
  refine ⟨by decide +kernel, (List.reverse_perm _).symm, .inr ⟨.inl rfl, by decide +kernel, ⟨by decide +kernel, by decide +kernel⟩, ?_⟩, by decide +kernel, ?_⟩
  · have : ∀ n ∈ exCsvRecords.headD [], n ≠ py!"11042" → ∀ c ∈ n.head?, isDigit c = false := by decide +kernel
    have key : ∀ n ∈ exCsvRecords.headD [], n ≠ py!"11042" → ∀ s, s <+: n → ¬ IsFiveDigits s := by
      rintro n hn hne s ⟨t, rfl⟩ ⟨hs, hd⟩
      cases s with
      | nil => cases hs
      | cons c s =>
        have := this _ hn hne c (by simp)
        rw [hd c (by simp)] at this
        cases this
    exact fun n hn hne => ⟨key n hn hne n (List.prefix_refl _), fun s hs => key n hn hne s ⟨_, hs.symm⟩⟩
  · rw [List.forall₂_map_right_iff, List.forall₂_same]
    intro r hr
    have hl : ∀ r ∈ exCsvRecords.tail, r = [] ∨ r.length = (exCsvRecords.headD []).length ∧
        ((exCsvRecords.headD []).zip r).Perm ((exCsvRecords.headD []).reverse.zip r.reverse) := by decide +kernel
    rcases hl r hr with rfl | ⟨h, h'⟩
    · exact .inl ⟨rfl, rfl⟩
    · exact .inr ⟨h, by simp [h], h'⟩

/-- a file with a further column and a repeated name -/
example : SameCells (py!"11042" :: ahbColumns)
    [[], py!"Segment Gruppe", py!"Segment", py!"Datenelement", py!"Codes und Qualifier", py!"Beschreibung", py!"11042", py!"Bedingung"]
    [[py!"1", py!"SG2", py!"NAD", py!"3035", py!"MS", py!"Absender", py!"X", py!"[1] A"], [], [py!"2", py!"SG2"]]
    [py!"Segment", [], py!"Bemerkung", py!"Segment Gruppe", py!"Segment", py!"11042", py!"Datenelement", py!"Codes und Qualifier", py!"Beschreibung",
      py!"Bedingung"]
    [[py!"alt", py!"1", py!"neu", py!"SG2", py!"NAD", py!"X", py!"3035", py!"MS", py!"Absender", py!"[1] A"], [], [py!"", py!"2", py!"", py!"SG2"]] :=
  .cons ⟨by decide, by decide +kernel⟩ (.cons ⟨by decide, by decide +kernel⟩ (.cons ⟨by decide, by decide +kernel⟩ .nil))

/-- the expression column matters: with two columns of five digits, the first one counts -/
example : choosePruefidentifikator none (some [py!"11042", py!"11043"]) ≠ choosePruefidentifikator none (some [py!"11043", py!"11042"]) := by
  decide +kernel

end Verif
