import Verif.Proofs.HashOrder
import Verif.Props.Csv
import Verif.Props.Deep
/-!
# C116: nothing depends on the iteration order of sets
-/

namespace Verif

/-- **C116** the CSV reader: whatever the order in which the set of columns is iterated, the same lines, Prüfidentifikator and conditions
are read, or the same exception is raised -/
theorem C116_reader {keys keys' : List PyStr} (h : ColumnOrder keys) (h' : ColumnOrder keys') (guid : Nat → Fin (2 ^ 128))
    (records : List (List PyStr)) (pruefi : Option PyStr) :
    CsvReader.newIn keys guid records pruefi = CsvReader.newIn keys' guid records pruefi := by
  rw [reader_order h, reader_order h']

/-- **C116** the model with the fixed order, about which the other properties of the reader are proved, gives the same -/
theorem C116_model {keys : List PyStr} (h : ColumnOrder keys) (guid : Nat → Fin (2 ^ 128)) (records : List (List PyStr))
    (pruefi : Option PyStr) : CsvReader.newIn keys guid records pruefi = CsvReader.new guid records pruefi := reader_order h guid records pruefi

/-- **C116** `merge_section_only_lines` returns equal dictionaries for every order (with the keys in another order) -/
theorem C116_merge {keys keys' : List PyStr} (h : ColumnOrder keys) (h' : ColumnOrder keys') (rows : List RawRow) :
    SameRows (mergeSectionOnlyLinesIn keys rows) (mergeSectionOnlyLinesIn keys' rows) := by
  have h1 := mergeLoop_order h rows []
  have h2 := mergeLoop_order h' rows []
  unfold mergeSectionOnlyLinesIn
  cases ha : mergeLoopIn keys [] rows <;> cases hb : mergeLoopIn keys' [] rows <;> cases hc : mergeLoop [] rows <;>
    rw [ha, hc] at h1 <;> rw [hb, hc] at h2 <;> try (first | exact absurd h1 id | exact absurd h2 id)
  · exact h1.trans h2.symm
  · exact sameRow_list_join h1 h2

example : ColumnOrder [py!"Beschreibung", py!"Segment", py!"Bedingung", py!"Codes und Qualifier", py!"Datenelement"] := by
  show List.Perm _ _
  decide +kernel
example : mergeSectionOnlyLinesIn [py!"Beschreibung", py!"Segment", py!"Bedingung", py!"Codes und Qualifier", py!"Datenelement"]
    (dictReaderRows exCsvRecords) ≠ mergeSectionOnlyLines (dictReaderRows exCsvRecords) := by decide +kernel

/-- **C116** `get_all_expressions`: whatever the order in which the set of expressions is iterated, the same list is returned -/
theorem C116_expressions (a : DeepAhb) (elements : List PyStr) (hn : elements.Nodup)
    (h : ∀ e, e ∈ elements ↔ e ≠ [] ∧ ∃ x ∈ documentOrder a.lines, e ∈ x.expressions) : sortedElements elements = a.getAllExpressions := by
  obtain ⟨h1, h2⟩ := C33_get_all_expressions a
  have hnd : a.getAllExpressions.Nodup := h1.imp fun hlt heq => by
    rw [heq] at hlt
    exact List.lt_irrefl _ hlt
  have hp : (sortedElements elements).Perm a.getAllExpressions := by
    refine (List.mergeSort_perm _ _).trans ((List.perm_ext_iff_of_nodup hn hnd).2 fun e => ?_)
    rw [h, h2]
  refine hp.eq_of_pairwise (le := (· ≤ ·)) ?_ ?_ ?_
  · intro x y _ _ hxy hyx
    exact List.le_antisymm hxy hyx
  · refine (List.pairwise_mergeSort le_trans_pyStr le_total_pyStr elements).imp ?_
    intro x y hxy
    simpa using hxy
  · exact h1.imp fun hlt => List.le_of_lt hlt

example : sortedElements [py!"X [1]", py!"Muss", py!"X", py!"Kann", py!"Soll"] = exDeep.getAllExpressions := by
  refine C116_expressions _ _ (by decide +kernel) fun e => ?_
  rw [← List.mem_flatMap]
  have h1 : ∀ e ∈ [py!"X [1]", py!"Muss", py!"X", py!"Kann", py!"Soll"],
      e ≠ [] ∧ e ∈ (documentOrder exDeep.lines).flatMap DocItem.expressions := by decide +kernel
  have h2 : ∀ e ∈ (documentOrder exDeep.lines).flatMap DocItem.expressions,
      e ≠ [] → e ∈ [py!"X [1]", py!"Muss", py!"X", py!"Kann", py!"Soll"] := by decide +kernel
  exact ⟨h1 e, fun h => h2 e h.2 h.1⟩

end Verif
