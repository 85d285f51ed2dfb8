import Verif.Proofs.Flat
/-! the result of `sort_lines_by_segment_groups` and injectivity of line discriminators -/

namespace Verif
open List

theorem pyStr_le_total (a b : PyStr) : a ≤ b ∨ b ≤ a := List.le_total a b

theorem sgKeyOrEmpty_congr {a b : AhbLine} (h : a.segmentGroupKey = b.segmentGroupKey) :
    sgKeyOrEmpty a = sgKeyOrEmpty b := by simp [sgKeyOrEmpty, h]

/-- the lines regrouped: one block per key -/
theorem sortedLines_eq (lines : List AhbLine) (ks : List (Option PyStr)) (hks : ks.Nodup)
    (hmem : ∀ l ∈ lines, l.segmentGroupKey ∈ ks) :
    sortedLinesBySegmentGroups lines ks =
      .ok (ks.flatMap fun k => lines.filter fun l => decide (l.segmentGroupKey = k)) := by
  have t1 : ∀ a b c : AhbLine, decide (sgKeyOrEmpty a ≤ sgKeyOrEmpty b) = true →
      decide (sgKeyOrEmpty b ≤ sgKeyOrEmpty c) = true → decide (sgKeyOrEmpty a ≤ sgKeyOrEmpty c) = true := by
    simp only [decide_eq_true_eq]
    intro a b c h1 h2
    exact List.le_trans h1 h2
  have t2 : ∀ a b : AhbLine, (decide (sgKeyOrEmpty a ≤ sgKeyOrEmpty b) ||
      decide (sgKeyOrEmpty b ≤ sgKeyOrEmpty a)) = true := by
    intro a b
    simp only [Bool.or_eq_true, decide_eq_true_eq]
    exact pyStr_le_total _ _
  unfold sortedLinesBySegmentGroups
  simp only
  have hall : ((lines.mergeSort fun a b => decide (sgKeyOrEmpty a ≤ sgKeyOrEmpty b)).all
      fun l => decide (l.segmentGroupKey ∈ ks)) = true := by
    rw [List.all_eq_true]
    intro l hl
    simpa using hmem l (List.mem_mergeSort.1 hl)
  rw [if_pos hall]
  congr 1
  have u1 : ∀ a b c : AhbLine, decide (ks.idxOf a.segmentGroupKey ≤ ks.idxOf b.segmentGroupKey) = true →
      decide (ks.idxOf b.segmentGroupKey ≤ ks.idxOf c.segmentGroupKey) = true →
      decide (ks.idxOf a.segmentGroupKey ≤ ks.idxOf c.segmentGroupKey) = true := by
    simp only [decide_eq_true_eq]; intros; omega
  have u2 : ∀ a b : AhbLine, (decide (ks.idxOf a.segmentGroupKey ≤ ks.idxOf b.segmentGroupKey) ||
      decide (ks.idxOf b.segmentGroupKey ≤ ks.idxOf a.segmentGroupKey)) = true := by
    intro a b; simp only [Bool.or_eq_true, decide_eq_true_eq]; omega
  rw [sorted_eq_blocks AhbLine.segmentGroupKey ks hks (List.mergeSort _ fun a b =>
      decide (ks.idxOf a.segmentGroupKey ≤ ks.idxOf b.segmentGroupKey))]
  · refine List.flatMap_congr fun k _ => ?_
    rw [filter_mergeSort _ _ u1 u2, filter_mergeSort _ _ t1 t2]
    · intro a b ha hb
      simp only [decide_eq_true_eq] at ha hb ⊢
      rw [sgKeyOrEmpty_congr (ha.trans hb.symm)]
      exact List.le_refl _
    · intro a b ha hb
      simp only [decide_eq_true_eq] at ha hb ⊢
      rw [ha, hb]
      exact Nat.le_refl _
  · intro l hl
    exact hmem l (List.mem_mergeSort.1 (List.mem_mergeSort.1 hl))
  · refine (List.pairwise_mergeSort u1 u2 _).imp ?_
    intro a b h
    simpa using h

/-- the segment groups of regrouped lines -/
theorem available_blocks (lines : List AhbLine) (ks acc : List (Option PyStr)) (hks : (acc ++ ks).Nodup)
    (hne : ∀ k ∈ ks, k ∈ lines.map AhbLine.segmentGroupKey) :
    availableSegmentGroups acc (ks.flatMap fun k => lines.filter fun l => decide (l.segmentGroupKey = k)) =
      acc ++ ks := by
  induction ks generalizing acc with
  | nil => simp [availableSegmentGroups]
  | cons k ks ih =>
    rw [List.flatMap_cons, available_block k]
    · rw [ih (acc ++ [k]) (by simpa using hks) fun k' hk' => hne k' (List.mem_cons_of_mem _ hk')]
      simp
    · have := hne k List.mem_cons_self
      rw [List.mem_map] at this
      obtain ⟨l, hl, hk⟩ := this
      exact List.ne_nil_of_mem (List.mem_filter.2 ⟨hl, by simpa using hk⟩)
    · intro l hl
      simpa using (List.mem_filter.1 hl).2
    · intro hk
      have := (List.nodup_append.1 hks).2.2 k hk k List.mem_cons_self
      exact this rfl

theorem filter_blocks (lines : List AhbLine) (ks : List (Option PyStr)) (hks : ks.Nodup) (k : Option PyStr)
    (hk : k ∈ ks ∨ ∀ l ∈ lines, l.segmentGroupKey ≠ k) :
    (ks.flatMap fun k => lines.filter fun l => decide (l.segmentGroupKey = k)).filter
      (fun l => decide (l.segmentGroupKey = k)) = lines.filter fun l => decide (l.segmentGroupKey = k) := by
  have key : ∀ k', (lines.filter fun l => decide (l.segmentGroupKey = k')).filter
      (fun l => decide (l.segmentGroupKey = k)) =
      if k' = k then lines.filter fun l => decide (l.segmentGroupKey = k) else [] := by
    intro k'
    rw [List.filter_filter]
    by_cases h : k' = k
    · subst h; simp
    · rw [if_neg h, List.filter_eq_nil_iff]
      intro l _ hc
      simp only [Bool.and_eq_true, decide_eq_true_eq] at hc
      exact h (hc.2.symm.trans hc.1)
  by_cases hmem : k ∈ ks
  · clear hk
    induction ks with
    | nil => simp at hmem
    | cons a ks ih =>
      rw [List.nodup_cons] at hks
      rw [List.flatMap_cons, List.filter_append, key]
      by_cases ha : a = k
      · subst ha
        rw [if_pos rfl, List.filter_flatMap]
        have : (ks.flatMap fun k' => List.filter (fun l => decide (l.segmentGroupKey = a))
            (lines.filter fun l => decide (l.segmentGroupKey = k'))) = [] := by
          rw [List.flatMap_eq_nil_iff]
          intro k' hk'
          rw [key, if_neg]
          rintro rfl; exact hks.1 hk'
        rw [this, List.append_nil]
      · rw [if_neg ha, List.nil_append]
        refine ih hks.2 ?_
        simp only [List.mem_cons] at hmem
        rcases hmem with h | h
        · exact absurd h.symm ha
        · exact h
  · rcases hk with hk | hk
    · exact absurd hk hmem
    · rw [List.filter_flatMap]
      have h1 : (lines.filter fun l => decide (l.segmentGroupKey = k)) = [] := by
        rw [List.filter_eq_nil_iff]; intro l hl; simpa using hk l hl
      rw [h1, List.flatMap_eq_nil_iff]
      intro k' hk'
      rw [key, if_neg]
      rintro rfl; exact hmem hk'

/-- counting occurrences by key -/
theorem perm_blocks (lines : List AhbLine) (ks : List (Option PyStr)) (hks : ks.Nodup)
    (hmem : ∀ l ∈ lines, l.segmentGroupKey ∈ ks) :
    (ks.flatMap fun k => lines.filter fun l => decide (l.segmentGroupKey = k)) ~ lines := by
  have h := sortedLines_eq lines ks hks hmem
  unfold sortedLinesBySegmentGroups at h
  simp only at h
  split at h
  · have h := Except.ok.inj h
    rw [← h]
    exact (List.mergeSort_perm _ _).trans (List.mergeSort_perm _ _)
  · exact absurd h (by simp)

/-- order of the keys in regrouped lines -/
theorem pairwise_blocks (lines : List AhbLine) (ks : List (Option PyStr)) (R : Option PyStr → Option PyStr → Prop)
    (hR : ks.Pairwise R) (hrefl : ∀ k, R k k) :
    (ks.flatMap fun k => lines.filter fun l => decide (l.segmentGroupKey = k)).Pairwise
      fun a b => R a.segmentGroupKey b.segmentGroupKey := by
  rw [List.pairwise_flatMap]
  constructor
  · intro k _
    refine List.pairwise_of_forall_mem_list fun a ha b hb => ?_
    simp only [List.mem_filter, decide_eq_true_eq] at ha hb
    rw [ha.2, hb.2]; exact hrefl k
  · refine hR.imp ?_
    intro k k' h a ha b hb
    simp only [List.mem_filter, decide_eq_true_eq] at ha hb
    rw [ha.2, hb.2]; exact h

theorem check_blocks (lines : List AhbLine) (ks : List (Option PyStr)) (hks : ks.Nodup) :
    checkNearlyAllHaveSg (ks.flatMap fun k => lines.filter fun l => decide (l.segmentGroupKey = k)) = true := by
  apply checkNearly_of_length
  have hsome : ∀ ks' : List (Option PyStr), none ∉ ks' →
      ∀ l ∈ (ks'.flatMap fun k => lines.filter fun l => decide (l.segmentGroupKey = k)), l.segmentGroupKey ≠ none := by
    intro ks' h l hl hn
    rw [List.mem_flatMap] at hl
    obtain ⟨k, hk, hl⟩ := hl
    simp only [List.mem_filter, decide_eq_true_eq] at hl
    rw [← hl.2, hn] at hk
    exact h hk
  by_cases hn : none ∈ ks
  · obtain ⟨k1, k2, rfl⟩ := List.append_of_mem hn
    rw [List.nodup_append, List.nodup_cons] at hks
    rw [List.flatMap_append, List.flatMap_cons, ← List.append_assoc]
    refine splitWhen_one_block ?_ ?_ ?_
    · exact hsome k1 fun h => hks.2.2 none h none List.mem_cons_self rfl
    · intro l hl
      simpa using (List.mem_filter.1 hl).2
    · exact hsome k2 hks.2.1.1
  · have := splitWhen_one_block (hsome ks hn) (b := []) (c := []) (by simp) (by simp)
    simpa using this

theorem contiguous_of_pairwise {α κ} [BEq κ] [LawfulBEq κ] (key : α → κ) (ks : List κ) (l : List α)
    (hmem : ∀ a ∈ l, key a ∈ ks) (h : l.Pairwise fun a b => ks.idxOf (key a) ≤ ks.idxOf (key b)) :
    Contiguous key l := by
  intro i j m a b c hij hjm ha hb hc hac
  have hi := List.getElem?_eq_some_iff.1 ha
  have hj := List.getElem?_eq_some_iff.1 hb
  have hm := List.getElem?_eq_some_iff.1 hc
  obtain ⟨hi, rfl⟩ := hi
  obtain ⟨hj, rfl⟩ := hj
  obtain ⟨hm, rfl⟩ := hm
  rw [List.pairwise_iff_getElem] at h
  have h1 := h i j hi hj hij
  have h2 := h j m hj hm hjm
  rw [← hac] at h2
  exact ((List.idxOf_inj (hmem _ (List.getElem_mem hi))).1 (Nat.le_antisymm h1 h2)).symm

end Verif
