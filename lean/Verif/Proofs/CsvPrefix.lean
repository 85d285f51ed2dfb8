import Verif.Proofs.CsvFlat
/-!
# Further records of a CSV file
-/

namespace Verif

theorem mergeLoop_prefix {b : List RawRow} (a : List RawRow) : ∀ (merged : PyStr) (out : List RawRow), mergeLoop merged (a ++ b) = .ok out →
    ∃ o1 o2, mergeLoop merged a = .ok o1 ∧ out = o1 ++ o2 := by
  induction a with
  | nil => intro merged out _; exact ⟨[], out, by rw [mergeLoop], rfl⟩
  | cons row a ih =>
    intro merged out h
    rw [List.cons_append] at h
    cases hs : sectionOnly? row with
    | some g =>
      rw [mergeLoop_some hs] at h ⊢
      exact ih _ _ h
    | none =>
      by_cases hm : merged = []
      · subst hm
        rw [mergeLoop_nil hs] at h ⊢
        cases hr : mergeLoop [] (a ++ b) with
        | error e => rw [hr] at h; cases h
        | ok result =>
          rw [hr] at h
          cases h
          obtain ⟨o1, o2, h1, rfl⟩ := ih _ _ hr
          exact ⟨row :: o1, o2, by rw [h1]; rfl, rfl⟩
      · have hlen : merged.length > 0 := List.length_pos_of_ne_nil hm
        rw [mergeLoop_heading hs hlen] at h ⊢
        cases ha : artificialRow merged row with
        | error e => rw [ha] at h; cases h
        | ok hd =>
          cases hr : mergeLoop [] (a ++ b) with
          | error e => rw [ha, hr] at h; cases h
          | ok result =>
            rw [ha, hr] at h
            cases h
            obtain ⟨o1, o2, h1, rfl⟩ := ih _ _ hr
            exact ⟨hd :: row :: o1, o2, by rw [h1]; rfl, rfl⟩

theorem readLoop_prefix {p : PyStr} {guid : Nat → Fin (2 ^ 128)} {b : List RawRow} {st' : CsvState} (a : List RawRow) :
    ∀ (i : Nat) (st : CsvState) (ls : List AhbLine), readLoop p guid i st (a ++ b) = .ok (st', ls) →
    ∃ st1 l1 l2, readLoop p guid i st a = .ok (st1, l1) ∧ readLoop p guid (i + a.length) st1 b = .ok (st', l2) ∧ ls = l1 ++ l2 := by
  induction a with
  | nil => intro i st ls h; exact ⟨st, [], ls, rfl, h, rfl⟩
  | cons row a ih =>
    intro i st ls h
    rw [List.cons_append] at h
    simp only [readLoop, bind, Except.bind] at h ⊢
    cases hr : rawRowToAhbLine p (guid i) st row with
    | error e => rw [hr] at h; cases h
    | ok x =>
      obtain ⟨st2, line⟩ := x
      rw [hr] at h
      simp only [] at h ⊢
      cases hl : readLoop p guid (i + 1) st2 (a ++ b) with
      | error e => rw [hl] at h; cases h
      | ok y =>
        obtain ⟨st3, lines⟩ := y
        rw [hl] at h
        obtain ⟨st1, l1, l2, h1, h2, rfl⟩ := ih (i + 1) st2 lines (by
          rw [hl]
          cases line <;> (simp only [pure, Except.pure, Except.ok.injEq, Prod.mk.injEq] at h; rw [h.1]))
        rw [h1]
        have hi : i + (row :: a).length = i + 1 + a.length := by simp only [List.length_cons]; omega
        rw [hi]
        cases line with
        | none =>
          simp only [pure, Except.pure, Except.ok.injEq, Prod.mk.injEq] at h
          exact ⟨st1, l1, l2, rfl, h2, h.2.symm⟩
        | some l =>
          simp only [pure, Except.pure, Except.ok.injEq, Prod.mk.injEq] at h
          exact ⟨st1, _ :: l1, l2, rfl, h2, h.2.symm⟩

/-- the keys of a dictionary stay -/
theorem keys_stay_dictUpdate {k : PyStr} (ps : List (PyStr × PyStr)) : ∀ d : List (PyStr × PyStr), k ∈ d.map Prod.fst →
    k ∈ (dictUpdate d ps).map Prod.fst := by
  induction ps with
  | nil => intro d h; exact h
  | cons q ps ih =>
    intro d h
    exact ih _ (mem_keys_dictSet.2 (.inr h))

theorem splitWhen_prefix {α : Type} (p : α → α → Bool) (b : List α) (a : List α) (ha : a ≠ []) :
    ∃ init last ext rest, splitWhen p a = init ++ [last] ∧ splitWhen p (a ++ b) = init ++ (last ++ ext) :: rest := by
  induction a with
  | nil => exact absurd rfl ha
  | cons x a ih =>
    cases a with
    | nil =>
      cases b with
      | nil => exact ⟨[], [x], [], [], rfl, rfl⟩
      | cons y b =>
        simp only [List.cons_append, List.nil_append, splitWhen]
        split
        · exact ⟨[], [x], [], _, rfl, rfl⟩
        · split
          · exact ⟨[], [x], [], [], rfl, rfl⟩
          · rename_i g gs _
            exact ⟨[], [x], g, gs, rfl, rfl⟩
    | cons y a =>
      obtain ⟨init, last, ext, rest, h1, h2⟩ := ih (by simp)
      rw [List.cons_append] at h2
      simp only [List.cons_append, splitWhen, h1, h2]
      split
      · exact ⟨[x] :: init, last, ext, rest, rfl, rfl⟩
      · cases init with
        | nil => exact ⟨[], x :: last, ext, rest, rfl, rfl⟩
        | cons g init => exact ⟨(x :: g) :: init, last, ext, rest, rfl, rfl⟩

theorem checkLines_prefix {a b : List AhbLine} (h : FlatAhb.checkLines (a ++ b) = .ok ()) : FlatAhb.checkLines a = .ok () := by
  unfold FlatAhb.checkLines at h ⊢
  split at h
  · cases h
  · rename_i h1
    split at h
    · cases h
    · rename_i h2
      rw [if_neg, if_neg]
      · simp only [List.all_append, Bool.not_eq_true', Bool.and_eq_false_iff, not_or, Bool.not_eq_false] at h2 ⊢
        exact h2.1
      · have h3 : checkNearlyAllHaveSg (a ++ b) = true := by simpa using h1
        suffices checkNearlyAllHaveSg a = true by simp [this]
        simp only [checkNearlyAllHaveSg, Bool.not_eq_true', decide_eq_false_iff_not, gt_iff_lt, Nat.not_lt] at h3 ⊢
        refine Nat.le_trans ?_ h3
        by_cases ha : a = []
        · subst ha; simp [splitWhen, removeGroupedContaining]
        · obtain ⟨init, last, ext, rest, e1, e2⟩ := splitWhen_prefix noSgToSg b a ha
          rw [e1, e2]
          unfold removeGroupedContaining
          rw [List.filter_append, List.filter_append, List.length_append, List.length_append]
          refine Nat.add_le_add_left ?_ _
          rw [List.filter_cons, List.filter_cons]
          by_cases hq : last.any (fun l => l.sectionName == some controlSection) = true
          · rw [if_pos hq, if_pos (by rw [List.any_append, hq]; rfl)]
            simp
          · rw [if_neg hq]
            simp

theorem dictReaderRows_append {records : List (List PyStr)} (h : records ≠ []) (more : List (List PyStr)) :
    ∃ rows, dictReaderRows (records ++ more) = dictReaderRows records ++ rows := by
  cases records with
  | nil => exact absurd rfl h
  | cons f rs =>
    exact ⟨(more.filter fun r => !r.isEmpty).map (dictReaderRow f), by simp [dictReaderRows]⟩

theorem dictReaderFields_append {records : List (List PyStr)} (h : records ≠ []) (more : List (List PyStr)) :
    dictReaderFields (records ++ more) = dictReaderFields records := by
  cases records with
  | nil => exact absurd rfl h
  | cons f rs => rfl

/-- reading a row keeps the keys of the conditions -/
theorem rawRow_keys {p : PyStr} {g : Fin (2 ^ 128)} {st st' : CsvState} {row : RawRow} {o : Option AhbLine}
    (h : rawRowToAhbLine p g st row = .ok (st', o)) {k : PyStr} (hk : k ∈ st.bedingungen.map Prod.fst) : k ∈ st'.bedingungen.map Prod.fst := by
  have key : ∃ d, st'.bedingungen = dictUpdate st.bedingungen d := by
    unfold rawRowToAhbLine at h
    simp only [bind, Except.bind] at h
    have hl : ∀ a b c d, rawRowToAhbLine.lineOf p g st row a b c d = .ok (st', o) → st'.bedingungen = d := by
      intro a b c d hh
      unfold rawRowToAhbLine.lineOf at hh
      simp only [bind, Except.bind, pure, Except.pure] at hh
      repeat' split at hh
      all_goals first | (cases hh; done) | (cases hh; rfl)
    repeat' split at h
    all_goals first
      | (cases h; done)
      | exact ⟨_, hl _ _ _ _ h⟩
      | (cases h; exact ⟨_, rfl⟩)
  obtain ⟨d, hd⟩ := key
  rw [hd]
  exact keys_stay_dictUpdate _ _ hk

theorem readLoop_keys {p : PyStr} {guid : Nat → Fin (2 ^ 128)} {k : PyStr} {st' : CsvState} (rows : List RawRow) :
    ∀ (i : Nat) (st : CsvState) (ls : List AhbLine), readLoop p guid i st rows = .ok (st', ls) → k ∈ st.bedingungen.map Prod.fst →
      k ∈ st'.bedingungen.map Prod.fst := by
  induction rows with
  | nil => intro i st ls h hk; cases h; exact hk
  | cons row rows ih =>
    intro i st ls h hk
    simp only [readLoop, bind, Except.bind] at h
    cases hr : rawRowToAhbLine p (guid i) st row with
    | error e => rw [hr] at h; cases h
    | ok x =>
      obtain ⟨st2, line⟩ := x
      rw [hr] at h
      simp only [] at h
      cases hl : readLoop p guid (i + 1) st2 rows with
      | error e => rw [hl] at h; cases h
      | ok y =>
        obtain ⟨st3, lines⟩ := y
        rw [hl] at h
        have : st3 = st' := by cases line <;> (cases h; rfl)
        subst this
        exact ih _ _ _ hl (rawRow_keys hr hk)

end Verif
