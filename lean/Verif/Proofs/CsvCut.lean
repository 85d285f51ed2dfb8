import Verif.Proofs.CsvText
/-!
# Cutting the text of a CSV file
-/

namespace Verif

/-- the finished records of some lines, and the tokeniser behind them -/
def tokRun (d : Char) : Tok → List PyStr → List (List PyStr) × PyRes Tok
  | t, [] => ([], .ok t)
  | t, l :: ls => match t.line d l with
    | .error e => ([], .error e)
    | .ok t' => if t'.state = .startRecord then (t'.fields :: (tokRun d {} ls).1, (tokRun d {} ls).2) else tokRun d t' ls

theorem csvRecords_append (d : Char) (ms : List PyStr) (ls : List PyStr) : ∀ t : Tok, csvRecords d t (ls ++ ms) =
    match (tokRun d t ls).2 with
    | .error e => ((tokRun d t ls).1, some e)
    | .ok t' => ((tokRun d t ls).1 ++ (csvRecords d t' ms).1, (csvRecords d t' ms).2) := by
  induction ls with
  | nil => intro t; rfl
  | cons l ls ih =>
    intro t
    rw [List.cons_append, csvRecords, tokRun]
    cases t.line d l with
    | error e => rfl
    | ok t' =>
      simp only []
      split
      · rw [ih]
        simp only []
        split <;> simp_all
      · exact ih t'

theorem line_end_state {d : Char} (l : PyStr) : ∀ {t t' : Tok}, t.line d l = .ok t' → t'.state = .startRecord ∨ t'.state = .inQuoted := by
  induction l with
  | nil =>
    intro t t' h
    rw [Tok.line] at h
    unfold Tok.step Tok.stepStartField at h
    cases hs : t.state <;> rw [hs] at h <;> simp only [Except.ok.injEq] at h <;> subst h
    · exact .inl hs
    · exact .inl rfl
    · exact .inl rfl
    · exact .inr hs
    · exact .inl rfl
    · exact .inl rfl
  | cons c l ih =>
    intro t t' h
    rw [Tok.line] at h
    cases hs : t.step d (some c) with
    | error e => rw [hs] at h; cases h
    | ok t2 => rw [hs] at h; exact ih h

theorem tokRun_state {d : Char} (ls : List PyStr) : ∀ {t t' : Tok}, (t = {} ∨ t.state = .inQuoted) → (tokRun d t ls).2 = .ok t' →
    t' = {} ∨ t'.state = .inQuoted := by
  induction ls with
  | nil => intro t t' ht h; cases h; exact ht
  | cons l ls ih =>
    intro t t' ht h
    rw [tokRun] at h
    cases hl : t.line d l with
    | error e => rw [hl] at h; cases h
    | ok t2 =>
      rw [hl] at h
      simp only [] at h
      split at h
      · exact ih (.inl rfl) h
      · rename_i hn
        exact ih (.inr ((line_end_state _ hl).resolve_left hn)) h

theorem tokRun_none {d : Char} (ls : List PyStr) : ∀ {t t' : Tok}, t.state ≠ .startRecord → tokRun d t ls = ([], .ok t') →
    t'.state ≠ .startRecord := by
  induction ls with
  | nil => intro t t' ht h; cases h; exact ht
  | cons l ls ih =>
    intro t t' ht h
    rw [tokRun] at h
    cases hl : t.line d l with
    | error e => rw [hl] at h; cases h
    | ok t2 =>
      rw [hl] at h
      simp only [] at h
      split at h
      · cases h
      · rename_i hn
        exact ih hn h

theorem tokRun_ne_nil {d : Char} {l : PyStr} {ls : List PyStr} (h : (tokRun d {} (l :: ls)).2 = .ok {}) : (tokRun d {} (l :: ls)).1 ≠ [] := by
  intro h0
  rw [tokRun] at h h0
  cases hl : ({} : Tok).line d l with
  | error e => rw [hl] at h; cases h
  | ok t2 =>
    rw [hl] at h h0
    simp only [] at h h0
    split at h
    · rename_i hs
      rw [if_pos hs] at h0
      cases h0
    · rename_i hs
      rw [if_neg hs] at h0
      exact tokRun_none _ hs (Prod.ext h0 h) rfl

theorem fileLines_append (b : PyStr) (a : PyStr) (h : a.getLast? = some '\n') : fileLines (a ++ b) = fileLines a ++ fileLines b := by
  induction a with
  | nil => cases h
  | cons c a ih =>
    rw [List.cons_append, fileLines, fileLines]
    by_cases ha : a = []
    · subst ha
      have : c = '\n' := by simpa using h
      subst this
      rfl
    · have hl : a.getLast? = some '\n' := by
        rw [List.getLast?_cons] at h
        cases hx : a.getLast? with
        | none => exact absurd (List.getLast?_eq_none_iff.1 hx) ha
        | some x => rw [hx] at h; simpa using h
      rw [ih hl]
      split
      · rfl
      · cases hf : fileLines a with
        | nil => exact absurd (fileLines_eq_nil.1 hf) ha
        | cons l ls => rfl

theorem universalNewlines_last {a : PyStr} (h : a.getLast? = some '\n') : (universalNewlines a).getLast? = some '\n' := by
  fun_induction universalNewlines a with
  | case1 => cases h
  | case2 s ih =>
    rw [List.getLast?_cons]
    cases s with
    | nil => rfl
    | cons c s =>
      rw [ih (by rw [List.getLast?_cons, List.getLast?_cons] at h; simpa [List.getLast?_cons] using h)]
      rfl
  | case3 s hs ih =>
    rw [List.getLast?_cons]
    cases s with
    | nil => rfl
    | cons c s =>
      rw [ih (by rw [List.getLast?_cons] at h; simpa [List.getLast?_cons] using h)]
      rfl
  | case4 c s h1 h2 ih =>
    rw [List.getLast?_cons]
    cases s with
    | nil => exact h
    | cons c' s =>
      rw [ih (by rw [List.getLast?_cons] at h; simpa [List.getLast?_cons] using h)]
      rfl

theorem lines_append (b : PyStr) {a : PyStr} (h : a.getLast? = some '\n') :
    fileLines (universalNewlines (a ++ b)) = fileLines (universalNewlines a) ++ fileLines (universalNewlines b) := by
  rw [universalNewlines_append b (fun hr => by rw [h] at hr; cases hr), fileLines_append _ _ (universalNewlines_last h)]

/-- a text that ends outside of quotation marks: a further line feed is an empty record -/
theorem csvRead_append {d : Char} {a : PyStr} (h : a.getLast? = some '\n') {records : List (List PyStr)}
    (hc : csvRead d a = (records, none)) (he : csvRead d (a ++ ['\n']) = (records ++ [[]], none)) :
    records ≠ [] ∧ ∀ b, csvRead d (a ++ b) = (records ++ (csvRead d b).1, (csvRead d b).2) := by
  unfold csvRead at hc he ⊢
  rw [lines_append _ h, csvRecords_append] at he
  rw [← List.append_nil (fileLines _), csvRecords_append] at hc
  have hA : fileLines (universalNewlines a) ≠ [] := fun hx => by
    have := fileLines_eq_nil.1 hx
    have h2 := universalNewlines_last h
    rw [this] at h2
    cases h2
  generalize hAe : fileLines (universalNewlines a) = A at hc he hA
  cases ht : (tokRun d {} A).2 with
  | error e => rw [ht] at hc; cases hc
  | ok t =>
    rw [ht] at he hc
    simp only [Prod.mk.injEq] at he hc
    rcases tokRun_state _ (.inl rfl) ht with rfl | hq
    · have hr : (tokRun d {} A).1 = records := by
        rw [← hc.1]
        simp [csvRecords]
      refine ⟨?_, fun b => ?_⟩
      · rw [← hr]
        cases A with
        | nil => exact absurd rfl hA
        | cons l ls => exact tokRun_ne_nil ht
      · rw [lines_append _ h, csvRecords_append]
        rw [hAe, ht, hr]
    · exfalso
      have e1 : (csvRecords d t []).1.length = 1 := by simp [csvRecords, hq]
      have e2 : (csvRecords d t (fileLines (universalNewlines ['\n']))).1.length ≤ 1 := by
        show (csvRecords d t [['\n']]).1.length ≤ 1
        rw [csvRecords]
        split
        · simp
        · rename_i t' hl
          have hl' : t'.state = .inQuoted := by
            simp only [Tok.line, bind, Except.bind, Tok.step, hq, Tok.add] at hl
            by_cases hlen : fieldSizeLimit ≤ t.field.length
            · simp [hlen] at hl
            · simp [hlen] at hl
              rw [← hl]
          rw [if_neg (by rw [hl']; decide)]
          simp [csvRecords, hl']
      have l1 := congrArg List.length hc.1
      have l2 := congrArg List.length he.1
      simp only [List.length_append, List.length_singleton] at l1 l2
      omega

/-! ## texts without quotation marks -/

theorem line_plain {d : Char} (l : PyStr) : ∀ {t t' : Tok}, '"' ∉ l → (t.state = .startRecord ∨ t.state = .startField ∨ t.state = .inField ∨ t.state = .eatCrnl) →
    t.line d l = .ok t' → t'.state = .startRecord := by
  induction l with
  | nil =>
    intro t t' _ ht h
    rcases line_end_state _ h with h1 | h1
    · exact h1
    · rw [Tok.line] at h
      unfold Tok.step Tok.stepStartField at h
      rcases ht with hs | hs | hs | hs <;> rw [hs] at h <;> simp only [Except.ok.injEq] at h <;> subst h <;> first | exact hs | rfl
  | cons c l ih =>
    intro t t' hq ht h
    rw [Tok.line] at h
    have hcq : c ≠ '"' := fun e => hq (by simp [e])
    cases hs : t.step d (some c) with
    | error e => rw [hs] at h; cases h
    | ok t2 =>
      rw [hs] at h
      refine ih (fun hx => hq (List.mem_cons_of_mem _ hx)) ?_ h
      unfold Tok.step Tok.stepStartField Tok.add at hs
      rcases ht with hst | hst | hst | hst <;> rw [hst] at hs <;> simp only [hcq, if_false] at hs <;> repeat' split at hs
      all_goals first
        | (cases hs; done)
        | (cases hs; simp [Tok.save, *])

theorem tokRun_plain {d : Char} (ls : List PyStr) (hq : ∀ l ∈ ls, '"' ∉ l) {t : Tok} (h : (tokRun d {} ls).2 = .ok t) : t = {} := by
  induction ls with
  | nil => cases h; rfl
  | cons l ls ih =>
    rw [tokRun] at h
    cases hl : ({} : Tok).line d l with
    | error e => rw [hl] at h; cases h
    | ok t2 =>
      rw [hl] at h
      simp only [line_plain l (hq l (by simp)) (.inl rfl) hl, if_true] at h
      exact ih (fun l hl => hq l (List.mem_cons_of_mem _ hl)) h

theorem mem_fileLines {c : Char} {l : PyStr} (s : PyStr) : l ∈ fileLines s → c ∈ l → c ∈ s := by
  induction s generalizing l with
  | nil => intro h; cases h
  | cons x s ih =>
    intro h hc
    rw [fileLines] at h
    split at h
    · rcases List.mem_cons.1 h with rfl | h
      · simp at hc; simp [hc]
      · exact List.mem_cons_of_mem _ (ih h hc)
    · split at h
      · simp at h; subst h; simp at hc; simp [hc]
      · rename_i l' ls' he
        rcases List.mem_cons.1 h with rfl | h
        · rcases List.mem_cons.1 hc with rfl | hc
          · simp
          · exact List.mem_cons_of_mem _ (ih (by rw [he]; simp) hc)
        · exact List.mem_cons_of_mem _ (ih (by rw [he]; simp [h]) hc)

theorem universalNewlines_no_quote {s : PyStr} (h : '"' ∉ s) : '"' ∉ universalNewlines s := by
  fun_induction universalNewlines s with
  | case1 => exact h
  | case2 s ih => simp at h ⊢; exact ih h
  | case3 s _ ih => simp at h ⊢; exact ih h
  | case4 c s _ _ ih => simp at h ⊢; exact ⟨h.1, ih h.2⟩

theorem csvRead_plain {d : Char} {a : PyStr} (h : a.getLast? = some '\n') (hq : '"' ∉ a) {records : List (List PyStr)}
    (hc : csvRead d a = (records, none)) : csvRead d (a ++ ['\n']) = (records ++ [[]], none) := by
  unfold csvRead at hc ⊢
  rw [lines_append _ h, csvRecords_append]
  rw [← List.append_nil (fileLines _), csvRecords_append] at hc
  cases ht : (tokRun d {} (fileLines (universalNewlines a))).2 with
  | error e => rw [ht] at hc; cases hc
  | ok t =>
    rw [ht] at hc
    have := tokRun_plain _ (fun l hl hx => universalNewlines_no_quote hq (mem_fileLines _ hl hx)) ht
    subst this
    simp only [Prod.mk.injEq] at hc ⊢
    have hr : (tokRun d {} (fileLines (universalNewlines a))).1 = records := by
      rw [← hc.1]
      simp [csvRecords]
    have e : csvRecords d {} (fileLines (universalNewlines ['\n'])) = ([[]], none) := by
      show csvRecords d {} [['\n']] = _
      simp [csvRecords, Tok.line, Tok.step, bind, Except.bind]
    rw [hr, e]
    exact ⟨rfl, rfl⟩

/-- the part before the cut has no error if the whole text can be read -/
theorem csvRead_first {guid : Nat → Fin (2 ^ 128)} {d : Char} {text more : PyStr} {pruefi : Option PyStr} {whole : CsvReader}
    (hend : text.getLast? = some '\n') (hq : '"' ∉ text) (h : CsvReader.ofText guid d (text ++ more) pruefi = .ok whole) :
    ∃ records, csvRead d text = (records, none) := by
  unfold CsvReader.ofText csvRead at h
  rw [lines_append _ hend, csvRecords_append] at h
  cases ht : (tokRun d {} (fileLines (universalNewlines text))).2 with
  | error e =>
    rw [ht] at h
    exfalso
    cases hr : (tokRun d {} (fileLines (universalNewlines text))).1 with
    | nil => rw [hr] at h; cases h
    | cons f rs =>
      rw [hr] at h
      simp only [CsvReader.ofRecords, bind, Except.bind] at h
      split at h <;> cases h
  | ok t =>
    have := tokRun_plain _ (fun l hl hx => universalNewlines_no_quote hq (mem_fileLines _ hl hx)) ht
    subst this
    unfold csvRead
    rw [← List.append_nil (fileLines _), csvRecords_append, ht]
    exact ⟨_, Prod.ext rfl (by simp [csvRecords])⟩

end Verif
