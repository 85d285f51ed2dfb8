import Verif.Proofs.CsvReader
import Verif.Proofs.CsvColumns
import Verif.Proofs.CsvTwice
import Verif.Proofs.CsvSections
/-!
# One CSV file with several Prüfidentifikatoren
-/

namespace Verif

/-- a line without its expression -/
def AhbLine.withoutExpression (l : AhbLine) : AhbLine := { l with ahbExpression := none }

theorem lineOf_pruefi {p q : PyStr} {g : Fin (2 ^ 128)} {st s s' : CsvState} {row : RawRow} {group vpe desc : Option PyStr}
    {bed : List (PyStr × PyStr)} {o o' : Option AhbLine} (h : rawRowToAhbLine.lineOf p g st row group vpe desc bed = .ok (s, o))
    (h' : rawRowToAhbLine.lineOf q g st row group vpe desc bed = .ok (s', o')) :
    s = s' ∧ o.map AhbLine.withoutExpression = o'.map AhbLine.withoutExpression := by
  unfold rawRowToAhbLine.lineOf at h h'
  simp only [bind, Except.bind, pure, Except.pure] at h h'
  cases h1 : row.subscript py!"Segment" with
  | error e => rw [h1] at h; cases h
  | ok seg =>
    cases h2 : row.subscript py!"Datenelement" with
    | error e => rw [h1, h2] at h; cases h
    | ok de =>
      cases hp : row.subscript p with
      | error e => rw [h1, h2, hp] at h; cases h
      | ok ex =>
        cases hq : row.subscript q with
        | error e => rw [h1, h2, hq] at h'; cases h'
        | ok ex' =>
          rw [h1, h2, hp] at h
          rw [h1, h2, hq] at h'
          cases hn : replaceHardcodedSectionNames st.currentSectionName with
          | error e => rw [hn] at h; cases h
          | ok name =>
            rw [hn] at h h'
            simp only [] at h h'
            split at h
            · cases h
            · rename_i l hl
              split at h'
              · cases h'
              · rename_i l' hl'
                obtain ⟨rfl, _⟩ := lineNew_ok hl
                obtain ⟨rfl, _⟩ := lineNew_ok hl'
                cases h
                cases h'
                exact ⟨rfl, rfl⟩

theorem rawRow_pruefi {p q : PyStr} {g : Fin (2 ^ 128)} {st s s' : CsvState} {row : RawRow} {o o' : Option AhbLine}
    (h : rawRowToAhbLine p g st row = .ok (s, o)) (h' : rawRowToAhbLine q g st row = .ok (s', o')) :
    s = s' ∧ o.map AhbLine.withoutExpression = o'.map AhbLine.withoutExpression := by
  unfold rawRowToAhbLine at h h'
  simp only [bind, Except.bind] at h h'
  cases h1 : row.subscript py!"Codes und Qualifier" with
  | error e => rw [h1] at h; cases h
  | ok codes =>
    cases h2 : row.subscript py!"Beschreibung" with
    | error e => rw [h1, h2] at h; cases h
    | ok besch =>
      cases h3 : row.subscript py!"Bedingung" with
      | error e => rw [h1, h2, h3] at h; cases h
      | ok bed =>
        cases h4 : row.subscript py!"Segment Gruppe" with
        | error e => rw [h1, h2, h3, h4] at h; cases h
        | ok gruppe =>
          rw [h1, h2, h3, h4] at h h'
          simp only [] at h h'
          split at h
          · rename_i hg
            rw [if_pos hg] at h'
            exact lineOf_pruefi h h'
          · rename_i hg
            rw [if_neg hg] at h'
            cases gruppe with
            | none => cases h
            | some t =>
              simp only [] at h h'
              split at h
              · rename_i ht
                rw [if_pos ht] at h'
                cases h
                cases h'
                exact ⟨rfl, rfl⟩
              · rename_i ht
                rw [if_neg ht] at h'
                exact lineOf_pruefi h h'

theorem readLoop_pruefi {p q : PyStr} {guid : Nat → Fin (2 ^ 128)} (rows : List RawRow) : ∀ (i : Nat) (st s s' : CsvState) (ls ls' : List AhbLine),
    readLoop p guid i st rows = .ok (s, ls) → readLoop q guid i st rows = .ok (s', ls') →
    s = s' ∧ ls.map AhbLine.withoutExpression = ls'.map AhbLine.withoutExpression := by
  induction rows with
  | nil => intro i st s s' ls ls' h h'; cases h; cases h'; exact ⟨rfl, rfl⟩
  | cons row rows ih =>
    intro i st s s' ls ls' h h'
    simp only [readLoop, bind, Except.bind] at h h'
    cases h1 : rawRowToAhbLine p (guid i) st row with
    | error e => rw [h1] at h; cases h
    | ok x =>
      cases h2 : rawRowToAhbLine q (guid i) st row with
      | error e => rw [h2] at h'; cases h'
      | ok y =>
        obtain ⟨s1, o⟩ := x
        obtain ⟨s2, o'⟩ := y
        obtain ⟨rfl, ho⟩ := rawRow_pruefi h1 h2
        rw [h1] at h
        rw [h2] at h'
        simp only [] at h h'
        cases h3 : readLoop p guid (i + 1) s1 rows with
        | error e => rw [h3] at h; cases h
        | ok x =>
          cases h4 : readLoop q guid (i + 1) s1 rows with
          | error e => rw [h4] at h'; cases h'
          | ok y =>
            obtain ⟨s3, l3⟩ := x
            obtain ⟨s4, l4⟩ := y
            obtain ⟨rfl, hl⟩ := ih _ _ _ _ _ _ h3 h4
            rw [h3] at h
            rw [h4] at h'
            cases o with
            | none =>
              cases o' with
              | none => cases h; cases h'; exact ⟨rfl, hl⟩
              | some l' => cases ho
            | some l =>
              cases o' with
              | none => cases ho
              | some l' =>
                cases h
                cases h'
                have hx : l.withoutExpression = l'.withoutExpression := Option.some.inj ho
                refine ⟨rfl, ?_⟩
                simp only [List.map_cons, hl, List.cons.injEq, and_true]
                exact congrArg (fun l : AhbLine => { l with index := some (i : Int) }) hx

/-- the row can be read with `q` if it can be read with `p` -/
def ReadableToo (p q : PyStr) (row : RawRow) : Prop :=
  (∃ v, dictGet q row = some v ∧ ∀ c, v = some c → c = [] ∨ strip c ≠ []) ∨ dictGet p row = none

theorem lineOf_too {p q : PyStr} {g : Fin (2 ^ 128)} {st : CsvState} {row : RawRow} (hr : ReadableToo p q row) {group vpe desc : Option PyStr}
    {bed : List (PyStr × PyStr)} {x : CsvState × Option AhbLine} (h : rawRowToAhbLine.lineOf p g st row group vpe desc bed = .ok x) :
    ∃ y, rawRowToAhbLine.lineOf q g st row group vpe desc bed = .ok y := by
  unfold rawRowToAhbLine.lineOf at h ⊢
  simp only [bind, Except.bind, pure, Except.pure] at h ⊢
  cases h1 : row.subscript py!"Segment" with
  | error e => rw [h1] at h; cases h
  | ok seg =>
    cases h2 : row.subscript py!"Datenelement" with
    | error e => rw [h1, h2] at h; cases h
    | ok de =>
      cases hp : row.subscript p with
      | error e => rw [h1, h2, hp] at h; cases h
      | ok ex =>
        rcases hr with ⟨v, hv, hb⟩ | hr
        · have hq : row.subscript q = .ok v := by
            unfold RawRow.subscript
            rw [hv]
          rw [h1, h2, hp] at h
          rw [hq]
          cases hn : replaceHardcodedSectionNames st.currentSectionName with
          | error e => rw [hn] at h; cases h
          | ok name =>
            simp only [AhbLine.new]
            have hvalid : (orNone? v).isNone || isNotBlank (orNone? v) := by
              cases v with
              | none => rfl
              | some c =>
                cases c with
                | nil => rfl
                | cons a t =>
                  rcases hb _ rfl with h0 | h0
                  · cases h0
                  · simp [orNone?, orNone, isNotBlank, h0]
            have hg : (g : Nat) < 2 ^ 128 := g.2
            rw [if_pos (by simp only [AhbLine.valid, hvalid, hg, decide_true, Bool.and_true])]
            exact ⟨_, rfl⟩
        · unfold RawRow.subscript at hp
          rw [hr] at hp
          cases hp

theorem rawRow_too {p q : PyStr} {g : Fin (2 ^ 128)} {st : CsvState} {row : RawRow} (hr : ReadableToo p q row) {x : CsvState × Option AhbLine}
    (h : rawRowToAhbLine p g st row = .ok x) : ∃ y, rawRowToAhbLine q g st row = .ok y := by
  unfold rawRowToAhbLine at h ⊢
  simp only [bind, Except.bind] at h ⊢
  cases h1 : row.subscript py!"Codes und Qualifier" with
  | error e => rw [h1] at h; cases h
  | ok codes =>
    cases h2 : row.subscript py!"Beschreibung" with
    | error e => rw [h1, h2] at h; cases h
    | ok besch =>
      cases h3 : row.subscript py!"Bedingung" with
      | error e => rw [h1, h2, h3] at h; cases h
      | ok bed =>
        cases h4 : row.subscript py!"Segment Gruppe" with
        | error e => rw [h1, h2, h3, h4] at h; cases h
        | ok gruppe =>
          rw [h1, h2, h3, h4] at h
          simp only [] at h ⊢
          split at h
          · rename_i hg
            rw [if_pos hg]
            exact lineOf_too hr h
          · rename_i hg
            rw [if_neg hg]
            cases gruppe with
            | none => cases h
            | some t =>
              simp only [] at h ⊢
              split at h
              · rename_i ht
                rw [if_pos ht]
                exact ⟨_, rfl⟩
              · rename_i ht
                rw [if_neg ht]
                exact lineOf_too hr h

theorem readLoop_too {p q : PyStr} {guid : Nat → Fin (2 ^ 128)} (rows : List RawRow) (hr : ∀ row ∈ rows, ReadableToo p q row) :
    ∀ (i : Nat) (st : CsvState) (x : CsvState × List AhbLine), readLoop p guid i st rows = .ok x → ∃ y, readLoop q guid i st rows = .ok y := by
  induction rows with
  | nil => intro i st x _; exact ⟨_, rfl⟩
  | cons row rows ih =>
    intro i st x h
    simp only [readLoop, bind, Except.bind] at h ⊢
    cases h1 : rawRowToAhbLine p (guid i) st row with
    | error e => rw [h1] at h; cases h
    | ok a =>
      obtain ⟨⟨s2, o2⟩, h2⟩ := rawRow_too (hr row (by simp)) h1
      obtain ⟨s1, o1⟩ := a
      obtain ⟨rfl, _⟩ := rawRow_pruefi h1 h2
      rw [h1] at h
      rw [h2]
      simp only [] at h ⊢
      cases h3 : readLoop p guid (i + 1) s1 rows with
      | error e => rw [h3] at h; cases h
      | ok b =>
        obtain ⟨⟨s4, l4⟩, h4⟩ := ih (fun r hm => hr r (by simp [hm])) _ _ _ h3
        rw [h4]
        cases o2 with
        | none => exact ⟨_, rfl⟩
        | some l => exact ⟨_, rfl⟩

theorem artificial_without {p : PyStr} (hp : p ∉ ahbColumns) {merged : PyStr} {row hd : RawRow} (h : artificialRow merged row = .ok hd) :
    dictGet p hd = none := by
  obtain ⟨i, hi⟩ := artificialRow_form h
  rw [hi merged] at h
  cases h
  simp only [ahbColumns, List.mem_cons, List.not_mem_nil, or_false, not_or] at hp
  obtain ⟨p1, p2, p3, p4, p5, p6, p7⟩ := hp
  simp [dictGet, contentKeys, Ne.symm p1, Ne.symm p2, Ne.symm p3, Ne.symm p4, Ne.symm p5, Ne.symm p6, Ne.symm p7]

theorem mergeLoop_too {p q : PyStr} (hp : p ∉ ahbColumns) (rows : List RawRow) (hr : ∀ row ∈ rows, ReadableToo p q row) :
    ∀ (merged : PyStr) (out : List RawRow), mergeLoop merged rows = .ok out → ∀ row ∈ out, ReadableToo p q row := by
  induction rows with
  | nil => intro merged out h; rw [mergeLoop] at h; cases h; intro row hm; cases hm
  | cons r rows ih =>
    intro merged out h
    have ih := ih fun r hm => hr r (by simp [hm])
    rw [mergeLoop] at h
    split at h
    · exact ih _ _ h
    · simp only [bind, Except.bind, pure, Except.pure] at h
      split at h
      · cases h1 : artificialRow merged r with
        | error e => rw [h1] at h; cases h
        | ok hd =>
          cases h2 : mergeLoop [] rows with
          | error e => rw [h1, h2] at h; cases h
          | ok res =>
            rw [h1, h2] at h
            cases h
            intro row hm
            rcases List.mem_cons.1 hm with rfl | hm
            · exact .inr (artificial_without hp h1)
            · rcases List.mem_cons.1 hm with rfl | hm
              · exact hr _ (by simp)
              · exact ih _ _ h2 row hm
      · cases h2 : mergeLoop [] rows with
        | error e => rw [h2] at h; cases h
        | ok res =>
          rw [h2] at h
          cases h
          intro row hm
          rcases List.mem_cons.1 hm with rfl | hm
          · exact hr _ (by simp)
          · exact ih _ _ h2 row hm

end Verif
