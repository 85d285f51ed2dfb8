import Verif.Proofs.JsonPath
import Verif.Spec.JsonPathRead
/-! reading json paths (C112) -/

namespace Verif
open Re

theorem all_noBracket {name : PyStr} (h : ∀ c ∈ name, c ≠ '[' ∧ c ≠ ']') : name.all noBracket = true := by
  rw [List.all_eq_true]
  intro c hc
  simp [noBracket, (h c hc).1, (h c hc).2]

theorem of_all_noBracket {name : PyStr} (h : name.all (fun c => c != '[' && c != ']') = true) :
    ∀ c ∈ name, c ≠ '[' ∧ c ≠ ']' := by
  rw [List.all_eq_true] at h
  intro c hc
  simpa using h c hc

/-- no match where no level begins -/
theorem run_levelRe_nil {pos : Nat} {text : PyStr} (h : ¬ ∃ name rest, BeginsWithName text name rest) :
    run EdifactStack.levelRe { pos := pos, rest := text } = [] := by
  rw [run_levelRe]
  have : run levelNameRe { pos := pos, rest := text } = [] := by
    rw [List.eq_nil_iff_forall_not_mem]
    intro t ht
    simp only [levelNameRe, mem_seq, mem_str, mem_grp, mem_plusLazy_cls] at ht
    obtain ⟨u, ⟨s1, h1, rfl⟩, v, ⟨_, ⟨w, s2, hw, h2, hall, rfl⟩, rfl⟩, s3, h3, rfl⟩ := ht
    simp only [adv_rest] at h1 h2 h3
    refine h ⟨w, s3, hw, of_all_noBracket hall, ?_⟩
    rw [h1, h2, h3]; simp
  rw [this]; rfl

/-- a level without index -/
theorem head_levelRe_plain {pos : Nat} {name s : PyStr} (hne : name ≠ []) (hname : name.all noBracket = true)
    (hs : ¬ ∃ digits rest', BeginsWithIndex s digits rest') :
    (run EdifactStack.levelRe { pos := pos, rest := py!"[\"" ++ name ++ py!"\"]" ++ s }).head? =
      some (afterName pos name s) := by
  rw [run_levelRe]
  refine head?_flatMap_singleton (fun x => mem_levelNameRe hne hname) ?_
  refine head?_alt_right ?_ rfl
  rw [List.eq_nil_iff_forall_not_mem]
  intro t ht
  simp only [levelIndexRe, mem_seq, mem_chr, mem_grp, mem_plus_cls] at ht
  obtain ⟨u, ⟨s1, h1, rfl⟩, v, ⟨_, ⟨w, s2, hw, h2, hall, rfl⟩, rfl⟩, s3, h3, _⟩ := ht
  simp only [adv_rest, afterName] at h1 h2 h3
  refine hs ⟨w, s3, hw, List.all_eq_true.1 hall, ?_⟩
  rw [h1, h2, h3]; simp

theorem findIter_of_levels {text : PyStr} {levels : List EdifactStackLevel} (h : LevelsOfText text levels) :
    ∀ fuel pos, text.length < fuel →
      (findIterAux EdifactStack.levelRe fuel pos text).map EdifactStack.levelOfMatch = levels := by
  induction h with
  | done =>
    intro fuel pos hf
    cases fuel with
    | zero => simp at hf
    | succ fuel =>
      have : run EdifactStack.levelRe { pos := pos, rest := [] } = [] :=
        run_levelRe_nil (by rintro ⟨n, r, _, _, h⟩; simp at h)
      simp [findIterAux, this]
  | skip c text levels hno _ ih =>
    intro fuel pos hf
    cases fuel with
    | zero => simp at hf
    | succ fuel =>
      rw [findIterAux_noMatch (run_levelRe_nil hno)]
      exact ih _ _ (by simpa using hf)
  | plain text name rest levels hb hno _ ih =>
    intro fuel pos hf
    obtain ⟨hne, hname, rfl⟩ := hb
    cases fuel with
    | zero => simp at hf
    | succ fuel =>
      have h1 := head_levelRe_plain (pos := pos) hne (all_noBracket hname) hno
      simp only [List.length_append, List.length_cons, List.length_nil] at hf
      rw [findIterAux_match h1 (by simp [afterName]; omega), List.map_cons]
      rw [show (afterName pos name rest).rest = rest from rfl, ih _ _ (by omega)]
      simp [EdifactStack.levelOfMatch, group, afterName]
  | indexed text name rest digits rest' levels hb hi _ ih =>
    intro fuel pos hf
    obtain ⟨hne, hname, rfl⟩ := hb
    obtain ⟨hd, hdig, rfl⟩ := hi
    cases fuel with
    | zero => simp at hf
    | succ fuel =>
      have h1 := head_levelRe_index (pos := pos) (s := rest') hne (all_noBracket hname) hd (List.all_eq_true.2 hdig)
      simp only [List.length_append, List.length_cons, List.length_nil] at hf
      rw [findIterAux_match h1 (by simp; omega), List.map_cons, ih _ _ (by omega)]
      simp [EdifactStack.levelOfMatch, group]

/-- every text has levels -/
theorem levelsOfText_exists (text : PyStr) : ∃ levels, LevelsOfText text levels := by
  generalize hn : text.length = n
  induction n using Nat.strongRecOn generalizing text with
  | _ n ih =>
    by_cases h : ∃ name rest, BeginsWithName text name rest
    · obtain ⟨name, rest, hb⟩ := h
      have hlen : rest.length < n := by
        rw [← hn, hb.2.2]; simp; omega
      by_cases hi : ∃ digits rest', BeginsWithIndex rest digits rest'
      · obtain ⟨digits, rest', hi⟩ := hi
        have hlen' : rest'.length < n := by
          rw [hi.2.2] at hlen; simp at hlen; omega
        obtain ⟨ls, hls⟩ := ih _ hlen' rest' rfl
        exact ⟨_, .indexed _ _ _ _ _ _ hb hi hls⟩
      · obtain ⟨ls, hls⟩ := ih _ hlen rest rfl
        exact ⟨_, .plain _ _ _ _ hb hi hls⟩
    · cases text with
      | nil => exact ⟨_, .done⟩
      | cons c text =>
        obtain ⟨ls, hls⟩ := ih text.length (by simp at hn; omega) text rfl
        exact ⟨_, .skip _ _ _ h hls⟩

theorem levelsOfText_fromJsonPath {p : PyStr} {levels : List EdifactStackLevel} (h : LevelsOfText p levels) :
    EdifactStack.fromJsonPath p = { levels := levels } := by
  unfold EdifactStack.fromJsonPath findIter
  rw [findIter_of_levels h _ _ (Nat.lt_succ_self _)]

theorem levelsOfText_ok {p : PyStr} {levels : List EdifactStackLevel} (h : LevelsOfText p levels) :
    ∀ l ∈ levels, (l.name ≠ [] ∧ ∀ c ∈ l.name, c ≠ '[' ∧ c ≠ ']') ∧ (l.isGroupable = true ↔ l.index ≠ none) ∧
      ∀ i, l.index = some i → 0 ≤ i := by
  induction h with
  | done => simp
  | skip _ _ _ _ _ ih => exact ih
  | plain text name rest levels hb hno _ ih =>
    intro l hl
    cases hl with
    | head => exact ⟨⟨hb.1, hb.2.1⟩, by simp, by simp⟩
    | tail _ hl => exact ih l hl
  | indexed text name rest digits rest' levels hb hi _ ih =>
    intro l hl
    cases hl with
    | head => exact ⟨⟨hb.1, hb.2.1⟩, by simp, by rintro i h; cases h; exact Int.natCast_nonneg _⟩
    | tail _ hl => exact ih l hl

theorem levelsOfText_nil {p : PyStr} (h : LevelsOfText p []) :
    ¬ ∃ a name rest, name ≠ [] ∧ (∀ c ∈ name, c ≠ '[' ∧ c ≠ ']') ∧ p = a ++ (py!"[\"" ++ name ++ py!"\"]" ++ rest) := by
  generalize hl : ([] : List EdifactStackLevel) = ls at h
  induction h with
  | done => rintro ⟨a, n, r, _, _, h⟩; simp at h
  | skip c text levels hno _ ih =>
    rintro ⟨a, n, r, h1, h2, h⟩
    cases a with
    | nil => exact hno ⟨n, r, h1, h2, h⟩
    | cons b a => exact ih hl ⟨a, n, r, h1, h2, (List.cons.inj h).2⟩
  | plain => cases hl
  | indexed => cases hl

theorem levelsOfText_of_none {p : PyStr}
    (h : ¬ ∃ a name rest, name ≠ [] ∧ (∀ c ∈ name, c ≠ '[' ∧ c ≠ ']') ∧ p = a ++ (py!"[\"" ++ name ++ py!"\"]" ++ rest)) :
    LevelsOfText p [] := by
  induction p with
  | nil => exact .done
  | cons c p ih =>
    refine .skip _ _ _ (fun ⟨n, r, h1, h2, h3⟩ => h ⟨[], n, r, h1, h2, h3⟩) (ih ?_)
    rintro ⟨a, n, r, h1, h2, h3⟩
    exact h ⟨c :: a, n, r, h1, h2, by rw [h3]; rfl⟩

end Verif
