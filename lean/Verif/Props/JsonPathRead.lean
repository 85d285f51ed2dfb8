import Verif.Proofs.JsonPathRead
import Verif.Props.Components
/-!
# C112: reading any text as a JSON path
-/

namespace Verif

/-- **C112** `from_json_path` returns exactly the levels of the text, whatever the text is. -/
theorem C112_exact (p : PyStr) (levels : List EdifactStackLevel) :
    EdifactStack.fromJsonPath p = { levels := levels } ↔ LevelsOfText p levels := by
  constructor
  · intro h
    obtain ⟨ls, hls⟩ := levelsOfText_exists p
    rw [levelsOfText_fromJsonPath hls, EdifactStack.mk.injEq] at h
    exact h ▸ hls
  · exact levelsOfText_fromJsonPath

/-- **C112** the levels that are read have a non-empty name without square brackets and a non negative index iff they are
groupable. -/
theorem C112_levels (p : PyStr) (l : EdifactStackLevel) (hl : l ∈ (EdifactStack.fromJsonPath p).levels) :
    (l.name ≠ [] ∧ ∀ c ∈ l.name, c ≠ '[' ∧ c ≠ ']') ∧ (l.isGroupable = true ↔ l.index ≠ none) ∧
      ∀ i, l.index = some i → 0 ≤ i :=
  levelsOfText_ok ((C112_exact p _).1 rfl) l hl

/-- **C112** the path of what has been read is read as the same stack. -/
theorem C112_reread (p : PyStr) :
    EdifactStack.fromJsonPath (EdifactStack.fromJsonPath p).toJsonPath = EdifactStack.fromJsonPath p :=
  C36_round_trip _ fun l hl => C112_levels p l hl

/-- **C112** no level is read iff `["name"]` occurs nowhere in the text. -/
theorem C112_empty (p : PyStr) :
    (EdifactStack.fromJsonPath p).levels = [] ↔
      ¬ ∃ before name behind, name ≠ [] ∧ (∀ c ∈ name, c ≠ '[' ∧ c ≠ ']') ∧
        p = before ++ (py!"[\"" ++ name ++ py!"\"]" ++ behind) := by
  constructor
  · intro h
    refine levelsOfText_nil ((C112_exact p []).1 ?_)
    rw [← h]
  · intro h
    rw [(C112_exact p []).2 (levelsOfText_of_none h)]

/-- **C112** a text is written again character by character iff it is the path of a stack of such levels. -/
theorem C112_canonical (p : PyStr) :
    (EdifactStack.fromJsonPath p).toJsonPath = p ↔
      ∃ s : EdifactStack, s.toJsonPath = p ∧
        ∀ l ∈ s.levels, (l.name ≠ [] ∧ ∀ c ∈ l.name, c ≠ '[' ∧ c ≠ ']') ∧ ∀ i, l.index = some i → 0 ≤ i := by
  constructor
  · intro h
    exact ⟨_, h, fun l hl => ⟨(C112_levels p l hl).1, (C112_levels p l hl).2.2⟩⟩
  · rintro ⟨s, rfl, hs⟩
    rw [C36_normalisation s hs, toJsonPath_eq, toJsonPath_eq]
    congr 1
    simp only [List.flatMap_map]
    refine List.flatMap_congr fun l _ => ?_
    obtain ⟨n, g, i⟩ := l
    cases i <;> cases g <;> simp [EdifactStack.levelPath] <;> decide

/-! texts that `to_json_path` does not write: leading zeros, an unreadable level between readable ones, an empty name -/

example : EdifactStack.fromJsonPath py!"xx[\"A\"][007][0][\"\"][\"B\"][x]" =
    ⟨[⟨py!"A", true, some 7⟩, ⟨py!"B", false, none⟩]⟩ := by decide +kernel
example : EdifactStack.fromJsonPath py!"$['A'][0]" = ⟨[]⟩ := by decide +kernel
example : EdifactStack.toJsonPath (EdifactStack.fromJsonPath py!"xx[\"A\"][007]") = py!"$[\"A\"][7]" := by decide +kernel

end Verif
