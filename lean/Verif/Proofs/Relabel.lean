import Verif.Proofs.Content
import Verif.Proofs.Csv
import Verif.Proofs.Matching
/-! relabellings: the one that erases the texts, and those that replace characters -/

namespace Verif

theorem erase_fair : Relabelling.erase.Fair where
  empty e := by
    simp only [Relabelling.erase]
    split
    · rfl
    · next h =>
      refine ⟨by simp, fun he => ?_⟩
      subst he
      exact absurd rfl h
  strip_expression e := by
    simp only [Relabelling.erase, trim_eq, strip_strip]
    split
    · next h => rw [h]
    · rfl
  strip_name _ := rfl

theorem samePlace_erase {a b : AhbLine} (h : a.SamePlace b) : a.bare .erase = b.bare .erase := by
  obtain ⟨g, s, d, v, e, n⟩ := h
  have he : a.ahbExpression.map Relabelling.erase.expression = b.ahbExpression.map Relabelling.erase.expression := by
    revert e
    generalize a.ahbExpression = x
    generalize b.ahbExpression = y
    intro e
    cases e with
    | none => rfl
    | some h h' => simp [Relabelling.erase, trim_eq, (strip_ne_nil _).2 h, (strip_ne_nil _).2 h']
  have hn : a.name.map Relabelling.erase.name = b.name.map Relabelling.erase.name := by
    revert n
    cases a.name <;> cases b.name <;> simp [Relabelling.erase]
  simp only [AhbLine.bare, AhbLine.relabel, g, s, d, v, he, hn]
  rfl

/-- the four columns in which the place of a line is written -/
def AhbLine.place (l : AhbLine) : AhbLine :=
  { segmentGroupKey := l.segmentGroupKey, segmentCode := l.segmentCode, dataElement := l.dataElement, valuePoolEntry := l.valuePoolEntry }

theorem place_keepsPlace : KeepsPlace AhbLine.place := ⟨fun _ => rfl, fun _ => rfl, fun _ => rfl, fun _ => rfl⟩

theorem strip_map {f : Char → Char} (hf : ∀ c, isSpace (f c) = isSpace c) (s : PyStr) : strip (s.map f) = (strip s).map f := by
  have hc : (isSpace ∘ f) = isSpace := funext hf
  unfold strip rstrip lstrip
  rw [List.dropWhile_map, hc, ← List.map_reverse, List.dropWhile_map, hc, ← List.map_reverse]

end Verif
