import Verif.Proofs.MigLocation
import Verif.Props.MigAttribs
/-!
# C133: what a MIG lookup reads of a location
-/

namespace Verif

/-- **C133** locations that ask for the same element get the same answer: the same element, or the same exception. -/
theorem C133_question (root : Xml) {a b : AhbLocation} (h : SameQuestion a b) : getElement root a = getElement root b := by
  unfold getElement
  have e1 := layerLoop_question root h.layers
  have e2 : ∀ final c, migSegmentStep root a.segmentCode a.layers.getLast? final c = migSegmentStep root b.segmentCode b.layers.getLast? final c := by
    intro final c
    unfold migSegmentStep
    rcases h.segment with hs | ⟨h1, h2⟩
    · rw [hs]
      rcases getLast_question h.layers with ⟨h3, h4⟩ | ⟨x, y, h3, h4, h5⟩
      · rw [h3, h4]
      · rw [h3, h4]
        simp only [h5]
    · rcases h1 with h1 | h1 <;> rcases h2 with h2 | h2 <;> rw [h1, h2] <;> simp
  have e3 : ∀ final c, fieldStep root a.dataElementId a.qualifier final c = fieldStep root b.dataElementId b.qualifier final c := by
    intro final c
    by_cases hd : a.dataElementId = none
    · rw [← h.dataElement, hd]
      rfl
    · rw [← h.dataElement, h.qualifier hd]
  have hl := h.layers
  cases ha : a.layers with
  | nil =>
    rw [ha] at hl
    cases hb : b.layers with
    | nil => rfl
    | cons _ _ => rw [hb] at hl; cases hl
  | cons x l =>
    rw [ha] at hl
    cases hb : b.layers with
    | nil => rw [hb] at hl; cases hl
    | cons y l' =>
      rw [ha, hb] at e1 e2
      simp only [e1, e2, e3]

/-- **C133 (stacks)** and the same stack. -/
theorem C133_stack (root : Xml) {a b : AhbLocation} (h : SameQuestion a b) : getEdifactStack root a = getEdifactStack root b := by
  unfold getEdifactStack
  rw [C133_question root h]

/-- a location that asks for the same element as `exAttributesLoc`, with another opening segment -/
def exOtherLoc : AhbLocation :=
  { segmentCode := none, dataElementId := some py!"2005", qualifier := none,
    layers := [{ segmentGroupKey := some py!"UNH", openingSegmentCode := py!"BGM", openingQualifier := none }] }

/-- the hypotheses are met by two different locations, and the element exists -/
example : SameQuestion exAttributesLoc exOtherLoc ∧ exAttributesLoc ≠ exOtherLoc ∧
    ((getElement (exAttributes [] [] none) exOtherLoc).toOption.map (·.path)) = some [0, 0, 0] :=
  ⟨⟨.cons ⟨.inr ⟨.inl rfl, .inr (.inr rfl)⟩, rfl⟩ .nil, .inr ⟨.inr rfl, .inl rfl⟩, rfl, fun _ => rfl⟩, by decide, by decide +kernel⟩

end Verif
