import Verif.Spec.MigLocation
/-!
# What a MIG lookup reads of a location
-/

namespace Verif

theorem layerRef_question {x y : AhbLocationLayer} (h : SameGroupKey x.segmentGroupKey y.segmentGroupKey) : layerRef x = layerRef y := by
  unfold layerRef
  rcases h with h | ⟨h1, h2⟩
  · rw [h]
  · rcases h1 with h1 | h1 | h1 <;> rcases h2 with h2 | h2 | h2 <;> rw [h1, h2] <;> rfl

theorem layerLoop_question (root : Xml) {a b : List AhbLocationLayer}
    (h : List.Forall₂ (fun x y : AhbLocationLayer => SameGroupKey x.segmentGroupKey y.segmentGroupKey ∧ x.openingQualifier = y.openingQualifier) a b) :
    ∀ (final : List XStep) (c : List XNode), layerLoop root final c a = layerLoop root final c b := by
  induction h with
  | nil => intro final c; rfl
  | cons hx _ ih =>
    intro final c
    rw [layerLoop, layerLoop]
    simp only [candidateIndexFromKey, layerRef_question hx.1, hx.2, ih]

theorem getLast_question {a b : List AhbLocationLayer}
    (h : List.Forall₂ (fun x y : AhbLocationLayer => SameGroupKey x.segmentGroupKey y.segmentGroupKey ∧ x.openingQualifier = y.openingQualifier) a b) :
    (a.getLast? = none ∧ b.getLast? = none) ∨ ∃ x y, a.getLast? = some x ∧ b.getLast? = some y ∧ x.openingQualifier = y.openingQualifier := by
  induction h with
  | nil => exact .inl ⟨rfl, rfl⟩
  | @cons x y a b hx hr ih =>
    cases hr with
    | nil => exact .inr ⟨_, _, rfl, rfl, hx.2⟩
    | cons h1 h2 =>
      right
      rcases ih with ⟨h3, _⟩ | ⟨x', y', h3, h4, h5⟩
      · simp at h3
      · exact ⟨x', y', by rw [List.getLast?_cons_cons]; exact h3, by rw [List.getLast?_cons_cons]; exact h4, h5⟩

end Verif
