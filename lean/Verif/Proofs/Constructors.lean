import Verif.Spec.Constructors
import Verif.Proofs.Codes
import Verif.Proofs.ValuePool
/-! the checks of the constructors in terms of the specification -/

namespace Verif
open Re

theorem noneOr_notBlank (o : Option PyStr) : (o.isSome && !isNotBlank o) = true ↔ ¬ NoneOr NotBlank o := by
  cases o with
  | none => simp [NoneOr]
  | some s => simp [NoneOr, ← notBlank_iff]

theorem someOf_notBlank (o : Option PyStr) : isNotBlank o = true ↔ SomeOf NotBlank o := by
  cases o with
  | none => simp [SomeOf, isNotBlank]
  | some s => simp [SomeOf, notBlank_iff]

theorem someOf_qualifier (o : Option PyStr) : isEdifactQualifier o = true ↔ SomeOf AcceptableQualifier o := by
  cases o with
  | none => simp [SomeOf, isEdifactQualifier]
  | some s => simp [SomeOf, isEdifactQualifier_iff]

theorem segmentId5Re_iff (s : PyStr) : (segmentId5Re.fullMatch s).isSome = true ↔ IsFiveDigits s := by
  rw [fullMatch_isSome]
  simp only [segmentId5Re, mem_seq, mem_bol, mem_rep_cls, mem_eol, IsFiveDigits]
  constructor
  · rintro ⟨t, ⟨u, ⟨_, rfl⟩, w, ⟨d, s'', hd, h2, h3, rfl⟩, h4, rfl⟩, h5⟩
    simp only [adv_rest] at h2 h5
    subst h5
    simp only [List.append_nil] at h2
    subst h2
    exact ⟨hd, by simpa using h3⟩
  · rintro ⟨hd, h3⟩
    exact ⟨_, ⟨_, ⟨trivial, rfl⟩, _, ⟨s, [], hd, by simp, by simpa using h3, rfl⟩, by simp, rfl⟩, by simp⟩

/-- the checks that data elements have in common -/
theorem checkBase_cases (disc i : Option PyStr) :
    (∃ id, i = some id ∧ NoneOr NotBlank disc ∧ IsFourDigits id ∧ DataElement.checkBase disc i = .ok id) ∨
    (i = none ∧ NoneOr NotBlank disc ∧ DataElement.checkBase disc i = .error .typeError) ∨
    ((¬ NoneOr NotBlank disc ∨ SomeOf (¬ IsFourDigits ·) i) ∧ DataElement.checkBase disc i = .error .valueError) := by
  unfold DataElement.checkBase
  by_cases h : NoneOr NotBlank disc
  · have h' := (not_congr (noneOr_notBlank disc)).2 (not_not_intro h)
    rw [if_neg h']
    cases i with
    | none => exact .inr (.inl ⟨rfl, h, rfl⟩)
    | some s =>
      by_cases hs : IsFourDigits s
      · have := (dataElement4Re_iff s).2 hs
        exact .inl ⟨s, rfl, h, hs, by simp [Option.isSome_iff_ne_none.1 this]⟩
      · have := (not_congr (dataElement4Re_iff s)).2 hs
        exact .inr (.inr ⟨.inr ⟨s, rfl, hs⟩, by simpa using this⟩)
  · exact .inr (.inr ⟨.inl h, if_pos ((noneOr_notBlank disc).2 h)⟩)

theorem checkExpression_cases (x : Option PyStr) :
    (∃ e, x = some e ∧ NotBlank e ∧ checkSegmentLevelExpression x = .ok e) ∨
    (x = none ∧ checkSegmentLevelExpression x = .error .typeError) ∨
    (SomeOf (¬ NotBlank ·) x ∧ checkSegmentLevelExpression x = .error .valueError) := by
  cases x with
  | none => exact .inr (.inl ⟨rfl, rfl⟩)
  | some e =>
    by_cases he : NotBlank e
    · exact .inl ⟨e, rfl, he, by simp [checkSegmentLevelExpression, (notBlank_iff e).2 he]⟩
    · exact .inr (.inr ⟨⟨e, rfl, he⟩, by simp [checkSegmentLevelExpression, mt (notBlank_iff e).1 he]⟩)

end Verif
