import Verif.Proofs.Constructors
/-!
# C88: the constructors accept exactly the documented arguments

Every theorem lists all possible outcomes: the object that is built of the arguments, a `TypeError` or a `ValueError`. Where several
arguments are wrong, the first one in the order of the attributes determines the exception.
-/

namespace Verif

/-- **C88** `AhbLine(...)`: the expression is `None` or not blank, the index is `None` or not negative (a GUID has 128 bits); a
`ValueError` otherwise -/
theorem C88_line (l : AhbLine) (hg : NoneOr (· < 2 ^ 128) l.guid) :
    (AhbLine.new l = .ok l ↔ NoneOr NotBlank l.ahbExpression ∧ NoneOr (0 ≤ ·) l.index) ∧
    (AhbLine.new l = .error .valueError ↔ ¬ (NoneOr NotBlank l.ahbExpression ∧ NoneOr (0 ≤ ·) l.index)) := by
  have hv : l.valid = true ↔ NoneOr NotBlank l.ahbExpression ∧ NoneOr (0 ≤ ·) l.index := by
    unfold AhbLine.valid
    have h1 : (l.ahbExpression.isNone || isNotBlank l.ahbExpression) = true ↔ NoneOr NotBlank l.ahbExpression := by
      cases l.ahbExpression with
      | none => simp [NoneOr]
      | some s => simp [NoneOr, notBlank_iff]
    rw [Bool.and_eq_true, Bool.and_eq_true, h1]
    unfold NoneOr at hg ⊢
    cases l.index <;> cases hgu : l.guid <;> simp_all
  unfold AhbLine.new
  rw [← hv]
  split <;> simp_all

/-- **C88** `AhbMetaInformation(...)`: description and direction are `None` or not blank; a `ValueError` otherwise -/
theorem C88_meta (m : AhbMetaInformation) :
    (AhbMetaInformation.new m = .ok m ↔ NoneOr NotBlank m.description ∧ NoneOr NotBlank m.direction) ∧
    (AhbMetaInformation.new m = .error .valueError ↔ ¬ (NoneOr NotBlank m.description ∧ NoneOr NotBlank m.direction)) := by
  unfold AhbMetaInformation.new
  rw [not_and_or, ← noneOr_notBlank, ← noneOr_notBlank, ← not_not (a := NoneOr NotBlank m.description),
    ← not_not (a := NoneOr NotBlank m.direction), ← noneOr_notBlank, ← noneOr_notBlank]
  cases (m.description.isSome && !isNotBlank m.description) <;> cases (m.direction.isSome && !isNotBlank m.direction) <;> simp

/-- **C88** `ValuePoolEntry(...)` -/
theorem C88_value_pool_entry (q m x : Option PyStr) :
    (∀ e, ValuePoolEntry.new q m x = .ok e ↔
      q = some e.qualifier ∧ m = some e.meaning ∧ x = some e.ahbExpression ∧
      AcceptableQualifier e.qualifier ∧ NotBlank e.ahbExpression) ∧
    (ValuePoolEntry.new q m x = .error .typeError ↔ SomeOf AcceptableQualifier q ∧ m = none) ∧
    (ValuePoolEntry.new q m x = .error .valueError ↔
      ¬ SomeOf AcceptableQualifier q ∨ m ≠ none ∧ ¬ SomeOf NotBlank x) := by
  unfold ValuePoolEntry.new
  by_cases hq : SomeOf AcceptableQualifier q
  · rw [(someOf_qualifier q).2 hq]
    obtain ⟨s, rfl, hs⟩ := hq
    cases m with
    | none => simp [SomeOf, hs]
    | some m =>
      by_cases hx : SomeOf NotBlank x
      · rw [(someOf_notBlank x).2 hx]
        obtain ⟨y, rfl, hy⟩ := hx
        refine ⟨fun e => ?_, by simp, by simp [SomeOf, hs, hy]⟩
        simp only [Bool.not_true, Bool.false_eq_true, if_false, Except.ok.injEq, Option.getD_some, Option.some.injEq]
        constructor
        · rintro rfl; exact ⟨rfl, rfl, rfl, hs, hy⟩
        · rintro ⟨rfl, rfl, rfl, _⟩; rfl
      · have hf : isNotBlank x = false := by simpa using mt (someOf_notBlank x).1 hx
        rw [hf]
        refine ⟨fun e => ?_, by simp, by simp [hx]⟩
        simp only [Bool.not_true, Bool.not_false, Bool.false_eq_true, if_false, if_true, reduceCtorEq, false_iff]
        rintro ⟨_, _, rfl, _, hn⟩
        exact hx ⟨_, rfl, hn⟩
  · have hf : isEdifactQualifier q = false := by simpa using mt (someOf_qualifier q).1 hq
    rw [hf]
    refine ⟨fun e => ?_, by simp [hq], by simp [hq]⟩
    simp only [Bool.not_false, if_true, reduceCtorEq, false_iff]
    rintro ⟨rfl, _, _, hn, _⟩
    exact hq ⟨_, rfl, hn⟩

/-- **C88** `DataElementFreeText(...)` -/
theorem C88_free_text (disc i inp x : Option PyStr) (t : Option DataElementDataType) :
    (∀ de, DataElement.newFreeText disc i inp x t = .ok de ↔
      ∃ id e, i = some id ∧ x = some e ∧ NoneOr NotBlank disc ∧ IsFourDigits id ∧ NotBlank e ∧
        de = { discriminator := disc, dataElementId := id, enteredInput := inp, valueType := t, kind := .freeText e }) ∧
    (DataElement.newFreeText disc i inp x t = .error .typeError ↔
      NoneOr NotBlank disc ∧ (i = none ∨ SomeOf IsFourDigits i ∧ x = none)) ∧
    (DataElement.newFreeText disc i inp x t = .error .valueError ↔
      ¬ NoneOr NotBlank disc ∨ SomeOf (¬ IsFourDigits ·) i ∨ i ≠ none ∧ SomeOf (¬ NotBlank ·) x) := by
  unfold DataElement.newFreeText
  rcases checkBase_cases disc i with ⟨id, rfl, hd, hi, hb⟩ | ⟨rfl, hd, hb⟩ | ⟨h, hb⟩
  · rw [hb]
    cases x with
    | none => simp [SomeOf, hd, hi, Bind.bind, Except.bind]
    | some e =>
      by_cases he : NotBlank e
      · simp [SomeOf, hd, hi, he, (notBlank_iff e).2 he, Bind.bind, Except.bind, pure, Except.pure, eq_comm]
      · simp [SomeOf, hd, hi, he, mt (notBlank_iff e).1 he, Bind.bind, Except.bind]
  · rw [hb]
    simp [SomeOf, hd, Bind.bind, Except.bind]
  · rw [hb]
    simp only [Bind.bind, Except.bind, reduceCtorEq, false_iff, Except.error.injEq, true_iff, not_exists]
    refine ⟨?_, ?_, ?_⟩
    · rintro de id e ⟨rfl, rfl, hd, hi, _⟩
      rcases h with h | ⟨a, ha, h⟩
      · exact h hd
      · cases ha; exact h hi
    · rintro ⟨hd, rfl | ⟨⟨a, rfl, ha⟩, _⟩⟩
      · rcases h with h | ⟨a, ha, h⟩
        · exact h hd
        · cases ha
      · rcases h with h | ⟨b, hb, h⟩
        · exact h hd
        · cases hb; exact h ha
    · rcases h with h | h
      · exact .inl h
      · exact .inr (.inl h)

/-- **C88** `DataElementValuePool(...)`; any list of entries is accepted, even the empty one -/
theorem C88_value_pool (disc i inp : Option PyStr) (entries : List ValuePoolEntry) (t : Option DataElementDataType) :
    (∀ de, DataElement.newValuePool disc i inp entries t = .ok de ↔
      ∃ id, i = some id ∧ NoneOr NotBlank disc ∧ IsFourDigits id ∧
        de = { discriminator := disc, dataElementId := id, enteredInput := inp, valueType := t, kind := .valuePool entries }) ∧
    (DataElement.newValuePool disc i inp entries t = .error .typeError ↔ NoneOr NotBlank disc ∧ i = none) ∧
    (DataElement.newValuePool disc i inp entries t = .error .valueError ↔
      ¬ NoneOr NotBlank disc ∨ SomeOf (¬ IsFourDigits ·) i) := by
  unfold DataElement.newValuePool
  rcases checkBase_cases disc i with ⟨id, rfl, hd, hi, hb⟩ | ⟨rfl, hd, hb⟩ | ⟨h, hb⟩
  · rw [hb]
    simp [SomeOf, hd, hi, Bind.bind, Except.bind, pure, Except.pure, eq_comm]
  · rw [hb]
    simp [SomeOf, hd, Bind.bind, Except.bind]
  · rw [hb]
    simp only [Bind.bind, Except.bind, reduceCtorEq, false_iff, Except.error.injEq, true_iff, not_exists]
    refine ⟨?_, ?_, h⟩
    · rintro de id ⟨rfl, hd, hi, _⟩
      rcases h with h | ⟨a, ha, h⟩
      · exact h hd
      · cases ha; exact h hi
    · rintro ⟨hd, rfl⟩
      rcases h with h | ⟨a, ha, h⟩
      · exact h hd
      · cases ha

/-- **C88** `Segment(...)`: an expression that is not blank, a segment id of five digits or none; nothing is required of the
discriminator, the index, the section name and the data elements -/
theorem C88_segment (disc x : Option PyStr) (index : Option Int) (des : List DataElement) (sect sid : Option PyStr) :
    (∀ s, Segment.new disc x index des sect sid = .ok s ↔
      ∃ e, x = some e ∧ NotBlank e ∧ NoneOr IsFiveDigits sid ∧
        s = { discriminator := disc, ahbExpression := e, ahbLineIndex := index, dataElements := des, sectionName := sect,
              segmentId := sid }) ∧
    (Segment.new disc x index des sect sid = .error .typeError ↔ x = none) ∧
    (Segment.new disc x index des sect sid = .error .valueError ↔
      SomeOf (¬ NotBlank ·) x ∨ x ≠ none ∧ ¬ NoneOr IsFiveDigits sid) := by
  unfold Segment.new
  have hm : optMatches segmentId5Re sid = true ↔ NoneOr IsFiveDigits sid := optMatches_iff segmentId5Re_iff sid
  rcases checkExpression_cases x with ⟨e, rfl, he, hb⟩ | ⟨rfl, hb⟩ | ⟨⟨e, rfl, he⟩, hb⟩
  · rw [hb]
    by_cases h : NoneOr IsFiveDigits sid
    · rw [hm.2 h]
      simp [SomeOf, h, he, Bind.bind, Except.bind, pure, Except.pure, eq_comm]
    · have hf : optMatches segmentId5Re sid = false := by simpa using mt hm.1 h
      rw [hf]
      simp [h, Bind.bind, Except.bind]
  · rw [hb]
    simp [SomeOf, Bind.bind, Except.bind]
  · rw [hb]
    simp [SomeOf, he, Bind.bind, Except.bind]

/-- **C88** `SegmentGroup(...)`: an expression that is not blank -/
theorem C88_group (disc x : Option PyStr) (index : Option Int) (segments : Option (List Segment))
    (groups : Option (List SegmentGroup)) :
    (∀ g, SegmentGroup.new disc x index segments groups = .ok g ↔
      ∃ e, x = some e ∧ NotBlank e ∧ g = .mk disc e index segments groups) ∧
    (SegmentGroup.new disc x index segments groups = .error .typeError ↔ x = none) ∧
    (SegmentGroup.new disc x index segments groups = .error .valueError ↔ SomeOf (¬ NotBlank ·) x) := by
  unfold SegmentGroup.new
  rcases checkExpression_cases x with ⟨e, rfl, he, hb⟩ | ⟨rfl, hb⟩ | ⟨⟨e, rfl, he⟩, hb⟩
  · rw [hb]; simp [SomeOf, he, Bind.bind, Except.bind, pure, Except.pure, eq_comm]
  · rw [hb]; simp [SomeOf, Bind.bind, Except.bind]
  · rw [hb]; simp [SomeOf, he, Bind.bind, Except.bind]

/-- **C88** `AhbLocationLayer(...)`: a group key "SG" with a number or `None`, a segment code of three capital letters, a qualifier
of capital letters followed by digits or `None` -/
theorem C88_location_layer (k o q : Option PyStr) :
    (∀ l, AhbLocationLayer.new k o q = .ok l ↔
      o = some l.openingSegmentCode ∧ k = l.segmentGroupKey ∧ q = l.openingQualifier ∧
      NoneOr IsSgKey k ∧ IsThreeLetterCode l.openingSegmentCode ∧ NoneOr IsLettersThenDigits q) ∧
    (AhbLocationLayer.new k o q = .error .typeError ↔ NoneOr IsSgKey k ∧ o = none) ∧
    (AhbLocationLayer.new k o q = .error .valueError ↔
      ¬ NoneOr IsSgKey k ∨ o ≠ none ∧ ¬ (SomeOf IsThreeLetterCode o ∧ NoneOr IsLettersThenDigits q)) := by
  have hk : optMatches sgKeyRe k = true ↔ NoneOr IsSgKey k := optMatches_iff sgKeyRe_iff k
  have hq : optMatches openingQualifierRe q = true ↔ NoneOr IsLettersThenDigits q := optMatches_iff openingQualifierRe_iff q
  unfold AhbLocationLayer.new
  rw [← hk, ← hq]
  cases optMatches sgKeyRe k with
  | false => simp
  | true =>
    cases o with
    | none => simp
    | some o =>
      have ho := segmentCode3Re_iff o
      by_cases h : IsThreeLetterCode o
      · have hn : (segmentCode3Re.fullMatch o).isNone = false := by
          have := ho.2 h; cases hm : segmentCode3Re.fullMatch o <;> simp_all
        dsimp only
        rw [hn]
        cases optMatches openingQualifierRe q with
        | false => simp
        | true =>
          refine ⟨fun l => ?_, by simp, by simp [SomeOf, h]⟩
          simp only [Bool.not_true, Bool.false_eq_true, if_false, Except.ok.injEq, Option.some.injEq, true_and, and_true]
          constructor
          · rintro rfl; exact ⟨rfl, rfl, rfl, h⟩
          · rintro ⟨rfl, rfl, rfl, _⟩; rfl
      · have hn : (segmentCode3Re.fullMatch o).isNone = true := by
          have := mt ho.1 h; cases hm : segmentCode3Re.fullMatch o <;> simp_all
        dsimp only
        rw [hn]
        refine ⟨fun l => ?_, by simp, by simp [SomeOf, h]⟩
        simp only [Bool.not_true, Bool.false_eq_true, if_false, if_true, reduceCtorEq, Option.some.injEq, true_and, false_iff]
        rintro ⟨rfl, _, _, h', _⟩
        exact h h'

/-- **C88** `AhbLocation(...)`: at least one layer, a segment code of three capital letters or `None`, a data element of four digits
or `None`; any qualifier. A `ValueError` otherwise. -/
theorem C88_location (layers : List AhbLocationLayer) (code de q : Option PyStr) :
    (∀ l, AhbLocation.new layers code de q = .ok l ↔
      layers ≠ [] ∧ NoneOr IsThreeLetterCode code ∧ NoneOr IsFourDigits de ∧
      l = { layers := layers, segmentCode := code, dataElementId := de, qualifier := q }) ∧
    (AhbLocation.new layers code de q = .error .valueError ↔
      ¬ (layers ≠ [] ∧ NoneOr IsThreeLetterCode code ∧ NoneOr IsFourDigits de)) := by
  have hk : optMatches segmentCode3Re code = true ↔ NoneOr IsThreeLetterCode code := optMatches_iff segmentCode3Re_iff code
  have hq : optMatches dataElement4Re de = true ↔ NoneOr IsFourDigits de := optMatches_iff dataElement4Re_iff de
  unfold AhbLocation.new
  rw [← hk, ← hq]
  cases layers with
  | nil => simp
  | cons a as =>
    cases optMatches segmentCode3Re code <;> cases optMatches dataElement4Re de <;> simp [eq_comm]

/-! ## examples -/

/-- a negative index, a blank expression -/
example : AhbLine.new { index := some (-1) } = .error .valueError ∧ AhbLine.new { ahbExpression := some py!" " } = .error .valueError ∧
    AhbLine.new { ahbExpression := some py!"Muss", index := some 0 } = .ok { ahbExpression := some py!"Muss", index := some 0 } := by
  decide +kernel

/-- a malformed qualifier is reported before the missing meaning -/
example : ¬ SomeOf AcceptableQualifier (some py!"z14") ∧
    ValuePoolEntry.new (some py!"z14") none none = .error .valueError ∧ ValuePoolEntry.new (some py!"Z14") none none = .error .typeError ∧
    (ValuePoolEntry.new (some py!"Z14") (some []) (some py!"X")).isOk = true := by
  refine ⟨?_, by decide +kernel, by decide +kernel, by decide +kernel⟩
  have := (C88_value_pool_entry (some py!"z14") (some []) (some py!"X")).2.2.1 (by decide +kernel)
  rcases this with h | ⟨_, h⟩
  · exact h
  · exact absurd ⟨_, rfl, (notBlank_iff py!"X").1 (by decide +kernel)⟩ h

/-- the segment id "0052" is too short, "00522\n" too long; the trailing line break is not accepted by `fullmatch` -/
example : ¬ NoneOr IsFiveDigits (some py!"0052") ∧ ¬ NoneOr IsFiveDigits (some py!"00522\n") ∧ NoneOr IsFiveDigits (some py!"00522") := by
  refine ⟨fun h => ?_, fun h => ?_, fun a h => ?_⟩
  · have := (h _ rfl).1; revert this; decide
  · have := (h _ rfl).1; revert this; decide
  · cases h; exact ⟨rfl, by decide +kernel⟩

example : Segment.new none (some py!"Muss") none [] none (some py!"0052") = .error .valueError ∧
    Segment.new none (some py!"Muss") none [] none (some py!"00522\n") = .error .valueError ∧
    (Segment.new none (some py!"Muss") none [] none (some py!"00522")).isOk = true ∧
    Segment.new none none none [] none (some py!"0052") = .error .typeError := by decide +kernel

/-- a missing data element id is a `TypeError`, a malformed one a `ValueError`, in either case before the expression is looked at -/
example : DataElement.newFreeText none none none (some py!" ") = .error .typeError ∧
    DataElement.newFreeText none (some py!"380") none none = .error .valueError ∧
    (DataElement.newFreeText none (some py!"2380") none (some py!"X")).isOk = true ∧
    (DataElement.newValuePool (some py!"$[\"a\"]") (some py!"2379") none []).isOk = true := by decide +kernel

example : AhbLocationLayer.new (some py!"SG") (some py!"NAD") none = .error .valueError ∧
    (AhbLocationLayer.new (some py!"SG12") (some py!"NAD") (some py!"Z09")).isOk = true ∧
    AhbLocationLayer.new none none none = .error .typeError ∧
    AhbLocationLayer.new none (some py!"UNH") (some py!"1A") = .error .valueError := by decide +kernel

example : AhbLocation.new [] none none none = .error .valueError ∧
    (AhbLocation.new [⟨none, py!"UNH", none⟩] (some py!"NAD") (some py!"3039") none).isOk = true ∧
    AhbLocation.new [⟨none, py!"UNH", none⟩] (some py!"Nad") none none = .error .valueError := by decide +kernel

end Verif
