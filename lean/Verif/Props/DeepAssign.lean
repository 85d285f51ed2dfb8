import Verif.Proofs.DeepAssign
import Verif.Props.Schema
/-!
# C117: assignments to attributes of a deep AHB and its parts
-/

namespace Verif

/-! ## example: the segment 0 is used by both groups -/

/-- two groups, of which the first contains the second; both use the same segment -/
def exDeepObj : DeepObj :=
  { ahbMeta := { pruefidentifikator := py!"11042" },
    entries := fun i => if i = 0 then { qualifier := py!"E01", meaning := py!"Einzug", ahbExpression := py!"X" }
      else { qualifier := py!"E03", meaning := py!"Wechsel", ahbExpression := py!"X [1]" },
    dataElements := fun i => if i = 0 then
        { discriminator := some py!"$.a", dataElementId := py!"9013", enteredInput := none, valueType := some .valuePool, kind := .valuePool [0, 1] }
      else { discriminator := none, dataElementId := py!"3039", enteredInput := some py!"42", valueType := some .text, kind := .freeText py!"Muss" },
    segments := fun _ => { discriminator := some py!"STS", ahbExpression := py!"Muss", ahbLineIndex := some 3, dataElements := [0, 1],
                           sectionName := some py!"Status", segmentId := none },
    groups := fun i => if i = 0 then
        { discriminator := some py!"root", ahbExpression := py!"Muss", ahbLineIndex := some 1, segments := some [0], segmentGroups := some [1] }
      else { discriminator := some py!"SG4", ahbExpression := py!"Kann", ahbLineIndex := some 2, segments := some [0], segmentGroups := none },
    lines := [0] }

theorem exDeepObj_sound : exDeepObj.Sound where
  info := ⟨fun _ h => (by cases h), fun _ h => (by cases h)⟩
  entries r := by
    unfold exDeepObj
    simp only
    split <;> exact ⟨(isEdifactQualifier_iff _).1 (by decide +kernel), (notBlank_iff _).1 (by decide +kernel)⟩
  dataElements r := by
    unfold exDeepObj
    simp only
    split
    · refine ⟨fun _ h => ?_, (dataElement4Re_iff _).1 (by decide +kernel), fun _ h => by cases h⟩
      cases h
      exact (notBlank_iff _).1 (by decide +kernel)
    · refine ⟨fun _ h => (by cases h), (dataElement4Re_iff _).1 (by decide +kernel), fun _ h => ?_⟩
      cases h
      exact (notBlank_iff _).1 (by decide +kernel)
  segments r := by
    unfold exDeepObj
    exact ⟨(notBlank_iff py!"Muss").1 (by decide +kernel), fun _ h => (by cases h)⟩
  groups r := by
    unfold exDeepObj
    simp only
    split <;> exact (notBlank_iff _).1 (by decide +kernel)

/-! ## C117 -/

/-- **C117** what is read does not depend on the depth to which it is read -/
theorem C117_value_unique (o : DeepObj) {n m : Nat} {a b : DeepAhb} (ha : o.value n = some a) (hb : o.value m = some b) : a = b := by
  have h1 := value_mono o m ha
  have h2 := value_mono o n hb
  rw [Nat.add_comm m n, h1, Option.some.injEq] at h2
  exact h2

/-- **C117** what is read is what the references lead to: at every address there is a group iff the references lead to a group object, and
then it shows the attributes of this object, of its segments, their data elements and entries -/
theorem C117_value_shows (o : DeepObj) {n : Nat} {a : DeepAhb} (h : o.value n = some a) :
    a.ahbMeta = o.ahbMeta ∧ ∀ address : List Nat,
      (o.follow o.lines address = none ∧ groupAt? a.lines address = none) ∨
      ∃ (r : Nat) (g : SegmentGroup), o.follow o.lines address = some r ∧ groupAt? a.lines address = some g ∧ o.ShowsGroup r g := by
  unfold DeepObj.value at h
  simp only [Option.map_eq_some_iff] at h
  obtain ⟨gs, hm, rfl⟩ := h
  exact ⟨rfl, fun address => groups_shown o address n _ _ hm⟩

/-- the second group is below the first -/
example : (exDeepObj.value 2).isSome ∧ exDeepObj.follow exDeepObj.lines [0, 0] = some 1 ∧ exDeepObj.follow exDeepObj.lines [0, 1] = none := by
  decide +kernel

/-- **C117** whatever is assigned, and whatever is refused in between: every object is one its constructor accepts, so that a deep AHB that
is read afterwards is one that can be constructed; it can be dumped and loaded again as C39 says -/
theorem C117_stays_constructed (o : DeepObj) (edits : List DeepAssign) (h : o.Sound) :
    (o.run edits).Sound ∧ ∀ (n : Nat) (a : DeepAhb), (o.run edits).value n = some a →
      a.Constructed ∧ (a.Complete → DeepAhb.load a.dump = .ok a.resetAhbLineIndex) := by
  have hs : (o.run edits).Sound := by
    unfold DeepObj.run
    induction edits generalizing o with
    | nil => exact h
    | cons e edits ih => exact ih _ (apply_sound h e)
  exact ⟨hs, fun n a ha => ⟨value_constructed hs ha, (C39_deep_round_trip_exact a (value_constructed hs ha)).1⟩⟩

example : exDeepObj.Sound ∧ ∃ a, (exDeepObj.run [.dataElement 1 (.enteredInput (some py!"43")), .segment 0 (.ahbExpression (some py!" ")),
    .group 1 (.segmentGroups (some [])), .entry 0 (.qualifier (some py!"Z33"))]).value 2 = some a :=
  ⟨exDeepObj_sound, _, rfl⟩

/-- **C117** an assignment that is accepted changes this attribute of this object to this value and nothing else -/
theorem C117_assign (o : DeepObj) (e : DeepAssign) (h : (o.apply e).2 = none) (c : DeepCell) :
    (o.apply e).1.read c = if c = e.target.1 then e.target.2 else o.read c := by
  have hh : ∀ {α : Type} (heap : Nat → α) (r : Nat) (x : α), heapSet heap r x r = x := fun _ _ _ => by simp [heapSet]
  have hn : ∀ {α : Type} (heap : Nat → α) (r i : Nat) (x : α), i ≠ r → heapSet heap r x i = heap i := fun _ _ _ _ h => by simp [heapSet, h]
  cases e with
  | info a =>
    simp only [DeepObj.apply] at h ⊢
    cases a with
    | pruefidentifikator v => cases c <;> rfl
    | mausVersion v => cases c <;> rfl
    | description v =>
      simp only [AhbMetaInformation.assign] at h ⊢
      split at h
      · rename_i m hm
        split at hm
        · cases hm
        · cases hm
          cases c <;> rfl
      · cases h
    | direction v =>
      simp only [AhbMetaInformation.assign] at h ⊢
      split at h
      · rename_i m hm
        split at hm
        · cases hm
        · cases hm
          cases c <;> rfl
      · cases h
  | lines v => cases c <;> rfl
  | entry r a =>
    simp only [DeepObj.apply] at h ⊢
    cases ha : (o.entries r).assign a with
    | error x => rw [ha] at h; cases h
    | ok x =>
      simp only
      cases a with
      | qualifier v =>
        simp only [ValuePoolEntry.assign] at ha
        split at ha
        · cases ha
        · rename_i hq
          obtain ⟨q, rfl, _⟩ := (someOf_qualifier v).1 (by simpa using hq)
          cases ha
          cases c <;> first | rfl | (rename_i r'; by_cases hr : r' = r <;> simp [DeepObj.read, DeepAssign.target, hr, hh, hn])
      | meaning v =>
        cases v with
        | none => cases ha
        | some m =>
          cases ha
          cases c <;> first | rfl | (rename_i r'; by_cases hr : r' = r <;> simp [DeepObj.read, DeepAssign.target, hr, hh, hn])
      | ahbExpression v =>
        simp only [ValuePoolEntry.assign] at ha
        split at ha
        · cases ha
        · rename_i hq
          obtain ⟨q, rfl, _⟩ := (someOf_notBlank v).1 (by simpa using hq)
          cases ha
          cases c <;> first | rfl | (rename_i r'; by_cases hr : r' = r <;> simp [DeepObj.read, DeepAssign.target, hr, hh, hn])
  | dataElement r a =>
    simp only [DeepObj.apply] at h ⊢
    cases ha : (o.dataElements r).assign a with
    | error x => rw [ha] at h; cases h
    | ok x =>
      simp only
      cases a with
      | discriminator v =>
        simp only [DataElementObj.assign] at ha
        split at ha
        · cases ha
        · cases ha
          cases c <;> first | rfl | (rename_i r'; by_cases hr : r' = r <;> simp [DeepObj.read, DeepAssign.target, hr, hh, hn])
      | dataElementId v =>
        cases v with
        | none => cases ha
        | some s =>
          simp only [DataElementObj.assign] at ha
          split at ha
          · cases ha
          · cases ha
            cases c <;> first | rfl | (rename_i r'; by_cases hr : r' = r <;> simp [DeepObj.read, DeepAssign.target, hr, hh, hn])
      | enteredInput v =>
        cases ha
        cases c <;> first | rfl | (rename_i r'; by_cases hr : r' = r <;> simp [DeepObj.read, DeepAssign.target, hr, hh, hn])
      | valueType v =>
        cases ha
        cases c <;> first | rfl | (rename_i r'; by_cases hr : r' = r <;> simp [DeepObj.read, DeepAssign.target, hr, hh, hn])
      | ahbExpression v =>
        simp only [DataElementObj.assign] at ha
        cases hk : (o.dataElements r).kind with
        | valuePool p => rw [hk] at ha; cases ha
        | freeText e =>
          rw [hk] at ha
          cases v with
          | none => cases ha
          | some s =>
            simp only at ha
            split at ha
            · cases ha
            · cases ha
              cases c <;> first | rfl | (rename_i r'; by_cases hr : r' = r <;> simp [DeepObj.read, DeepAssign.target, hr, hh, hn, hk])
      | valuePool p =>
        simp only [DataElementObj.assign] at ha
        cases hk : (o.dataElements r).kind with
        | freeText e => rw [hk] at ha; cases ha
        | valuePool p' =>
          rw [hk] at ha
          cases ha
          cases c <;> first | rfl | (rename_i r'; by_cases hr : r' = r <;> simp [DeepObj.read, DeepAssign.target, hr, hh, hn, hk])
  | segment r a =>
    simp only [DeepObj.apply] at h ⊢
    cases ha : (o.segments r).assign a with
    | error x => rw [ha] at h; cases h
    | ok x =>
      simp only
      cases a with
      | ahbExpression v =>
        simp only [SegmentObj.assign] at ha
        rcases checkExpression_cases v with ⟨e, rfl, he, hb⟩ | ⟨rfl, hb⟩ | ⟨_, hb⟩
        · rw [hb] at ha
          cases ha
          cases c <;> first | rfl | (rename_i r'; by_cases hr : r' = r <;> simp [DeepObj.read, DeepAssign.target, hr, hh, hn])
        · rw [hb] at ha; cases ha
        · rw [hb] at ha; cases ha
      | segmentId v =>
        simp only [SegmentObj.assign] at ha
        split at ha
        · cases ha
        · cases ha
          cases c <;> first | rfl | (rename_i r'; by_cases hr : r' = r <;> simp [DeepObj.read, DeepAssign.target, hr, hh, hn])
      | _ =>
        cases ha
        cases c <;> first | rfl | (rename_i r'; by_cases hr : r' = r <;> simp [DeepObj.read, DeepAssign.target, hr, hh, hn])
  | group r a =>
    simp only [DeepObj.apply] at h ⊢
    cases ha : (o.groups r).assign a with
    | error x => rw [ha] at h; cases h
    | ok x =>
      simp only
      cases a with
      | ahbExpression v =>
        simp only [GroupObj.assign] at ha
        rcases checkExpression_cases v with ⟨e, rfl, he, hb⟩ | ⟨rfl, hb⟩ | ⟨_, hb⟩
        · rw [hb] at ha
          cases ha
          cases c <;> first | rfl | (rename_i r'; by_cases hr : r' = r <;> simp [DeepObj.read, DeepAssign.target, hr, hh, hn])
        · rw [hb] at ha; cases ha
        · rw [hb] at ha; cases ha
      | _ =>
        cases ha
        cases c <;> first | rfl | (rename_i r'; by_cases hr : r' = r <;> simp [DeepObj.read, DeepAssign.target, hr, hh, hn])

/-- **C117** an assignment is accepted iff the object has the attribute and the value is as documented; otherwise nothing changes, and the
exception is an `AttributeError` if the object has no such attribute, a `TypeError` if the value is `None` although a text is required, and
else a `ValueError` -/
theorem C117_outcome (o : DeepObj) (e : DeepAssign) :
    ((o.apply e).2 = none ↔ o.read e.target.1 ≠ .missing ∧ e.Documented) ∧
    ((o.apply e).2 ≠ none → (o.apply e).1 = o) ∧
    ((o.apply e).2 = some .attributeError ↔ o.read e.target.1 = .missing) ∧
    ((o.apply e).2 = some .typeError ↔ o.read e.target.1 ≠ .missing ∧ e.GivesNone) ∧
    ((o.apply e).2 = some .valueError ↔ o.read e.target.1 ≠ .missing ∧ ¬ e.GivesNone ∧ ¬ e.Documented) := by
  have hb : ∀ v : Option PyStr, NoneOr NotBlank v → (v.isSome && !isNotBlank v) = false := fun v h => by
    simpa using mt (noneOr_notBlank v).1 (not_not_intro h)
  have hb' : ∀ v : Option PyStr, ¬ NoneOr NotBlank v → (v.isSome && !isNotBlank v) = true := fun v h => (noneOr_notBlank v).2 h
  cases e with
  | lines v => simp [DeepObj.apply, DeepObj.read, DeepAssign.target, DeepAssign.Documented, DeepAssign.GivesNone]
  | info a =>
    cases a with
    | description v =>
      by_cases hv : NoneOr NotBlank v
      · simp [DeepObj.apply, AhbMetaInformation.assign, DeepObj.read, DeepAssign.target, DeepAssign.Documented, DeepAssign.GivesNone, hv, hb v hv]
      · simp [DeepObj.apply, AhbMetaInformation.assign, DeepObj.read, DeepAssign.target, DeepAssign.Documented, DeepAssign.GivesNone, hv, hb' v hv]
    | direction v =>
      by_cases hv : NoneOr NotBlank v
      · simp [DeepObj.apply, AhbMetaInformation.assign, DeepObj.read, DeepAssign.target, DeepAssign.Documented, DeepAssign.GivesNone, hv, hb v hv]
      · simp [DeepObj.apply, AhbMetaInformation.assign, DeepObj.read, DeepAssign.target, DeepAssign.Documented, DeepAssign.GivesNone, hv, hb' v hv]
    | _ => simp [DeepObj.apply, AhbMetaInformation.assign, DeepObj.read, DeepAssign.target, DeepAssign.Documented, DeepAssign.GivesNone]
  | entry r a =>
    cases a with
    | qualifier v =>
      by_cases hv : SomeOf AcceptableQualifier v
      · simp [DeepObj.apply, ValuePoolEntry.assign, DeepObj.read, DeepAssign.target, DeepAssign.Documented, DeepAssign.GivesNone, hv,
          (someOf_qualifier v).2 hv]
      · simp [DeepObj.apply, ValuePoolEntry.assign, DeepObj.read, DeepAssign.target, DeepAssign.Documented, DeepAssign.GivesNone, hv,
          mt (someOf_qualifier v).1 hv]
    | meaning v =>
      cases v <;>
        simp [DeepObj.apply, ValuePoolEntry.assign, DeepObj.read, DeepAssign.target, DeepAssign.Documented, DeepAssign.GivesNone]
    | ahbExpression v =>
      by_cases hv : SomeOf NotBlank v
      · simp [DeepObj.apply, ValuePoolEntry.assign, DeepObj.read, DeepAssign.target, DeepAssign.Documented, DeepAssign.GivesNone, hv,
          (someOf_notBlank v).2 hv]
      · simp [DeepObj.apply, ValuePoolEntry.assign, DeepObj.read, DeepAssign.target, DeepAssign.Documented, DeepAssign.GivesNone, hv,
          mt (someOf_notBlank v).1 hv]
  | dataElement r a =>
    cases a with
    | discriminator v =>
      by_cases hv : NoneOr NotBlank v
      · simp [DeepObj.apply, DataElementObj.assign, DeepObj.read, DeepAssign.target, DeepAssign.Documented, DeepAssign.GivesNone, hv, hb v hv]
      · simp [DeepObj.apply, DataElementObj.assign, DeepObj.read, DeepAssign.target, DeepAssign.Documented, DeepAssign.GivesNone, hv, hb' v hv]
    | dataElementId v =>
      cases v with
      | none => simp [DeepObj.apply, DataElementObj.assign, DeepObj.read, DeepAssign.target, DeepAssign.Documented, DeepAssign.GivesNone, SomeOf]
      | some s =>
        have hm := dataElement4Re_iff s
        cases hs : dataElement4Re.fullMatch s with
        | none =>
          have hv : ¬ IsFourDigits s := fun hv => by simp [hs] at hm; exact hm hv
          simp [DeepObj.apply, DataElementObj.assign, DeepObj.read, DeepAssign.target, DeepAssign.Documented, DeepAssign.GivesNone, SomeOf, hs, hv]
        | some x =>
          have hv : IsFourDigits s := by simpa [hs] using hm
          simp [DeepObj.apply, DataElementObj.assign, DeepObj.read, DeepAssign.target, DeepAssign.Documented, DeepAssign.GivesNone, SomeOf, hs, hv]
    | ahbExpression v =>
      cases hk : (o.dataElements r).kind with
      | valuePool p =>
        simp [DeepObj.apply, DataElementObj.assign, DeepObj.read, DeepAssign.target, hk]
      | freeText x =>
        cases v with
        | none => simp [DeepObj.apply, DataElementObj.assign, DeepObj.read, DeepAssign.target, DeepAssign.Documented, DeepAssign.GivesNone, SomeOf, hk]
        | some s =>
          by_cases hv : NotBlank s
          · simp [DeepObj.apply, DataElementObj.assign, DeepObj.read, DeepAssign.target, DeepAssign.Documented, DeepAssign.GivesNone, SomeOf, hk,
              hv, (notBlank_iff s).2 hv]
          · simp [DeepObj.apply, DataElementObj.assign, DeepObj.read, DeepAssign.target, DeepAssign.Documented, DeepAssign.GivesNone, SomeOf, hk,
              hv, mt (notBlank_iff s).1 hv]
    | valuePool p =>
      cases hk : (o.dataElements r).kind <;>
        simp [DeepObj.apply, DataElementObj.assign, DeepObj.read, DeepAssign.target, DeepAssign.Documented, DeepAssign.GivesNone, hk]
    | _ => simp [DeepObj.apply, DataElementObj.assign, DeepObj.read, DeepAssign.target, DeepAssign.Documented, DeepAssign.GivesNone]
  | segment r a =>
    cases a with
    | ahbExpression v =>
      rcases checkExpression_cases v with ⟨e, rfl, he, hc⟩ | ⟨rfl, hc⟩ | ⟨⟨e, rfl, he⟩, hc⟩ <;>
        simp_all [DeepObj.apply, SegmentObj.assign, DeepObj.read, DeepAssign.target, DeepAssign.Documented, DeepAssign.GivesNone, SomeOf,
          Bind.bind, Except.bind, pure, Except.pure]
    | segmentId v =>
      have hm : optMatches segmentId5Re v = true ↔ NoneOr IsFiveDigits v := optMatches_iff segmentId5Re_iff v
      by_cases hv : NoneOr IsFiveDigits v
      · simp [DeepObj.apply, SegmentObj.assign, DeepObj.read, DeepAssign.target, DeepAssign.Documented, DeepAssign.GivesNone, hv, hm.2 hv]
      · simp [DeepObj.apply, SegmentObj.assign, DeepObj.read, DeepAssign.target, DeepAssign.Documented, DeepAssign.GivesNone, hv, mt hm.1 hv]
    | _ => simp [DeepObj.apply, SegmentObj.assign, DeepObj.read, DeepAssign.target, DeepAssign.Documented, DeepAssign.GivesNone]
  | group r a =>
    cases a with
    | ahbExpression v =>
      rcases checkExpression_cases v with ⟨e, rfl, he, hc⟩ | ⟨rfl, hc⟩ | ⟨⟨e, rfl, he⟩, hc⟩ <;>
        simp_all [DeepObj.apply, GroupObj.assign, DeepObj.read, DeepAssign.target, DeepAssign.Documented, DeepAssign.GivesNone, SomeOf,
          Bind.bind, Except.bind, pure, Except.pure]
    | _ => simp [DeepObj.apply, GroupObj.assign, DeepObj.read, DeepAssign.target, DeepAssign.Documented, DeepAssign.GivesNone]

example : (exDeepObj.apply (.dataElement 0 (.ahbExpression (some py!"X")))).2 = some .attributeError ∧
    (exDeepObj.apply (.dataElement 1 (.ahbExpression none))).2 = some .typeError ∧
    (exDeepObj.apply (.dataElement 1 (.ahbExpression (some py!" ")))).2 = some .valueError ∧
    (exDeepObj.apply (.dataElement 1 (.ahbExpression (some py!"X")))).2 = none := by decide +kernel

-- the segment 0 is used at two places: the assignment shows at both
example : ∃ a b, exDeepObj.value 2 = some a ∧ (exDeepObj.apply (.segment 0 (.sectionName (some py!"Neu")))).1.value 2 = some b ∧
    (∀ s ∈ a.findSegments (fun _ => true) (fun _ => true), s.sectionName = some py!"Status") ∧
    (∀ s ∈ b.findSegments (fun _ => true) (fun _ => true), s.sectionName = some py!"Neu") ∧ documentOrder b.lines ≠ [] :=
  ⟨_, _, rfl, rfl, by decide +kernel, by decide +kernel, by decide +kernel⟩

/-- **C117** the groups below a group are not validated: an assignment that makes a group contain itself is accepted, and the deep AHB can
be read to no depth any more -/
theorem C117_cycle : ∃ (o : DeepObj) (e : DeepAssign), o.Sound ∧ (∃ n a, o.value n = some a) ∧ (o.apply e).2 = none ∧
    ∀ n, (o.apply e).1.value n = none := by
  refine ⟨exDeepObj, .group 0 (.segmentGroups (some [0])), exDeepObj_sound, ⟨2, _, rfl⟩, rfl, fun n => ?_⟩
  have hg : ∀ n, (exDeepObj.apply (.group 0 (.segmentGroups (some [0])))).1.group n 0 = none := by
    intro n
    induction n with
    | zero => rfl
    | succ n ih =>
      have : (exDeepObj.apply (.group 0 (.segmentGroups (some [0])))).1.group (n + 1) 0 =
          ([0].mapM ((exDeepObj.apply (.group 0 (.segmentGroups (some [0])))).1.group n)).map fun gs =>
            .mk (some py!"root") py!"Muss" (some 1) (some [(exDeepObj.apply (.group 0 (.segmentGroups (some [0])))).1.segment 0]) (some gs) := rfl
      rw [this]
      simp [List.mapM_cons, ih]
  show (([0].mapM ((exDeepObj.apply (.group 0 (.segmentGroups (some [0])))).1.group n)).map _) = none
  simp [List.mapM_cons, hg]

end Verif
